import Verif.Model.Memory
import Verif.Model.Parameters

/-!
# The build experiments (`build-test`)

`maths`, `alloc` (crate `allocator`), `ios` and the Swift class and view controller that call it. `electron` shows the
same point with `alert`; `aos` has no functions.
-/

namespace Verif.BuildTest

variable {G : Type} [AddCommGroup G] [Module F G] [Ristretto G]
variable {R : Type} [RngCore R]

/-- `do_things_with_maths` (build-test/maths/src/lib.rs:20-28). `r n` is the state of `thread_rng()` before its `n`-th
use. -/
def maths (G : Type) [AddCommGroup G] [Module F G] [Ristretto G] (r : ℕ → R) : Bytes :=
  let phoneNumber := Scalar.ofF 4155551234
  let blinding := (Scalar.random (r 0)).1
  let nonce : G := (Scalar.random (r 1)).1 • basepoint G
  let exponent := 1 + blinding * phoneNumber
  enc (exponent • nonce)

/-- `malloc` (build-test/alloc/src/lib.rs:18-20), on a machine whose `usize` has `bits` bits. -/
structure Malloc (bits : ℕ) where
  /-- the address, if there is enough memory -/
  address : Mem → ℕ → Option ℕ
  /-- what is in the new block -/
  junk : Mem → ℕ → UInt8
  /-- new blocks are not null, not in use, and have addresses -/
  fresh : ∀ m n p, address m n = some p → p ≠ 0 ∧ p + n ≤ 2 ^ bits ∧ ∀ a, p ≤ a → a < p + n → m a = none

/-- A call of `malloc`: address and memory. -/
def Malloc.call {bits : ℕ} (A : Malloc bits) (m : Mem) (n : ℕ) : Option (ℕ × Mem) :=
  (A.address m n).map fun p => (p, fun a => if p ≤ a ∧ a < p + n then some (A.junk m a) else m a)

/-- How a function ends. -/
inductive Ends (α : Type) where
  | returns (a : α)
  /-- the program is terminated -/
  | crashes
  /-- memory that is not there is read or written -/
  | undefined
  deriving DecidableEq

/-- One step after another. -/
def Ends.andThen {α β : Type} : Ends α → (α → Ends β) → Ends β
  | .returns a, f => f a
  | .crashes, _ => .crashes
  | .undefined, _ => .undefined

/-- A write (alloc/src/lib.rs:39, 44). -/
def store (m : Mem) (p : ℕ) (bytes : Bytes) : Ends Mem :=
  if (m.read p bytes.length).isSome then .returns (m.write p bytes) else .undefined

/-- `s[k] = b` for the slice of `len` bytes at `dest` (alloc/src/lib.rs:43-44): panics out of range. -/
def setIndex (m : Mem) (dest len k : ℕ) (b : UInt8) : Ends Mem :=
  if k < len then store m (dest + k) [b] else .crashes

/-- `allocate_buffer_for_bytes` (alloc/src/lib.rs:22-47): pointer (`0` for null) and memory. -/
def allocateBufferForBytes {bits : ℕ} (A : Malloc bits) (m : Mem) (bytes : Bytes) : Ends (ℕ × Mem) :=
  let size := bytes.length
  if 2 ^ bits ≤ size + 1 then .returns (0, m) else
    match A.call m (size + 1) with
    | none => .returns (0, m)
    | some (dest, m1) =>
      (store m1 dest bytes).andThen fun m2 =>
      (setIndex m2 dest (size + 1) size 0).andThen fun m3 =>
      .returns (dest, m3)

/-- `do_things_with_maths` of the iOS library (build-test/ios/src/lib.rs:17-28). -/
def doThingsWithMaths (G : Type) [AddCommGroup G] [Module F G] [Ristretto G] {bits : ℕ} (A : Malloc bits) (m : Mem)
    (r : ℕ → R) : Ends (ℕ × Mem) :=
  allocateBufferForBytes A m (maths G r)

/-- `Data.init(bytes:count:)` (Foundation, used in build-test/ios/xcode/BuildTest.swift:13): copies the bytes. -/
def dataInit (m : Mem) (p count : ℕ) : Ends Bytes :=
  match m.read p count with
  | some b => .returns b
  | none => .undefined

/-- `DoThingsWithMaths.doThings` (BuildTest.swift:11-18): data and memory afterwards. The call of `free` is commented out
there. `result!` crashes if the pointer is null. -/
def doThings (G : Type) [AddCommGroup G] [Module F G] [Ristretto G] {bits : ℕ} (A : Malloc bits) (m : Mem)
    (r : ℕ → R) : Ends (Bytes × Mem) :=
  (doThingsWithMaths G A m r).andThen fun (p, m') =>
  if p = 0 then .crashes else
    (dataInit m' p 32).andThen fun b => .returns (b, m')

/-- `doMaths` is called `n` times, first by `viewDidLoad` and then by `buttonAction` (ViewController.swift:15-21, 30-39):
what `doThings` returns, the last first, and the memory after that. `r k` is the generator during the `k`-th time. -/
def presses (G : Type) [AddCommGroup G] [Module F G] [Ristretto G] {bits : ℕ} (A : Malloc bits) (m : Mem)
    (r : ℕ → ℕ → R) : ℕ → Ends (List Bytes × Mem)
  | 0 => .returns ([], m)
  | n + 1 =>
    (presses G A m r n).andThen fun (l, m') =>
    (doThings G A m' (r n)).andThen fun (b, m'') =>
    .returns (b :: l, m'')

/-- `String(format: "0x%02X ", b)` (ViewController.swift:23). -/
def hexByte (b : UInt8) : List Char :=
  let digit (k : ℕ) : Char := "0123456789ABCDEF".toList[k]!
  ['0', 'x', digit (b.toNat / 16), digit (b.toNat % 16), ' ']

/-- `encoded` in `doMaths` (ViewController.swift:23). -/
def encoded (point : Bytes) : List Char := (point.map hexByte).flatten

end Verif.BuildTest
