import Verif.Merlin

/-!
# Keccak, STROBE-128 and merlin, executable (external crates)

A concrete `Oracle` (`Verif/Merlin.lean`): the sponge behind `merlin::Transcript` and
`merlin::TranscriptRng` in merlin 0.2, as `/repo/aeonflux/Cargo.toml` requires. No theorem about the
library depends on it; it lets the kernel run the model on the test vectors of the repository
(`Verif/Vectors`). The 1600-bit state is one natural number, lane `(x, y)` at bit `64 (x + 5 y)`.
-/

namespace Verif.Concrete

/-- Hand a number to a continuation after evaluating it. -/
def force {α : Type} (n : ℕ) (k : ℕ → α) : α :=
  match n with
  | 0 => k 0
  | m + 1 => k (m + 1)

@[simp] theorem force_eq {α : Type} (n : ℕ) (k : ℕ → α) : force n k = k n := by
  cases n <;> rfl

namespace Keccak

/-- Lane rotation by `r < 64`. -/
def rol (a r : ℕ) : ℕ := (a <<< r ||| a >>> (64 - r)) % 2 ^ 64

/-- Replicate one row of lanes over the five rows. -/
def rep5 : ℕ := 1 + 2 ^ 320 + 2 ^ 640 + 2 ^ 960 + 2 ^ 1280

/-- The lowest bit of each lane of a row. -/
def low5 : ℕ := 1 + 2 ^ 64 + 2 ^ 128 + 2 ^ 192 + 2 ^ 256

/-- The destination `x + 5 y` and the rotation of each lane, in order of the source index. -/
def rhoPi : List (ℕ × ℕ) :=
  [(0, 0), (10, 1), (20, 62), (5, 28), (15, 27),
   (16, 36), (1, 44), (11, 6), (21, 55), (6, 20),
   (7, 3), (17, 10), (2, 43), (12, 25), (22, 39),
   (23, 41), (8, 45), (18, 15), (3, 21), (13, 8),
   (14, 18), (24, 2), (9, 61), (19, 56), (4, 14)]

def rc : List ℕ :=
  [0x0000000000000001, 0x0000000000008082, 0x800000000000808A, 0x8000000080008000,
   0x000000000000808B, 0x0000000080000001, 0x8000000080008081, 0x8000000000008009,
   0x000000000000008A, 0x0000000000000088, 0x0000000080008009, 0x000000008000000A,
   0x000000008000808B, 0x800000000000008B, 0x8000000000008089, 0x8000000000008003,
   0x8000000000008002, 0x8000000000000080, 0x000000000000800A, 0x800000008000000A,
   0x8000000080008081, 0x8000000000008080, 0x0000000080000001, 0x8000000080008008]

def theta (s : ℕ) : ℕ :=
  force ((s ^^^ s >>> 320 ^^^ s >>> 640 ^^^ s >>> 960 ^^^ s >>> 1280) % 2 ^ 320) fun c =>
  force ((c <<< 64 ||| c >>> 256) % 2 ^ 320) fun left =>
  force ((c >>> 64 ||| c <<< 256) % 2 ^ 320) fun right =>
  force (right >>> 63 &&& low5) fun top =>
  force ((right ^^^ top <<< 63) <<< 1 ||| top) fun rot =>
  s ^^^ (left ^^^ rot) * rep5

def rhoPiStep : List (ℕ × ℕ) → ℕ → ℕ → ℕ
  | [], _, acc => acc
  | (dst, r) :: rest, s, acc =>
    force (s >>> 64) fun s' =>
    force (acc + rol (s % 2 ^ 64) r <<< (64 * dst)) fun acc' =>
    rhoPiStep rest s' acc'

/-- All five lanes of each row moved down by one place. -/
def rowRot (s : ℕ) : ℕ :=
  force ((2 ^ 64 - 1) * rep5) fun first =>
  force (s &&& first) fun a =>
  (s ^^^ a) >>> 64 ||| a <<< 256

def chi (s : ℕ) : ℕ :=
  force (rowRot s) fun s1 =>
  force (rowRot s1) fun s2 =>
  s ^^^ ((s1 ^^^ (2 ^ 1600 - 1)) &&& s2)

def rounds : List ℕ → ℕ → ℕ
  | [], s => s
  | c :: cs, s =>
    force (theta s) fun a =>
    force (rhoPiStep rhoPi a 0) fun b =>
    force (chi b ^^^ c) fun s' =>
    rounds cs s'

/-- Keccak-f[1600]. -/
def f (s : ℕ) : ℕ := rounds rc s

end Keccak

/-- `merlin::strobe::Strobe128`. -/
structure Strobe where
  st : ℕ
  pos : ℕ
  posBegin : ℕ
  flags : ℕ

namespace Strobe

/-- The rate, `STROBE_R`. -/
def rate : ℕ := 166

def runF (s : Strobe) : Strobe :=
  force (Keccak.f (s.st ^^^ s.posBegin <<< (8 * s.pos) ^^^ 0x04 <<< (8 * (s.pos + 1))
    ^^^ 0x80 <<< (8 * (rate + 1)))) fun st => ⟨st, 0, 0, s.flags⟩

/-- Store a new state and move to the next byte. -/
def next (st : ℕ) (s : Strobe) : Strobe :=
  force st fun st =>
  force (s.pos + 1) fun pos =>
  if pos = rate then runF ⟨st, pos, s.posBegin, s.flags⟩ else ⟨st, pos, s.posBegin, s.flags⟩

def absorb : Bytes → Strobe → Strobe
  | [], s => s
  | b :: bs, s => absorb bs (next (s.st ^^^ b.toNat <<< (8 * s.pos)) s)

def overwrite : Bytes → Strobe → Strobe
  | [], s => s
  | b :: bs, s =>
    overwrite bs (next (s.st ^^^ (s.st >>> (8 * s.pos) % 256 ^^^ b.toNat) <<< (8 * s.pos)) s)

def squeeze : ℕ → Strobe → Bytes × Strobe
  | 0, s => ([], s)
  | n + 1, s =>
    force (s.st >>> (8 * s.pos) % 256) fun b =>
    let r := squeeze n (next (s.st ^^^ b <<< (8 * s.pos)) s)
    (UInt8.ofNat b :: r.1, r.2)

/-- `begin_op`; with `more` the operation continues the previous one. The flag bits are `I = 1`,
`A = 2`, `C = 4`, `T = 8`, `M = 16`, `K = 32`. -/
def beginOp (flags : ℕ) (more : Bool) (s : Strobe) : Strobe :=
  if more then s
  else
    let s' := absorb [UInt8.ofNat s.posBegin, UInt8.ofNat flags]
      { s with posBegin := s.pos + 1, flags := flags }
    if (flags &&& 36) ≠ 0 ∧ s'.pos ≠ 0 then runF s' else s'

def metaAd (data : Bytes) (more : Bool) (s : Strobe) : Strobe := absorb data (beginOp 18 more s)
def ad (data : Bytes) (more : Bool) (s : Strobe) : Strobe := absorb data (beginOp 2 more s)
def prf (n : ℕ) (s : Strobe) : Bytes × Strobe := squeeze n (beginOp 7 false s)
def key (data : Bytes) (s : Strobe) : Strobe := overwrite data (beginOp 6 false s)

/-- `Strobe128::new(protocol_label)`. -/
def new (label : Bytes) : Strobe :=
  metaAd label false
    ⟨Keccak.f (leVal ([1, 168, 1, 0, 1, 96] ++ ascii "STROBEv1.0.2")), 0, 0, 0⟩

theorem squeeze_length : ∀ (n : ℕ) (s : Strobe), (squeeze n s).1.length = n
  | 0, _ => rfl
  | n + 1, s => by
    simp only [squeeze, force_eq, List.length_cons]
    rw [squeeze_length n]

end Strobe

/-- One merlin operation. -/
def stepOp (s : Strobe) : Op → Strobe
  | .init label => Strobe.new (ascii label)
  | .commit label data =>
    ((s.metaAd (ascii label) false).metaAd (leBytes 4 data.length) true).ad data false
  | .challenge label n =>
    (((s.metaAd (ascii label) false).metaAd (leBytes 4 n) true).prf n).2

def runOps : Transcript → Strobe → Strobe
  | [], s => s
  | op :: ops, s => runOps ops (stepOp s op)

def sponge (t : Transcript) : Strobe := runOps t ⟨0, 0, 0, 0⟩

def rekey : List (String × Bytes) → Strobe → Strobe
  | [], s => s
  | (l, w) :: ws, s =>
    rekey ws (((s.metaAd (ascii l) false).metaAd (leBytes 4 w.length) true).key w)

def draw (s : Strobe) (n : ℕ) : Bytes × Strobe := (s.metaAd (leBytes 4 n) false).prf n

def draws : List ℕ → Strobe → Strobe
  | [], s => s
  | n :: ns, s => draws ns (draw s n).2

/-- merlin 0.2. -/
def merlin : Oracle where
  chal t l n := ((((sponge t).metaAd (ascii l) false).metaAd (leBytes 4 n) true).prf n).1
  chal_length _ _ _ := Strobe.squeeze_length _ _
  rng t w e ds n :=
    (draw (draws ds (((rekey w (sponge t)).metaAd (ascii "rng") false).key e)) n).1
  rng_length _ _ _ _ _ := Strobe.squeeze_length _ _

end Verif.Concrete
