import Verif.Model.Wasm

/-!
# The JavaScript glue (`wasm/src/credential.js`)

JavaScript values cross into WebAssembly as handles: even numbers `2 * i` that stand for the `i`-th
entry of an array `slab`. Byte arrays are copied into blocks of WebAssembly memory. Simplifications:
`init` has been called; `cnt` of the four fixed entries, which is never read, is 1; JavaScript
arguments are JSON values or `undefined`, and byte arguments are `Uint8Array`s; of the WebAssembly
memory only the blocks allocated for byte arguments are modelled (those that Rust allocates for
itself, also for the strings of `__wbindgen_json_serialize`, are left out); `JSON.stringify` followed by
`serde_json`'s parser, and the reverse, are part of `Wasm.intoSerde` and `Wasm.fromSerde`.
-/

namespace Verif

namespace Glue

open Wasm

/-- A JavaScript value, as in field `obj` (credential.js:22); `none` is `undefined`. -/
abbrev Val := Option Js

/-- An entry of `slab` (credential.js:22): an object with fields `obj` and `cnt`, or the number of
the next free entry. -/
inductive Slot where
  | object (obj : Val) (cnt : ℕ)
  | free (next : ℕ)

/-- The state of the script (credential.js:6, 22, 35) and of the WebAssembly memory. -/
structure State where
  /-- `slab` (credential.js:22). -/
  slab : List Slot
  /-- `slab_next` (credential.js:35); `none` stands for a value that is not a number. -/
  slabNext : Option ℕ
  /-- The allocated blocks of memory with their contents. -/
  blocks : List (ℕ × Bytes)
  /-- Which `ArrayBuffer` is `wasm.memory.buffer`: a new one every time the memory grows. -/
  buffer : ℕ
  /-- `cachegetUint8Memory` (credential.js:6): the buffer it is a view of. -/
  cached : Option ℕ

/-- The state after loading the script (credential.js:6, 22, 35). -/
def State.initial : State where
  slab := [.object none 1, .object (some .null) 1, .object (some (.bool true)) 1,
    .object (some (.bool false)) 1]
  slabNext := some 4
  blocks := []
  buffer := 0
  cached := none

/-- How a piece of JavaScript ends (JavaScript, not in /repo): with a value, an exception, or not at all. -/
inductive Exit (α : Type) where
  | returns (a : α)
  | throws
  | hangs

/-- A piece of JavaScript (JavaScript, not in /repo). -/
def M (α : Type) : Type := State → Exit α × State

/-- Sequencing (JavaScript, not in /repo): exceptions propagate and keep the state. -/
instance : Monad M where
  pure a := fun s => (.returns a, s)
  bind m f := fun s => match m s with
    | (.returns a, s') => f a s'
    | (.throws, s') => (.throws, s')
    | (.hangs, s') => (.hangs, s')

/-- `throw` (credential.js:377), and a trap of the WebAssembly code. -/
def throw {α : Type} : M α := fun s => (.throws, s)

/-- A loop that does not end (in the Rust code that is called, see `Wasm.Outcome`). -/
def hang {α : Type} : M α := fun s => (.hangs, s)

/-- `try { … } finally { … }` (as in credential.js:76-82). -/
def tryFinally {α : Type} (body : M α) (cleanup : M Unit) : M α := fun s =>
  match body s with
  | (.hangs, s') => (.hangs, s')
  | (x, s') => match cleanup s' with
    | (.returns _, s'') => (x, s'')
    | (.throws, s'') => (.throws, s'')
    | (.hangs, s'') => (.hangs, s'')

/-- The allocator of the WebAssembly module (not in /repo; called in credential.js:15): `malloc blocks n` is the address of a new block of `n`
bytes and whether memory had to grow, or `none` if that fails. -/
structure Alloc where
  malloc : List (ℕ × Bytes) → ℕ → Option (ℕ × Bool)
  fresh : ∀ blocks n p g, malloc blocks n = some (p, g) → ∀ b ∈ blocks, b.1 ≠ p

variable (A : Alloc)

/-- `__wbindgen_malloc` (wasm-bindgen; called in credential.js:15): no block for size 0, an exception when allocation fails. -/
def malloc (n : ℕ) : M ℕ := fun s =>
  if n = 0 then (.returns 4, s) else
  match A.malloc s.blocks n with
  | none => (.throws, s)
  | some (p, grows) => (.returns p, { s with
      blocks := (p, List.replicate n 0) :: s.blocks
      buffer := if grows then s.buffer + 1 else s.buffer })

/-- `__wbindgen_free` (wasm-bindgen; called as in credential.js:80). Freeing something that is not a block with that address and
length is undefined behaviour, modelled as an exception. -/
def free (ptr len : ℕ) : M Unit := fun s =>
  if len = 0 then (.returns (), s) else
  match s.blocks.find? (fun b => b.1 = ptr) with
  | some b =>
    if b.2.length = len then (.returns (), { s with blocks := s.blocks.eraseP fun b => b.1 = ptr })
    else (.throws, s)
  | none => (.throws, s)

/-- `getUint8Memory` (credential.js:7-12). -/
def getUint8Memory : M ℕ := fun s =>
  if s.cached = none ∨ s.cached ≠ some s.buffer then
    (.returns s.buffer, { s with cached := some s.buffer })
  else (.returns (s.cached.getD 0), s)

/-- `Uint8Array.prototype.set` (credential.js:16) of `arg` at the start of a block, through a view of buffer `view`. It
throws when that buffer is detached because memory has grown. -/
def setMemory (view : ℕ) (arg : Bytes) (ptr : ℕ) : M Unit := fun s =>
  if view ≠ s.buffer then (.throws, s) else
  (.returns (), { s with
    blocks := s.blocks.map fun b => if b.1 = ptr then (ptr, arg ++ b.2.drop arg.length) else b })

/-- `passArray8ToWasm` (credential.js:14-18). -/
def passArray8ToWasm (arg : Bytes) : M (ℕ × ℕ) := do
  let ptr ← malloc A arg.length
  let view ← getUint8Memory
  setMemory view arg ptr
  pure (ptr, arg.length)

/-- `idx << 1` (credential.js:94) on 32-bit integers. -/
def shl1 (idx : ℕ) : ℕ := 2 * idx % 2 ^ 32

/-- `idx >> 1` (credential.js:26, 28, 39) on 32-bit integers; `none` for a negative number. -/
def shr1 (idx : ℕ) : Option ℕ := if idx < 2 ^ 31 then some (idx / 2) else none

/-- `getObject` (credential.js:24-33). `stack` (credential.js:20) is always empty. A free entry is a
number, whose field `obj` is `undefined`; a missing entry is `undefined`, and reading its field throws. -/
def getObject (idx : ℕ) : M Val := fun s =>
  if idx % 2 = 1 then (.returns none, s) else
  match (shr1 idx).bind fun i => s.slab[i]? with
  | some (.object obj _) => (.returns obj, s)
  | some (.free _) => (.returns none, s)
  | none => (.throws, s)

/-- `dropRef` (credential.js:37-49). On a free entry, a number, the assignment to `cnt` has no
effect and the comparison with `undefined` is false, so that the entry is freed once more. Freeing
while `slab_next` is not a number is left out (an exception here). -/
def dropRef (idx : ℕ) : M Unit := fun s =>
  match shr1 idx with
  | none => (.returns (), s)
  | some i =>
    if i < 4 then (.returns (), s) else
    match s.slab[i]?, s.slabNext with
    | none, _ => (.throws, s)
    | some (.object obj cnt), next =>
      if cnt - 1 > 0 then (.returns (), { s with slab := s.slab.set i (.object obj (cnt - 1)) })
      else match next with
        | some n => (.returns (), { s with slab := s.slab.set i (.free n), slabNext := some i })
        | none => (.throws, s)
    | some (.free _), some n =>
      (.returns (), { s with slab := s.slab.set i (.free n), slabNext := some i })
    | some (.free _), none => (.throws, s)

/-- `takeObject` (credential.js:51-55). -/
def takeObject (idx : ℕ) : M Val := do
  let ret ← getObject idx
  dropRef idx
  pure ret

/-- `addHeapObject` (credential.js:86-95). If `slab_next` is not a number, then the new entry
becomes a field of the array with another name, and `idx << 1` is 0. -/
def addHeapObject (obj : Val) : M ℕ := fun s =>
  match s.slabNext with
  | none => (.returns 0, s)
  | some idx =>
    let slab := if idx = s.slab.length then s.slab ++ [.free (s.slab.length + 1)] else s.slab
    match slab[idx]? with
    | some (.free next) =>
      (.returns (shl1 idx), { s with slab := slab.set idx (.object obj 1), slabNext := some next })
    | some (.object _ _) =>
      (.returns (shl1 idx), { s with slab := slab.set idx (.object obj 1), slabNext := none })
    | none => (.throws, s)

/-! ## The Rust side

wasm-bindgen turns a handle into a `JsValue`, which calls `__wbindgen_json_serialize`
(credential.js:371-375) in `into_serde` and `__wbindgen_object_drop_ref` (credential.js:335-337) when it
is dropped: at the end of the function, after the result was made, in reverse order. -/

/-- What Rust reads from a handle (credential.js:371-376): `JSON.stringify(undefined)` is `undefined`, encoded as the
empty string, on which `into_serde` fails, as it does on `null`. -/
def readValue (idx : ℕ) : M Js := do
  let v ← getObject idx
  pure (v.getD .null)

/-- What Rust reads from a slice (a `&[u8]` argument, wasm/src/js.rs:97). -/
def readSlice (ptr len : ℕ) : M Bytes := fun s =>
  if len = 0 then (.returns [], s) else
  match s.blocks.find? (fun b => b.1 = ptr) with
  | some b => (.returns (b.2.take len), s)
  | none => (.throws, s)

/-- Dropping `JsValue`s (calls of credential.js:335-337). -/
def dropAll : List ℕ → M Unit
  | [] => pure ()
  | idx :: idxs => do dropRef idx; dropAll idxs

/-- A call of an exported function of js.rs: `call` reads the arguments, `idxs` are the handles passed
by value. The result is made by `__wbindgen_number_new` (credential.js:339-341) or
`__wbindgen_json_parse` (credential.js:349-351). A panic is a trap, which runs no destructors. -/
def rust (run : Call → Outcome) (call : M Call) (idxs : List ℕ) : M ℕ := do
  let c ← call
  match run c with
  | .panics => throw
  | .hangs => hang
  | .returns v => do
    let ret ← addHeapObject (some v)
    dropAll idxs.reverse
    pure ret

variable (run : Call → Outcome)

/-- `system_parameters_create` (credential.js:74-84). -/
def systemParametersCreate (arg0 : Bytes) : M Val := do
  let (ptr0, len0) ← passArray8ToWasm A arg0
  tryFinally
    (do let ret ← rust run (do
          let seed ← readSlice ptr0 len0
          pure (.systemParametersCreate seed)) []
        takeObject ret)
    (free ptr0 len0)

/-- `issuer_create` (credential.js:118-128). -/
def issuerCreate (arg0 : Val) (arg1 : Bytes) : M Val := do
  let (ptr1, len1) ← passArray8ToWasm A arg1
  tryFinally
    (do let idx0 ← addHeapObject arg0
        let ret ← rust run (do
          let systemParameters ← readValue idx0
          let seed ← readSlice ptr1 len1
          pure (.issuerCreate systemParameters seed)) [idx0]
        takeObject ret)
    (free ptr1 len1)

/-- `issuer_get_issuer_parameters` (credential.js:147-149). -/
def issuerGetIssuerParameters (arg0 : Val) : M Val := do
  let idx0 ← addHeapObject arg0
  let ret ← rust run (do
    let issuer ← readValue idx0
    pure (.issuerGetIssuerParameters issuer)) [idx0]
  takeObject ret

/-- `issuer_new` (credential.js:180-182). -/
def issuerNew (arg0 arg1 : Val) : M Val := do
  let idx0 ← addHeapObject arg0
  let idx1 ← addHeapObject arg1
  let ret ← rust run (do
    let systemParameters ← readValue idx0
    let keypair ← readValue idx1
    pure (.issuerNew systemParameters keypair)) [idx0, idx1]
  takeObject ret

/-- `issuer_issue` (credential.js:207-219). `entropy` as in `Wasm.issuerIssue`. -/
def issuerIssue (arg0 : Val) (arg1 arg2 : Bytes) (entropy : Bytes) : M Val := do
  let (ptr1, len1) ← passArray8ToWasm A arg1
  let (ptr2, len2) ← passArray8ToWasm A arg2
  tryFinally
    (do let idx0 ← addHeapObject arg0
        let ret ← rust run (do
          let issuer ← readValue idx0
          let phoneNumber ← readSlice ptr1 len1
          let seed ← readSlice ptr2 len2
          pure (.issuerIssue issuer phoneNumber seed entropy)) [idx0]
        takeObject ret)
    (do free ptr1 len1
        free ptr2 len2)

/-- `issuer_verify` (credential.js:238-240). -/
def issuerVerify (arg0 arg1 : Val) : M Val := do
  let idx0 ← addHeapObject arg0
  let idx1 ← addHeapObject arg1
  let ret ← rust run (do
    let issuer ← readValue idx0
    let presentation ← readValue idx1
    pure (.issuerVerify issuer presentation)) [idx0, idx1]
  takeObject ret

/-- `issuer_verify_roster_membership` (credential.js:260-262). -/
def issuerVerifyRosterMembership (arg0 arg1 : Val) : M Val := do
  let idx0 ← addHeapObject arg0
  let idx1 ← addHeapObject arg1
  let ret ← rust run (do
    let issuer ← readValue idx0
    let verified ← readValue idx1
    pure (.issuerVerifyRosterMembership issuer verified)) [idx0, idx1]
  takeObject ret

/-- `user_obtain_finish` (credential.js:291-301). -/
def userObtainFinish (arg0 : Bytes) (arg1 arg2 arg3 : Val) : M Val := do
  let (ptr0, len0) ← passArray8ToWasm A arg0
  tryFinally
    (do let idx1 ← addHeapObject arg1
        let idx2 ← addHeapObject arg2
        let idx3 ← addHeapObject arg3
        let ret ← rust run (do
          let phoneNumber ← readSlice ptr0 len0
          let systemParameters ← readValue idx1
          let issuerParameters ← readValue idx2
          let issuance ← readValue idx3
          pure (.userObtainFinish phoneNumber systemParameters issuerParameters issuance))
          [idx1, idx2, idx3]
        takeObject ret)
    (free ptr0 len0)

/-- `user_show` (credential.js:323-333). `entropy1`, `entropy2` as in `Wasm.userShow`. -/
def userShow (arg0 arg1 : Val) (arg2 : Bytes) (entropy1 entropy2 : Bytes) : M Val := do
  let (ptr2, len2) ← passArray8ToWasm A arg2
  tryFinally
    (do let idx0 ← addHeapObject arg0
        let idx1 ← addHeapObject arg1
        let ret ← rust run (do
          let user ← readValue idx0
          let entry ← readValue idx1
          let seed ← readSlice ptr2 len2
          pure (.userShow user entry seed entropy1 entropy2)) [idx0, idx1]
        takeObject ret)
    (free ptr2 len2)

/-- A call of one of the nine functions from JavaScript (credential.js:74-333). -/
inductive Request where
  | systemParametersCreate (seed : Bytes)
  | issuerCreate (systemParameters : Val) (seed : Bytes)
  | issuerGetIssuerParameters (issuer : Val)
  | issuerNew (systemParameters keypair : Val)
  | issuerIssue (issuer : Val) (phoneNumber seed entropy : Bytes)
  | issuerVerify (issuer presentation : Val)
  | issuerVerifyRosterMembership (issuer verified : Val)
  | userObtainFinish (phoneNumber : Bytes) (systemParameters issuerParameters issuance : Val)
  | userShow (user entry : Val) (seed entropy1 entropy2 : Bytes)

/-- The functions assigned to `self.wasm_bindgen` (credential.js:396). -/
def Request.invoke : Request → M Val
  | .systemParametersCreate s => Glue.systemParametersCreate A run s
  | .issuerCreate p s => Glue.issuerCreate A run p s
  | .issuerGetIssuerParameters i => Glue.issuerGetIssuerParameters run i
  | .issuerNew p k => Glue.issuerNew run p k
  | .issuerIssue i n s e => Glue.issuerIssue A run i n s e
  | .issuerVerify i p => Glue.issuerVerify run i p
  | .issuerVerifyRosterMembership i v => Glue.issuerVerifyRosterMembership run i v
  | .userObtainFinish n p ip i => Glue.userObtainFinish A run n p ip i
  | .userShow u e s e1 e2 => Glue.userShow A run u e s e1 e2

end Glue

end Verif
