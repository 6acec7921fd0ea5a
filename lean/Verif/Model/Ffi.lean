import Verif.Model.Memory
import Verif.Model.Signal

/-!
# The C interface (`ffi/src/c.rs`, `ffi/src/macros.rs`)

A call reads its arguments from the caller's memory. Simplifications: allocations that Rust makes and
releases during the call are left out, except the buffer whose address is returned; `println!` of
errors (only with feature `std`) is left out.
-/

namespace Verif

/-- `rand::SeedableRng` (c.rs:41); `ChaChaRng` in the code (c.rs:53). -/
class SeedableRng (R : Type) extends RngCore R where
  fromSeed : Bytes → R

namespace Ffi

/-- What the functions depend on besides their arguments: the type `size_t` (c.rs:27-38), the build
profile, the allocator and the optimiser (not in /repo). -/
structure Platform where
  /-- `usize` and `size_t` have 64 bits (else 32) -/
  wide : Bool
  /-- overflow checks are on -/
  checks : Bool
  /-- the address of the empty slice `&[]` -/
  dangling : ℕ
  /-- references are never null -/
  dangling_ne : dangling ≠ 0
  /-- the allocator: the address given to a new buffer of this size, or `none` (out of memory) -/
  alloc : Mem → ℕ → Option ℕ
  /-- new buffers are not null and not in use -/
  alloc_fresh : ∀ m n p, alloc m n = some p → p ≠ 0 ∧ ∀ a, p ≤ a → a < p + n → m a = none

/-- Number of bits of `size_t` (c.rs:30, 34). -/
def Platform.bits (P : Platform) : ℕ := if P.wide then 64 else 32

/-- `buf_t` (c.rs:66-69). -/
structure Buf where
  len : UInt64
  ptr : ℕ
  deriving DecidableEq

/-- How a call of an exported function (c.rs:71-528) ends. `before` is the memory when the returned value was computed, `after` the memory
the caller continues with, when the local variables of the callee have been dropped. -/
inductive Outcome where
  | returns (buf : Buf) (before after : Mem)
  | panics
  | undefined
  | hangs
  | outOfMemory

/-- Reasons to leave a function early (macros.rs:30-60). -/
inductive Exit where
  /-- `return zero_len_and_ptr!()` -/
  | empty
  /-- undefined behaviour -/
  | undefined
  /-- a loop that does not end -/
  | hangs
  deriving DecidableEq

/-- `len_and_ptr_to_slice!` (macros.rs:30-38). The cast `as size_t` drops high bits. Reading bytes
outside of the caller's memory, or a slice of more than `isize::MAX` bytes, is undefined. -/
def slice (P : Platform) (m : Mem) (len : UInt64) (ptr : ℕ) : Res Exit Bytes :=
  if ptr = 0 ∨ len = 0 then .err .empty
  else
    let size := len.toNat % 2 ^ P.bits
    if 2 ^ (P.bits - 1) ≤ size then .err .undefined
    else Res.ofOption .undefined (m.read ptr size)

/-- `ok_or_return!` (macros.rs:41-52). -/
def okOrReturn {ε α : Type} (x : Res ε α) : Res Exit α := x.mapErr fun _ => .empty

/-- `csprng_from_seed!` with `uint8_to_array!` (macros.rs:55-84); the length check and the copy cannot
fail for a slice made with length 32. -/
def csprngFromSeed {R : Type} [SeedableRng R] (m : Mem) (seed : ℕ) : Res Exit R :=
  if seed = 0 then .err .empty
  else do
    let bytes ← Res.ofOption .undefined (m.read seed 32)
    .ok (SeedableRng.fromSeed bytes)

/-- The end of every function but the last: `slice_to_len_and_ptr!(&serialized[..])`
(macros.rs:11-20), after which the local vector `serialized` is dropped; or an early return of
`slice_to_len_and_ptr!(&[])` (macros.rs:23-27). -/
def finish (P : Platform) (m : Mem) : Res Exit Bytes → Outcome
  | .ok serialized =>
    match P.alloc m serialized.length with
    | none => .outOfMemory
    | some p =>
      let before := m.write p serialized
      .returns ⟨UInt64.ofNat serialized.length, p⟩ before (before.free p serialized.length)
  | .err .empty => .returns ⟨0, P.dangling⟩ m m
  | .err .undefined => .undefined
  | .err .hangs => .hangs
  | .panic => .panics

variable (G : Type) [AddCommGroup G] [Module F G] [Ristretto G]
variable (R : Type) [SeedableRng R]

/-- `system_parameters_create` (c.rs:72-81). `fuel` bounds the iterations of `hunt_and_peck`;
`hangs` means that many were not enough. -/
def systemParametersCreateBody (fuel : ℕ) (m : Mem) (seed : ℕ) : Res Exit Bytes := do
  let csprng : R ← csprngFromSeed m seed
  match SystemParameters.huntAndPeck (G := G) fuel csprng with
  | none => .err .hangs
  | some (params, _) => .ok params.toBytes

/-- `issuer_create` (c.rs:85-97). -/
def issuerCreateBody (P : Platform) (m : Mem) (params : ℕ) (paramsLen : UInt64) (seed : ℕ) :
    Res Exit Bytes := do
  let csprng : R ← csprngFromSeed m seed
  let bytes ← slice P m paramsLen params
  let params : SystemParameters G ← okOrReturn (SystemParameters.fromBytes bytes)
  .ok (SignalIssuer.create params csprng).1.issuer.keypair.toBytes

/-- `issuer_new` (c.rs:100-113). -/
def issuerNewBody (P : Platform) (m : Mem) (params : ℕ) (paramsLen : UInt64) (keypair : ℕ)
    (keypairLen : UInt64) : Res Exit Bytes := do
  let bytes ← slice P m paramsLen params
  let params : SystemParameters G ← okOrReturn (SystemParameters.fromBytes bytes)
  let bytes ← slice P m keypairLen keypair
  let keys : Amacs.Keypair G ← okOrReturn (Amacs.Keypair.fromBytes P.checks bytes)
  .ok (SignalIssuer.new params keys).toBytes

/-- `issuer_get_issuer_parameters` (c.rs:116-126). -/
def issuerGetIssuerParametersBody (P : Platform) (m : Mem) (issuer : ℕ) (issuerLen : UInt64) :
    Res Exit Bytes := do
  let bytes ← slice P m issuerLen issuer
  let issuer : SignalIssuer G ← okOrReturn (SignalIssuer.fromBytes P.checks bytes)
  .ok issuer.getIssuerParameters.toBytes

/-- `issuer_issue` (c.rs:129-144). `entropy` as in `Issuer.issue`. -/
def issuerIssueBody (O : Oracle) (P : Platform) (m : Mem) (issuer : ℕ) (issuerLen : UInt64)
    (number : ℕ) (numberLen : UInt64) (seed : ℕ) (entropy : Bytes) : Res Exit Bytes := do
  let bytes ← slice P m issuerLen issuer
  let issuer : SignalIssuer G ← okOrReturn (SignalIssuer.fromBytes P.checks bytes)
  let csprng : R ← csprngFromSeed m seed
  let number ← slice P m numberLen number
  let issuance ← okOrReturn (issuer.issue O number csprng entropy).1
  .ok issuance.toBytes

/-- `issuer_verify` (c.rs:147-162). -/
def issuerVerifyBody (O : Oracle) (P : Platform) (m : Mem) (issuer : ℕ) (issuerLen : UInt64)
    (presentation : ℕ) (presentationLen : UInt64) : Res Exit Bytes := do
  let bytes ← slice P m issuerLen issuer
  let issuer : SignalIssuer G ← okOrReturn (SignalIssuer.fromBytes P.checks bytes)
  let bytes ← slice P m presentationLen presentation
  let presentation : SignalCredentialPresentation G ←
    okOrReturn (SignalCredentialPresentation.fromBytes bytes)
  let verified ← okOrReturn (issuer.verify O presentation)
  .ok verified.toBytes

/-- `issuer_verify_roster_membership` (c.rs:165-180). -/
def issuerVerifyRosterMembershipBody (O : Oracle) (P : Platform) (m : Mem) (issuer : ℕ)
    (issuerLen : UInt64) (verified : ℕ) (verifiedLen : UInt64) : Res Exit Bytes := do
  let bytes ← slice P m issuerLen issuer
  let issuer : SignalIssuer G ← okOrReturn (SignalIssuer.fromBytes P.checks bytes)
  let bytes ← slice P m verifiedLen verified
  let verified : VerifiedSignalCredential G ← okOrReturn (VerifiedSignalCredential.fromBytes bytes)
  let commitment ← okOrReturn (issuer.verifyRosterMembership O verified)
  .ok (CommittedPhoneNumber.toBytes commitment)

/-- `user_obtain_finish` (c.rs:183-208). -/
def userObtainFinishBody (O : Oracle) (P : Platform) (m : Mem) (number : ℕ) (numberLen : UInt64)
    (params : ℕ) (paramsLen : UInt64) (issuerParams : ℕ) (issuerParamsLen : UInt64)
    (issuance : ℕ) (issuanceLen : UInt64) : Res Exit Bytes := do
  let bytes ← slice P m paramsLen params
  let params : SystemParameters G ← okOrReturn (SystemParameters.fromBytes bytes)
  let bytes ← slice P m issuerParamsLen issuerParams
  let issuerParams : Amacs.PublicKey G ← okOrReturn (Amacs.PublicKey.fromBytes bytes)
  let bytes ← slice P m issuanceLen issuance
  let issuance : CredentialIssuance G ← okOrReturn (CredentialIssuance.fromBytes bytes)
  let number ← slice P m numberLen number
  let user ← okOrReturn (SignalUser.new params issuerParams none number)
  let _ ← okOrReturn (user.obtainFinish O (some issuance)).1
  .ok (user.obtainFinish O (some issuance)).2.toBytes

/-- `user_show` (c.rs:211-228). -/
def userShowBody (O : Oracle) (P : Platform) (m : Mem) (user : ℕ) (userLen : UInt64) (entry : ℕ)
    (entryLen : UInt64) (seed : ℕ) (entropy1 entropy2 : Bytes) : Res Exit Bytes := do
  let csprng : R ← csprngFromSeed m seed
  let bytes ← slice P m userLen user
  let user : SignalUser G ← okOrReturn (SignalUser.fromBytes bytes)
  let bytes ← slice P m entryLen entry
  let entry : RosterEntryCommitment G ← okOrReturn (RosterEntryCommitment.fromBytes bytes)
  let presentation ← okOrReturn (user.show O csprng entry entropy1 entropy2).1
  .ok presentation.toBytes

/-- `roster_entry_commitment_create` (c.rs:231-246). -/
def rosterEntryCommitmentCreateBody (P : Platform) (m : Mem) (number : ℕ) (numberLen : UInt64)
    (params : ℕ) (paramsLen : UInt64) (seed : ℕ) : Res Exit Bytes := do
  let csprng : R ← csprngFromSeed m seed
  let number ← slice P m numberLen number
  let bytes ← slice P m paramsLen params
  let params : SystemParameters G ← okOrReturn (SystemParameters.fromBytes bytes)
  let entry ← okOrReturn (RosterEntryCommitment.create number params csprng).1
  .ok entry.toBytes

/-- `roster_entry_commitment_remove_opening` (c.rs:249-260). -/
def rosterEntryCommitmentRemoveOpeningBody (P : Platform) (m : Mem) (entry : ℕ) (entryLen : UInt64) :
    Res Exit Bytes := do
  let bytes ← slice P m entryLen entry
  let entry : RosterEntryCommitment G ← okOrReturn (RosterEntryCommitment.fromBytes bytes)
  .ok (CommittedPhoneNumber.toBytes entry.commitment)

/-- The body of `roster_entry_commitment_open` (c.rs:263-284): whether the entry opens. -/
def rosterEntryCommitmentOpenBody [DecidableEq G] (P : Platform) (m : Mem) (entry : ℕ)
    (entryLen : UInt64) (number : ℕ) (numberLen : UInt64) (params : ℕ) (paramsLen : UInt64) :
    Res Exit Bool := do
  let number ← slice P m numberLen number
  let bytes ← slice P m paramsLen params
  let params : SystemParameters G ← okOrReturn (SystemParameters.fromBytes bytes)
  let bytes ← slice P m entryLen entry
  let entry : RosterEntryCommitment G ← okOrReturn (RosterEntryCommitment.fromBytes bytes)
  match entry.open number params with
  | .ok _ => .ok true
  | .err _ => .ok false
  | .panic => .panic

/-- The end of `roster_entry_commitment_open` (c.rs:280-283), which returns `ptr::null()` unless it
left early. -/
def finishOpen (P : Platform) (m : Mem) : Res Exit Bool → Outcome
  | .ok true => .returns ⟨1, 0⟩ m m
  | .ok false => .returns ⟨0, 0⟩ m m
  | .err .empty => .returns ⟨0, P.dangling⟩ m m
  | .err .undefined => .undefined
  | .err .hangs => .hangs
  | .panic => .panics

/-- A call of one of the twelve exported functions (c.rs:71-528): pointers and lengths as the caller passes them,
in the order of the C declarations. `entropy` arguments are what `thread_rng()` yields. -/
inductive Call where
  | systemParametersCreate (seed : ℕ)
  | issuerCreate (params : ℕ) (paramsLen : UInt64) (seed : ℕ)
  | issuerNew (params : ℕ) (paramsLen : UInt64) (keypair : ℕ) (keypairLen : UInt64)
  | issuerGetIssuerParameters (issuer : ℕ) (issuerLen : UInt64)
  | issuerIssue (issuer : ℕ) (issuerLen : UInt64) (number : ℕ) (numberLen : UInt64) (seed : ℕ)
      (entropy : Bytes)
  | issuerVerify (issuer : ℕ) (issuerLen : UInt64) (presentation : ℕ) (presentationLen : UInt64)
  | issuerVerifyRosterMembership (issuer : ℕ) (issuerLen : UInt64) (verified : ℕ)
      (verifiedLen : UInt64)
  | userObtainFinish (number : ℕ) (numberLen : UInt64) (params : ℕ) (paramsLen : UInt64)
      (issuerParams : ℕ) (issuerParamsLen : UInt64) (issuance : ℕ) (issuanceLen : UInt64)
  | userShow (user : ℕ) (userLen : UInt64) (entry : ℕ) (entryLen : UInt64) (seed : ℕ)
      (entropy1 entropy2 : Bytes)
  | rosterEntryCommitmentCreate (number : ℕ) (numberLen : UInt64) (params : ℕ) (paramsLen : UInt64)
      (seed : ℕ)
  | rosterEntryCommitmentRemoveOpening (entry : ℕ) (entryLen : UInt64)
  | rosterEntryCommitmentOpen (entry : ℕ) (entryLen : UInt64) (number : ℕ) (numberLen : UInt64)
      (params : ℕ) (paramsLen : UInt64)

/-- The exported functions (c.rs:71-528). -/
def Call.run [DecidableEq G] (O : Oracle) (P : Platform) (fuel : ℕ) (m : Mem) : Call → Outcome
  | .systemParametersCreate s => finish P m (systemParametersCreateBody G R fuel m s)
  | .issuerCreate p pl s => finish P m (issuerCreateBody G R P m p pl s)
  | .issuerNew p pl k kl => finish P m (issuerNewBody G P m p pl k kl)
  | .issuerGetIssuerParameters i il => finish P m (issuerGetIssuerParametersBody G P m i il)
  | .issuerIssue i il n nl s e => finish P m (issuerIssueBody G R O P m i il n nl s e)
  | .issuerVerify i il p pl => finish P m (issuerVerifyBody G O P m i il p pl)
  | .issuerVerifyRosterMembership i il v vl =>
    finish P m (issuerVerifyRosterMembershipBody G O P m i il v vl)
  | .userObtainFinish n nl p pl ip ipl i il =>
    finish P m (userObtainFinishBody G O P m n nl p pl ip ipl i il)
  | .userShow u ul e el s e1 e2 => finish P m (userShowBody G R O P m u ul e el s e1 e2)
  | .rosterEntryCommitmentCreate n nl p pl s =>
    finish P m (rosterEntryCommitmentCreateBody G R P m n nl p pl s)
  | .rosterEntryCommitmentRemoveOpening e el =>
    finish P m (rosterEntryCommitmentRemoveOpeningBody G P m e el)
  | .rosterEntryCommitmentOpen e el n nl p pl =>
    finishOpen P m (rosterEntryCommitmentOpenBody G P m e el n nl p pl)

end Ffi

end Verif
