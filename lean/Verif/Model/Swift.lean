import Verif.Model.Ffi

/-!
# The Swift wrapper (`swift/Credential/Credential.swift`)

Every class holds the bytes of a value. Arrays are passed to the C functions as pointers with their
`count`. Simplifications: Swift objects are values here (no aliasing); an `Int` overflow in
`Int(buffer.len)` cannot happen as lengths come from existing buffers.
-/

namespace Verif

namespace Swift

/-- `LENGTH_SYSTEM_PARAMETERS` (swift/Credential/credential.h:11). -/
def lengthSystemParameters : ℕ := 64
/-- `LENGTH_ISSUER` (swift/Credential/credential.h:12). -/
def lengthIssuer : ℕ := 160
/-- `LENGTH_ISSUER_PARAMETERS` (swift/Credential/credential.h:13). -/
def lengthIssuerParameters : ℕ := 32
/-- `LENGTH_ISSUER_KEYPAIR` (swift/Credential/credential.h:14). -/
def lengthIssuerKeypair : ℕ := 96
/-- `LENGTH_USER` (swift/Credential/credential.h:15). -/
def lengthUser : ℕ := 288
/-- `LENGTH_CREDENTIAL_ISSUANCE` (swift/Credential/credential.h:16). -/
def lengthCredentialIssuance : ℕ := 328
/-- `LENGTH_CREDENTIAL_PRESENTATION` (swift/Credential/credential.h:17). -/
def lengthCredentialPresentation : ℕ := 448
/-- `LENGTH_VERIFIED_CREDENTIAL` (swift/Credential/credential.h:18). -/
def lengthVerifiedCredential : ℕ := 448
/-- `LENGTH_ROSTER_ENTRY_COMMITMENT` (swift/Credential/credential.h:19). -/
def lengthRosterEntryCommitment : ℕ := 64

/-- How a Swift call ends (Swift, not in /repo). `undefined` is undefined behaviour. -/
inductive Outcome (α : Type) where
  | value (a : α)
  | nil
  | crash
  | undefined
  | hangs

/-- Continue with the value (statement order, not in /repo). -/
def Outcome.andThen {α β : Type} : Outcome α → (α → Outcome β) → Outcome β
  | .value a, f => f a
  | .nil, _ => .nil
  | .crash, _ => .crash
  | .undefined, _ => .undefined
  | .hangs, _ => .hangs

/-- Forced unwrapping `!` (Credential.swift:136). -/
def Outcome.unwrap {α : Type} : Outcome α → Outcome α
  | .nil => .crash
  | x => x

/-- Where Swift keeps the arrays it passes to a C function (as in Credential.swift:58-62), which are readable during the call; and
whether a buffer that the callee has freed still holds its bytes when Swift reads it (see C53). -/
structure Runtime where
  mem : List Bytes → Mem
  addr : List Bytes → ℕ → ℕ
  holds : ∀ arrays i b, arrays[i]? = some b →
    addr arrays i ≠ 0 ∧ ∀ k < b.length, mem arrays (addr arrays i + k) = b[k]?
  keeps : Bool

/-- `UInt64(array.count)` (as in Credential.swift:59). -/
def count (b : Bytes) : UInt64 := UInt64.ofNat b.length

/-- `buffer.ptr.withMemoryRebound(to: UInt8.self, capacity: Int(buffer.len)) { Array(…) }` (as in
Credential.swift:27-29); `ptr` is
implicitly unwrapped, so a null pointer crashes, as does a panic in the callee. -/
def contents (L : Runtime) : Ffi.Outcome → Outcome Bytes
  | .returns buf before after =>
    if buf.ptr = 0 then .crash
    else match (if L.keeps then before else after).read buf.ptr buf.len.toNat with
      | some b => .value b
      | none => .undefined
  | .panics => .crash
  | .outOfMemory => .crash
  | .undefined => .undefined
  | .hangs => .hangs

/-- The class members called `data`: for `SystemParameters` (Credential.swift:13), `AlgebraicMACKeypair`
(34), `RosterEntryCommitment` (44), `IssuerParameters` (84), `CredentialIssuance` (94),
`CredentialPresentation` (104), `VerifiedCredential` (114). -/
structure Data where
  data : Bytes
  deriving DecidableEq

/-- The initialisers `init?(withBytes:)` (as in Credential.swift:16-20): `guard bytes.count == expected else { return }`, where
`return` (instead of `return nil`) leaves the object with its default `data`, then
`self.data = bytes`. -/
def initWithBytes (default expected : ℕ) (bytes : Bytes) : Outcome Data :=
  if bytes.length ≠ expected then .value ⟨List.replicate default 0⟩ else .value ⟨bytes⟩

/-- Credential.swift:16-20. -/
def systemParameters : Bytes → Outcome Data :=
  initWithBytes lengthSystemParameters lengthSystemParameters

/-- Credential.swift:37-41. -/
def algebraicMACKeypair : Bytes → Outcome Data :=
  initWithBytes lengthIssuerKeypair lengthIssuerKeypair

/-- Credential.swift:47-51. -/
def rosterEntryCommitment : Bytes → Outcome Data :=
  initWithBytes lengthRosterEntryCommitment lengthRosterEntryCommitment

/-- Credential.swift:87-91. The guard compares with `LENGTH_ISSUER_KEYPAIR`. -/
def issuerParameters : Bytes → Outcome Data :=
  initWithBytes lengthIssuerParameters lengthIssuerKeypair

/-- Credential.swift:97-101. -/
def credentialIssuance : Bytes → Outcome Data :=
  initWithBytes lengthCredentialIssuance lengthCredentialIssuance

/-- Credential.swift:107-111. -/
def credentialPresentation : Bytes → Outcome Data :=
  initWithBytes lengthCredentialPresentation lengthCredentialPresentation

/-- Credential.swift:117-121. -/
def verifiedCredential : Bytes → Outcome Data :=
  initWithBytes lengthVerifiedCredential lengthVerifiedCredential

/-- `SignalIssuer` (Credential.swift:124-126). -/
structure SignalIssuer where
  keypair : Data
  data : Bytes

/-- `User` (Credential.swift:190-191). -/
structure User where
  data : Bytes

section Calls

variable (G : Type) [AddCommGroup G] [Module F G] [Ristretto G] [DecidableEq G]
variable (R : Type) [SeedableRng R]
variable (O : Oracle) (P : Ffi.Platform) (fuel : ℕ) (L : Runtime)

/-- Call a C function with arrays (as in Credential.swift:58-62). -/
def call (arrays : List Bytes) (f : (ℕ → ℕ) → Ffi.Call) : Ffi.Outcome :=
  (f (L.addr arrays)).run G R O P fuel (L.mem arrays)

/-- `SystemParameters.create` (Credential.swift:22-31). -/
def systemParametersCreate (seed : Bytes) : Outcome Data :=
  if seed.length ≠ 32 then .nil
  else (contents L (call G R O P fuel L [seed] fun a => .systemParametersCreate (a 0))).andThen
    fun b => .value ⟨b⟩

/-- `RosterEntryCommitment.init(withSeed:phone_number:system_parameters:)`
(Credential.swift:53-66). -/
def rosterEntryCommitmentWithSeed (seed number : Bytes) (params : Data) : Outcome Data :=
  if seed.length ≠ 32 then .nil
  else (contents L (call G R O P fuel L [number, params.data, seed] fun a =>
    .rosterEntryCommitmentCreate (a 0) (count number) (a 1) (count params.data) (a 2))).andThen
      fun b => .value ⟨b⟩

/-- `RosterEntryCommitment.open` (Credential.swift:68-81). -/
def rosterEntryCommitmentOpen (self : Data) (number : Bytes) (params : Data) : Outcome Bool :=
  match call G R O P fuel L [self.data, number, params.data] fun a =>
    .rosterEntryCommitmentOpen (a 0) (count self.data) (a 1) (count number) (a 2)
      (count params.data) with
  | .returns buf _ _ => .value (buf.len == 1)
  | .panics => .crash
  | .outOfMemory => .crash
  | .undefined => .undefined
  | .hangs => .hangs

/-- `SignalIssuer.init(withSeed:system_parameters:)` (Credential.swift:128-143). -/
def signalIssuerWithSeed (seed : Bytes) (params : Data) : Outcome SignalIssuer :=
  if seed.length ≠ 32 then .nil
  else (contents L (call G R O P fuel L [params.data, seed] fun a =>
    .issuerCreate (a 0) (count params.data) (a 1))).andThen fun data =>
      (algebraicMACKeypair data).unwrap.andThen fun keypair =>
        (contents L (call G R O P fuel L [params.data, keypair.data] fun a =>
          .issuerNew (a 0) (count params.data) (a 1) (count keypair.data))).andThen fun b =>
            .value ⟨keypair, b⟩

/-- `SignalIssuer.init(withKeypair:system_parameters:)` (Credential.swift:145-152). -/
def signalIssuerWithKeypair (keypair params : Data) : Outcome SignalIssuer :=
  (contents L (call G R O P fuel L [params.data, keypair.data] fun a =>
    .issuerNew (a 0) (count params.data) (a 1) (count keypair.data))).andThen fun b =>
      .value ⟨keypair, b⟩

/-- `SignalIssuer.get_parameters` (Credential.swift:154-162). -/
def getParameters (self : SignalIssuer) : Outcome Data :=
  (contents L (call G R O P fuel L [self.data] fun a =>
    .issuerGetIssuerParameters (a 0) (count self.data))).andThen issuerParameters

/-- `SignalIssuer.issue` (Credential.swift:164-175). -/
def issue (self : SignalIssuer) (number seed entropy : Bytes) : Outcome Data :=
  if seed.length ≠ 32 then .nil
  else (contents L (call G R O P fuel L [self.data, number, seed] fun a =>
    .issuerIssue (a 0) (count self.data) (a 1) (count number) (a 2) entropy)).andThen
      credentialIssuance

/-- `SignalIssuer.verify` (Credential.swift:177-186). -/
def verify (self : SignalIssuer) (presentation : Data) : Outcome Data :=
  (contents L (call G R O P fuel L [self.data, presentation.data] fun a =>
    .issuerVerify (a 0) (count self.data) (a 1) (count presentation.data))).andThen
      verifiedCredential

/-- `User.init` (Credential.swift:193-205). -/
def user (number : Bytes) (params issuerParams issuance : Data) : Outcome User :=
  (contents L (call G R O P fuel L [number, params.data, issuerParams.data, issuance.data] fun a =>
    .userObtainFinish (a 0) (count number) (a 1) (count params.data) (a 2)
      (count issuerParams.data) (a 3) (count issuance.data))).andThen fun b => .value ⟨b⟩

/-- `User.show` (Credential.swift:207-218). -/
def «show» (self : User) (entry : Data) (seed entropy1 entropy2 : Bytes) : Outcome Data :=
  if seed.length ≠ 32 then .nil
  else (contents L (call G R O P fuel L [self.data, entry.data, seed] fun a =>
    .userShow (a 0) (count self.data) (a 1) (count entry.data) (a 2) entropy1 entropy2)).andThen
      credentialPresentation

end Calls

end Swift

end Verif
