import Verif.Model.Ffi
import Verif.Model.Errors

/-!
# What the library prints

With the feature `std` (the default of aeonflux and signal-credential) some failures are reported with
`println!`. This file repeats the functions on the way to a `println!` with the printed lines as part of the
result; nothing else in the libraries prints. Simplifications: a line is a value that says which `println!` it is
from and what was interpolated; the text of a bincode error (signal credential.rs:83), which says what was expected
and at most a length, is left out; and so is the `println!` before the unreachable `panic!` of
signal credential.rs:101.
-/

namespace Verif.Print

/-- The error types that are printed with `{:?}` (ffi/src/macros.rs:47, aeonflux/src/macros.rs:41). `unit` is
the `()` of `uint8_to_array!` (ffi/src/macros.rs:67). -/
inductive Error where
  | credential (e : CredentialError)
  | mac (e : MacError)
  | phone (e : PhoneNumberError)
  | unit
  deriving DecidableEq

/-- One line of output. -/
inductive Line where
  /-- parameters.rs:67: "Could not decode G from bytes" and 32 bytes -/
  | notG (bytes : Bytes)
  /-- parameters.rs:75: "Could not decode H from bytes" and 32 bytes -/
  | notH (bytes : Bytes)
  /-- signal credential.rs:70: the presentation was too short, with its length -/
  | short (length : ℕ)
  /-- signal credential.rs:83: the roster proof could not be read -/
  | badProof
  /-- phone_number.rs:233: "Got weird digit in phone number" and the digit -/
  | digit (digit : UInt8)
  /-- aeonflux/src/macros.rs:41: "Error while deserialising", the type, the error -/
  | deserialising (type : String) (e : Error)
  /-- ffi/src/macros.rs:47: the error alone -/
  | error (e : Error)
  deriving DecidableEq

/-- The lines printed by a computation (in order) and its result (not in /repo). -/
structure Printed (ε α : Type) where
  out : List Line
  res : Res ε α

/-- Run one computation after the other (not in /repo). -/
def Printed.bind {ε α β : Type} (x : Printed ε α) (f : α → Printed ε β) : Printed ε β :=
  match x.res with
  | .ok a => ⟨x.out ++ (f a).out, (f a).res⟩
  | .err e => ⟨x.out, .err e⟩
  | .panic => ⟨x.out, .panic⟩

/-- Code that prints nothing (not in /repo). -/
def quiet {ε α : Type} (x : Res ε α) : Printed ε α := ⟨[], x⟩

instance {ε : Type} : Monad (Printed ε) where
  pure a := quiet (.ok a)
  bind := Printed.bind

/-- `println!` under `#[cfg(feature = "std")]` followed by `return Err(..)` (for example parameters.rs:66-68). -/
def fail {ε α : Type} (std : Bool) (line : Line) (e : ε) : Printed ε α :=
  ⟨if std then [line] else [], .err e⟩

variable {G : Type} [AddCommGroup G] [Module F G] [Ristretto G]

/-- `SystemParameters::from_bytes` (parameters.rs:52-81). -/
def systemParameters (std : Bool) (bytes : Bytes) : Printed CredentialError (SystemParameters G) :=
  if bytes.length ≠ 64 then quiet (.err .noSystemParameters) else do
    let g_bytes ← quiet (do copyFromSlice 32 (← slice bytes 0 32))
    let h_bytes ← quiet (do copyFromSlice 32 (← slice bytes 32 64))
    match (dec g_bytes : Option G) with
    | none => fail std (.notG g_bytes) .pointDecompressionError
    | some g =>
      match (dec h_bytes : Option G) with
      | none => fail std (.notH h_bytes) .pointDecompressionError
      | some h => quiet (.ok { g, h })

/-- `Issuer::from_bytes` and `SignalIssuer::from_bytes` (issuer.rs:52-61, signal issuer.rs:47-51). -/
def issuer (std checks : Bool) (bytes : Bytes) : Printed CredentialError (SignalIssuer G) :=
  if bytes.length < 64 + 96 then quiet (.err .missingData) else do
    let first ← quiet (slice bytes 0 64)
    let systemParameters ← systemParameters std first
    let keypair ← quiet ((do Amacs.Keypair.fromBytes checks (← sliceFrom bytes 64)).mapErr
      CredentialError.ofMac)
    quiet (.ok ⟨{ systemParameters, keypair }⟩)

/-- `User::from_bytes` (user.rs:55-85). -/
def user (std : Bool) (bytes : Bytes) : Printed CredentialError (User G) :=
  if bytes.length ≠ 256 then quiet (.err .missingData) else do
    let first ← quiet (slice bytes 0 64)
    let systemParameters ← systemParameters std first
    let issuerParameters ← quiet ((do Amacs.PublicKey.fromBytes (← slice bytes 64 96)).mapErr
      CredentialError.ofMac)
    let key ← quiet (do User.decodeKey (← slice bytes 96 160))
    let credential ← quiet (do User.decodeCredential (← slice bytes 160 256) (← sliceFrom bytes 160))
    quiet (.ok { systemParameters, issuerParameters, key, credential })

/-- `SignalUser::from_bytes` (signal user.rs:46-51). -/
def signalUser (std : Bool) (bytes : Bytes) : Printed CredentialError (SignalUser G) := do
  let phoneNumber ← quiet ((do PhoneNumber.fromBytes (← slice bytes 0 32)).mapErr CredentialError.ofPhone)
  let rest ← quiet (sliceFrom bytes 32)
  let user ← user std rest
  quiet (.ok { phoneNumber, user })

/-- `SignalCredentialPresentation::from_bytes` (signal credential.rs:65-89). -/
def presentation (std : Bool) (bytes : Bytes) :
    Printed CredentialError (SignalCredentialPresentation G) :=
  if bytes.length < 32 + SIZEOF_CREDENTIAL_PRESENTATION then
    fail std (.short bytes.length) .missingData
  else do
    let rosterEntryCommitment ← quiet ((do CommittedPhoneNumber.fromBytes (← slice bytes 0 32)).mapErr
      CredentialError.ofPhone)
    let presentation ← quiet (do
      let inner ← slice bytes 32 (32 + SIZEOF_CREDENTIAL_PRESENTATION)
      CredentialPresentation.fromBytes inner)
    let rest ← quiet (sliceFrom bytes (32 + SIZEOF_CREDENTIAL_PRESENTATION))
    match CommittedValuesEqual.Proof.deserialize rest with
    | none => fail std .badProof .missingData
    | some rosterMembershipProof =>
      quiet (.ok { rosterEntryCommitment, presentation, rosterMembershipProof })

/-- `VerifiedSignalCredential::from_bytes` (signal credential.rs:129-131). -/
def verified (std : Bool) (bytes : Bytes) : Printed CredentialError (VerifiedSignalCredential G) := do
  let p ← presentation std bytes
  quiet (.ok ⟨p⟩)

/-- The digit loop of `String::from(PhoneNumber)` (phone_number.rs:219-238). -/
def readDigits {ε : Type} (std : Bool) (bytes : Bytes) : ℕ → ℕ → Printed ε Bytes
  | 0, _ => quiet (.ok [])
  | n + 1, i => do
    let b ← quiet (index bytes i)
    if b ≤ 9 then do
      let rest ← readDigits std bytes n (i + 1)
      quiet (.ok ((b + 48) :: rest))
    else do
      let _ ← (⟨if std then [.digit b] else [], .ok ()⟩ : Printed ε Unit)
      readDigits std bytes n (i + 1)

/-- `String::from(PhoneNumber)` (phone_number.rs:203-241). -/
def phoneString {ε : Type} (std : Bool) (p : Scalar) : Printed ε Bytes :=
  readDigits std p.toBytes (PhoneNumber.findLength p.toBytes) 2

/-- `visit_bytes` of the serde implementations (aeonflux/src/macros.rs:36-46), for a type with the given
decoder. Simplification: as in `Serde`, the error returned is `()`. -/
def visitBytes {ε α : Type} (std : Bool) (type : String) (name : ε → Error) (x : Printed ε α) :
    Printed Unit α :=
  match x.res with
  | .ok a => ⟨x.out, .ok a⟩
  | .err e => ⟨x.out ++ (if std then [.deserialising type (name e)] else []), .err ()⟩
  | .panic => ⟨x.out, .panic⟩

/-! ## The C interface -/

open Ffi (Platform Exit Call)

/-- `ok_or_return!` (ffi/src/macros.rs:41-52). -/
def okOrReturn {ε α : Type} (std : Bool) (name : ε → Error) (x : Printed ε α) : Printed Exit α :=
  match x.res with
  | .ok a => ⟨x.out, .ok a⟩
  | .err e => ⟨x.out ++ (if std then [.error (name e)] else []), .err .empty⟩
  | .panic => ⟨x.out, .panic⟩

/-- `csprng_from_seed!` (ffi/src/macros.rs:55-84): a null pointer is an `Err(())`. -/
def csprng {R : Type} [SeedableRng R] (std : Bool) (m : Mem) (seed : ℕ) : Printed Exit R :=
  if seed = 0 then okOrReturn std (fun _ : Unit => .unit) (quiet (.err ()))
  else quiet (Ffi.csprngFromSeed m seed)

/-- The lines printed by the exported functions (c.rs:71-284), and their result before it is put into a buffer;
for `roster_entry_commitment_open` the result is the length it returns. -/
def call (G : Type) [AddCommGroup G] [Module F G] [Ristretto G] [DecidableEq G]
    (R : Type) [SeedableRng R] (O : Oracle) (std : Bool) (P : Platform) (fuel : ℕ) (m : Mem) :
    Call → Printed Exit Bytes
  | .systemParametersCreate seed => do
    let csprng : R ← csprng std m seed
    match SystemParameters.huntAndPeck (G := G) fuel csprng with
    | none => quiet (.err .hangs)
    | some (params, _) => quiet (.ok params.toBytes)
  | .issuerCreate params paramsLen seed => do
    let csprng : R ← csprng std m seed
    let bytes ← quiet (Ffi.slice P m paramsLen params)
    let params : SystemParameters G ← okOrReturn std .credential (systemParameters std bytes)
    quiet (.ok (SignalIssuer.create params csprng).1.issuer.keypair.toBytes)
  | .issuerNew params paramsLen keypair keypairLen => do
    let bytes ← quiet (Ffi.slice P m paramsLen params)
    let params : SystemParameters G ← okOrReturn std .credential (systemParameters std bytes)
    let bytes ← quiet (Ffi.slice P m keypairLen keypair)
    let keys : Amacs.Keypair G ← okOrReturn std .mac (quiet (Amacs.Keypair.fromBytes P.checks bytes))
    quiet (.ok (SignalIssuer.new params keys).toBytes)
  | .issuerGetIssuerParameters i il => do
    let bytes ← quiet (Ffi.slice P m il i)
    let issuer : SignalIssuer G ← okOrReturn std .credential (issuer std P.checks bytes)
    quiet (.ok issuer.getIssuerParameters.toBytes)
  | .issuerIssue i il number numberLen seed entropy => do
    let bytes ← quiet (Ffi.slice P m il i)
    let issuer : SignalIssuer G ← okOrReturn std .credential (issuer std P.checks bytes)
    let csprng : R ← csprng std m seed
    let number ← quiet (Ffi.slice P m numberLen number)
    let issuance ← okOrReturn std .credential (quiet (issuer.issue O number csprng entropy).1)
    quiet (.ok issuance.toBytes)
  | .issuerVerify i il p pl => do
    let bytes ← quiet (Ffi.slice P m il i)
    let issuer : SignalIssuer G ← okOrReturn std .credential (issuer std P.checks bytes)
    let bytes ← quiet (Ffi.slice P m pl p)
    let presentation : SignalCredentialPresentation G ←
      okOrReturn std .credential (presentation std bytes)
    let verified ← okOrReturn std .credential (quiet (issuer.verify O presentation))
    quiet (.ok verified.toBytes)
  | .issuerVerifyRosterMembership i il v vl => do
    let bytes ← quiet (Ffi.slice P m il i)
    let issuer : SignalIssuer G ← okOrReturn std .credential (issuer std P.checks bytes)
    let bytes ← quiet (Ffi.slice P m vl v)
    let verified : VerifiedSignalCredential G ← okOrReturn std .credential (verified std bytes)
    let commitment ← okOrReturn std .credential (quiet (issuer.verifyRosterMembership O verified))
    quiet (.ok (CommittedPhoneNumber.toBytes commitment))
  | .userObtainFinish number numberLen params paramsLen issuerParams issuerParamsLen issuance
      issuanceLen => do
    let bytes ← quiet (Ffi.slice P m paramsLen params)
    let params : SystemParameters G ← okOrReturn std .credential (systemParameters std bytes)
    let bytes ← quiet (Ffi.slice P m issuerParamsLen issuerParams)
    let issuerParams : Amacs.PublicKey G ← okOrReturn std .mac (quiet (Amacs.PublicKey.fromBytes bytes))
    let bytes ← quiet (Ffi.slice P m issuanceLen issuance)
    let issuance : CredentialIssuance G ←
      okOrReturn std .credential (quiet (CredentialIssuance.fromBytes bytes))
    let number ← quiet (Ffi.slice P m numberLen number)
    let user ← okOrReturn std .credential (quiet (SignalUser.new params issuerParams none number))
    let _ ← okOrReturn std .credential (quiet (user.obtainFinish O (some issuance)).1)
    quiet (.ok (user.obtainFinish O (some issuance)).2.toBytes)
  | .userShow u ul entry entryLen seed entropy1 entropy2 => do
    let csprng : R ← csprng std m seed
    let bytes ← quiet (Ffi.slice P m ul u)
    let user : SignalUser G ← okOrReturn std .credential (signalUser std bytes)
    let bytes ← quiet (Ffi.slice P m entryLen entry)
    let entry : RosterEntryCommitment G ←
      okOrReturn std .phone (quiet (RosterEntryCommitment.fromBytes bytes))
    let presentation ← okOrReturn std .credential (quiet (user.show O csprng entry entropy1 entropy2).1)
    quiet (.ok presentation.toBytes)
  | .rosterEntryCommitmentCreate number numberLen params paramsLen seed => do
    let csprng : R ← csprng std m seed
    let number ← quiet (Ffi.slice P m numberLen number)
    let bytes ← quiet (Ffi.slice P m paramsLen params)
    let params : SystemParameters G ← okOrReturn std .credential (systemParameters std bytes)
    let entry ← okOrReturn std .phone (quiet (RosterEntryCommitment.create number params csprng).1)
    quiet (.ok entry.toBytes)
  | .rosterEntryCommitmentRemoveOpening entry entryLen => do
    let bytes ← quiet (Ffi.slice P m entryLen entry)
    let entry : RosterEntryCommitment G ←
      okOrReturn std .phone (quiet (RosterEntryCommitment.fromBytes bytes))
    quiet (.ok (CommittedPhoneNumber.toBytes entry.commitment))
  | .rosterEntryCommitmentOpen entry entryLen number numberLen params paramsLen => do
    let number ← quiet (Ffi.slice P m numberLen number)
    let bytes ← quiet (Ffi.slice P m paramsLen params)
    let params : SystemParameters G ← okOrReturn std .credential (systemParameters std bytes)
    let bytes ← quiet (Ffi.slice P m entryLen entry)
    let entry : RosterEntryCommitment G ←
      okOrReturn std .phone (quiet (RosterEntryCommitment.fromBytes bytes))
    match entry.open number params with
    | .ok _ => quiet (.ok [1])
    | .err _ => quiet (.ok [0])
    | .panic => quiet .panic

end Verif.Print
