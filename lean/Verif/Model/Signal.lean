import Verif.Model.User
import Verif.Model.PhoneNumber

/-!
# Signal credentials (`signal-credential/src/credential.rs`, `issuer.rs`, `user.rs`)
-/

namespace Verif

variable {G : Type} [AddCommGroup G] [Module F G] [Ristretto G]

/-- `SignalCredentialPresentation` (signal credential.rs:51-62). -/
@[ext] structure SignalCredentialPresentation (G : Type) where
  rosterEntryCommitment : G
  presentation : CredentialPresentation G
  rosterMembershipProof : CommittedValuesEqual.Proof
  deriving DecidableEq

namespace SignalCredentialPresentation

/-- `SignalCredentialPresentation::from_bytes` (signal credential.rs:65-89). -/
def fromBytes (bytes : Bytes) : Res CredentialError (SignalCredentialPresentation G) :=
  if bytes.length < 32 + SIZEOF_CREDENTIAL_PRESENTATION then .err .missingData else do
    let rosterEntryCommitment ← (CommittedPhoneNumber.fromBytes (← slice bytes 0 32)).mapErr
      CredentialError.ofPhone
    let presentation ← CredentialPresentation.fromBytes
      (← slice bytes 32 (32 + SIZEOF_CREDENTIAL_PRESENTATION))
    let rosterMembershipProof ← Res.ofOption .missingData (CommittedValuesEqual.Proof.deserialize
      (← sliceFrom bytes (32 + SIZEOF_CREDENTIAL_PRESENTATION)))
    .ok { rosterEntryCommitment, presentation, rosterMembershipProof }

/-- `SignalCredentialPresentation::to_bytes` (signal credential.rs:91-108). -/
def toBytes (p : SignalCredentialPresentation G) : Bytes :=
  CommittedPhoneNumber.toBytes p.rosterEntryCommitment ++ p.presentation.toBytes ++
    p.rosterMembershipProof.serialize

end SignalCredentialPresentation

/-- `VerifiedSignalCredential` (signal credential.rs:126). -/
@[ext] structure VerifiedSignalCredential (G : Type) where
  inner : SignalCredentialPresentation G
  deriving DecidableEq

namespace VerifiedSignalCredential

/-- `VerifiedSignalCredential::from_bytes` (signal credential.rs:129-131). -/
def fromBytes (bytes : Bytes) : Res CredentialError (VerifiedSignalCredential G) := do
  let p ← SignalCredentialPresentation.fromBytes bytes
  .ok ⟨p⟩

/-- `VerifiedSignalCredential::to_bytes` (signal credential.rs:133-135). -/
def toBytes (v : VerifiedSignalCredential G) : Bytes := v.inner.toBytes

end VerifiedSignalCredential

/-- `SignalIssuer` (signal issuer.rs:42-44). -/
@[ext] structure SignalIssuer (G : Type) where
  issuer : Issuer G
  deriving DecidableEq

namespace SignalIssuer

/-- `SignalIssuer::from_bytes` (signal issuer.rs:47-51). -/
def fromBytes (checks : Bool) (bytes : Bytes) : Res CredentialError (SignalIssuer G) := do
  let issuer ← Issuer.fromBytes checks bytes
  .ok { issuer }

/-- `SignalIssuer::to_bytes` (signal issuer.rs:53-55). -/
def toBytes (i : SignalIssuer G) : Bytes := i.issuer.toBytes

/-- `SignalIssuer::create` (signal issuer.rs:63-73). -/
def create {R : Type} [RngCore R] (params : SystemParameters G) (r : R) : SignalIssuer G × R :=
  let (issuer, r1) := Issuer.create params r
  ({ issuer }, r1)

/-- `SignalIssuer::new` (signal issuer.rs:83-91). -/
def new (params : SystemParameters G) (keypair : Amacs.Keypair G) : SignalIssuer G :=
  { issuer := Issuer.new params keypair }

/-- `SignalIssuer::get_issuer_parameters` (signal issuer.rs:94-96). -/
def getIssuerParameters (i : SignalIssuer G) : Amacs.PublicKey G := i.issuer.getIssuerParameters

/-- `SignalIssuer::issue` (signal issuer.rs:130-147). -/
def issue {R : Type} [RngCore R] (O : Oracle) (i : SignalIssuer G) (phoneNumber : Bytes) (rng : R)
    (entropy : Bytes) : Res CredentialError (CredentialIssuance G) × R :=
  match (PhoneNumber.tryFromBytes phoneNumber).mapErr CredentialError.ofPhone with
  | .err e => (.err e, rng)
  | .panic => (.panic, rng)
  | .ok number => i.issuer.issue O { attributesRevealed := [number] } rng entropy

/-- `SignalIssuer::verify` (signal issuer.rs:149-155). -/
def verify (O : Oracle) (i : SignalIssuer G) (p : SignalCredentialPresentation G) :
    Res CredentialError (VerifiedSignalCredential G) := do
  let _ ← i.issuer.verify O p.presentation
  .ok ⟨p⟩

/-- The transcript of the roster proof (signal issuer.rs:173, user.rs:114). -/
def membershipTranscript : Transcript := [.init "SIGNAL GROUP MEMBERSHIP"]

/-- `SignalIssuer::verify_roster_membership` (signal issuer.rs:162-181). -/
def verifyRosterMembership (O : Oracle) (i : SignalIssuer G) (credential : VerifiedSignalCredential G) :
    Res CredentialError G := do
  let Cm0 ← index credential.inner.presentation.attributesBlinded 0
  let publics : CommittedValuesEqual.Publics G :=
    { B := i.issuer.systemParameters.g, A := i.issuer.systemParameters.h
      P := credential.inner.presentation.rerandomizedNonce, Cm0 := Cm0
      Cm1 := credential.inner.rosterEntryCommitment }
  if CommittedValuesEqual.verify O membershipTranscript credential.inner.rosterMembershipProof
      publics = true then
    .ok credential.inner.rosterEntryCommitment
  else .err .verificationFailure

end SignalIssuer

/-- `SignalUser` (signal user.rs:40-43). -/
@[ext] structure SignalUser (G : Type) where
  phoneNumber : Scalar
  user : User G
  deriving DecidableEq

namespace SignalUser

/-- `SignalUser::from_bytes` (signal user.rs:46-51). -/
def fromBytes (bytes : Bytes) : Res CredentialError (SignalUser G) := do
  let phoneNumber ← (PhoneNumber.fromBytes (← slice bytes 0 32)).mapErr CredentialError.ofPhone
  let user ← User.fromBytes (← sliceFrom bytes 32)
  .ok { phoneNumber, user }

/-- `SignalUser::to_bytes` (signal user.rs:53-60). -/
def toBytes (u : SignalUser G) : Bytes := PhoneNumber.toBytes u.phoneNumber ++ u.user.toBytes

/-- `SignalUser::new` (signal user.rs:68-84). -/
def new (params : SystemParameters G) (issuerParameters : Amacs.PublicKey G)
    (key : Option (Elgamal.Keypair G)) (phoneNumber : Bytes) :
    Res CredentialError (SignalUser G) := do
  let user := User.new params issuerParameters key
  let number ← (PhoneNumber.tryFromBytes phoneNumber).mapErr CredentialError.ofPhone
  .ok { phoneNumber := number, user := user }

/-- `SignalUser::obtain_finish` (signal user.rs:87-93). -/
def obtainFinish (O : Oracle) (u : SignalUser G) (issuance : Option (CredentialIssuance G)) :
    Res CredentialError Unit × SignalUser G :=
  let (res, user) := u.user.obtainFinish O issuance
  (res, { u with user := user })

/-- `SignalUser::show` (signal user.rs:99-140). `entropy1`, `entropy2` are what `thread_rng()` yields
in the two `Proof::create` calls. -/
def «show» {R : Type} [RngCore R] (O : Oracle) (u : SignalUser G) (rng : R)
    (roster : RosterEntryCommitment G) (entropy1 entropy2 : Bytes) :
    Res CredentialError (SignalCredentialPresentation G) × R :=
  match u.user.credential with
  | none => (.err .missingData, rng)
  | some credential =>
    let (nonces, rng1) := Nonces.new rng NUMBER_OF_ATTRIBUTES
    let (presentation?, rng2) := u.user.show O nonces rng1 entropy1
    let res : Res CredentialError (SignalCredentialPresentation G) := do
      let presentation ← presentation?
      let m0 ← index credential.attributes 0
      let z0 ← index nonces 0
      let secrets : CommittedValuesEqual.Secrets := { m0 := m0, z0 := z0, z1 := roster.opening }
      let Cm0 ← index presentation.attributesBlinded 0
      let publics : CommittedValuesEqual.Publics G :=
        { B := u.user.systemParameters.g, A := u.user.systemParameters.h
          P := presentation.rerandomizedNonce, Cm0 := Cm0, Cm1 := roster.commitment }
      let proof := CommittedValuesEqual.create O SignalIssuer.membershipTranscript entropy2 publics
        secrets
      .ok { presentation := presentation, rosterEntryCommitment := roster.commitment
            rosterMembershipProof := proof }
    (res, rng2)

end SignalUser

end Verif
