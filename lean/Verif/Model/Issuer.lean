import Verif.Model.Credential

/-!
# Issuers (`aeonflux/src/issuer.rs`)
-/

namespace Verif

variable {G : Type} [AddCommGroup G] [Module F G] [Ristretto G]

/-- `Issuer` (issuer.rs:44-49). -/
@[ext] structure Issuer (G : Type) where
  systemParameters : SystemParameters G
  keypair : Amacs.Keypair G
  deriving DecidableEq

namespace Issuer

/-- `Issuer::from_bytes` (issuer.rs:52-61); `checks` as in `Amacs.Keypair.fromBytes`. -/
def fromBytes (checks : Bool) (bytes : Bytes) : Res CredentialError (Issuer G) :=
  if bytes.length < 64 + 96 then .err .missingData else do
    let systemParameters ← SystemParameters.fromBytes (← slice bytes 0 64)
    let keypair ← (Amacs.Keypair.fromBytes checks (← sliceFrom bytes 64)).mapErr
      CredentialError.ofMac
    .ok { systemParameters, keypair }

/-- `Issuer::to_bytes` (issuer.rs:63-70). -/
def toBytes (i : Issuer G) : Bytes := i.systemParameters.toBytes ++ i.keypair.toBytes

/-- `Issuer::create` (issuer.rs:86-96). -/
def create {R : Type} [RngCore R] (systemParameters : SystemParameters G) (r : R) : Issuer G × R :=
  let (keypair, r1) := Amacs.Keypair.new systemParameters.h r
  ({ systemParameters, keypair }, r1)

/-- `Issuer::new` (issuer.rs:99-105). -/
def new (systemParameters : SystemParameters G) (keypair : Amacs.Keypair G) : Issuer G :=
  { systemParameters, keypair }

/-- `Issuer::get_issuer_parameters` (issuer.rs:108-110). -/
def getIssuerParameters (i : Issuer G) : Amacs.PublicKey G := i.keypair.publicKey

/-- The transcript label of issuance (issuer.rs:154, user.rs:145). -/
def issuanceTranscript : Transcript := [.init "AEONFLUX ISSUANCE"]

/-- The transcript label of presentation (issuer.rs:214, user.rs:189). -/
def showTranscript : Transcript := [.init "AEONFLUX SHOW"]

/-- `Issuer::issue` (issuer.rs:136-195). `entropy` is what `thread_rng()` yields inside
`Proof::create`. -/
def issue {R : Type} [RngCore R] (O : Oracle) (i : Issuer G) (request : CredentialRequest) (rng : R)
    (entropy : Bytes) : Res CredentialError (CredentialIssuance G) × R :=
  match i.keypair.publicKey.Xn[0]? with
  | none => (.err .noIssuerParameters, rng)
  | some X1 =>
    match i.keypair.secretKey.xn[0]? with
    | none => (.err .noIssuerKey, rng)
    | some x1 =>
      let attributes := request.attributesRevealed
      let (csprng, rng1) := forkReseed O issuanceTranscript [] rng
      let (tag?, csprng1) := i.keypair.secretKey.mac (G := G) attributes csprng
      let res : Res CredentialError (CredentialIssuance G) := do
        let tag ← tag?.mapErr fun _ => .macCreation
        let (x0_tilde, _) := Ephemeral.new csprng1
        let Cx0 := Pedersen.commit (i.keypair.secretKey.x0 • i.systemParameters.g) x0_tilde
          i.systemParameters.h
        let m0 ← index attributes 0
        let secrets : IssuanceRevealed.Secrets :=
          { x0 := i.keypair.secretKey.x0, x1 := x1, x0_tilde := x0_tilde, m1x1 := m0 * x1 }
        let publics : IssuanceRevealed.Publics G :=
          { P := tag.nonce, Q := tag.mac, Cx0 := Cx0, B := i.systemParameters.g
            A := i.systemParameters.h, X1 := X1 }
        let proof := IssuanceRevealed.create O issuanceTranscript entropy publics secrets
        .ok { proof := proof, credential := { mac := tag, attributes := attributes }
              secretKeyCommitment := Cx0 }
      (res, rng1)

/-- The first loop of `Issuer::verify` (issuer.rs:205-207). -/
def verifyRevealed (xn : List Scalar) (P : G) : ℕ → List Scalar → G → Res CredentialError G
  | _, [], V => .ok V
  | i, a :: rest, V => do
    let x ← index xn i
    verifyRevealed xn P (i + 1) rest (V + (x * a) • P)

/-- The second loop of `Issuer::verify` (issuer.rs:209-211). -/
def verifyBlinded (xn : List Scalar) : ℕ → List G → G → Res CredentialError G
  | _, [], V => .ok V
  | i, a :: rest, V => do
    let x ← index xn i
    verifyBlinded xn (i + 1) rest (V + x • a)

/-- `Issuer::verify` (issuer.rs:197-229). -/
def verify (O : Oracle) (i : Issuer G) (presentation : CredentialPresentation G) :
    Res CredentialError (VerifiedCredential G) := do
  let P := presentation.rerandomizedNonce
  let V0 := i.keypair.secretKey.x0 • P
  let V1 ← verifyRevealed i.keypair.secretKey.xn P 0 presentation.attributesRevealed V0
  let V2 ← verifyBlinded i.keypair.secretKey.xn 0 presentation.attributesBlinded V1
  let V' := V2 - presentation.rerandomizedMacCommitment
  let X0 ← index i.keypair.publicKey.Xn 0
  let Cm0 ← index presentation.attributesBlinded 0
  let publics : ValidCredential.Publics G :=
    { B := i.systemParameters.g, A := i.systemParameters.h, X0 := X0, P := P, V := V', Cm0 := Cm0 }
  if ValidCredential.verify O showTranscript presentation.proof publics = true then
    .ok ⟨presentation⟩
  else .err .macVerification

end Issuer

end Verif
