import Verif.Model.Issuer

/-!
# Users (`aeonflux/src/user.rs`)

`blind_request` (user.rs:254-268) is not modelled: it ends in `unimplemented!()` and does not
typecheck at this commit.
-/

namespace Verif

variable {G : Type} [AddCommGroup G] [Module F G] [Ristretto G]

/-- `User` (user.rs:46-52). -/
@[ext] structure User (G : Type) where
  systemParameters : SystemParameters G
  issuerParameters : Amacs.PublicKey G
  key : Option (Elgamal.Keypair G)
  credential : Option (Credential G)
  deriving DecidableEq

namespace User

/-- The key block of `from_bytes` (user.rs:63-69): 64 zero bytes stand for `None`. -/
def decodeKey (keyBytes : Bytes) : Res CredentialError (Option (Elgamal.Keypair G)) :=
  if keyBytes = List.replicate 64 0 then .ok none else do
    let k ← Elgamal.Keypair.fromBytes keyBytes
    .ok (some k)

/-- The credential block of `from_bytes` (user.rs:71-77): `first` are bytes 160..256, compared with
zero; `tail` are bytes 160.., which are decoded. -/
def decodeCredential (first tail : Bytes) : Res CredentialError (Option (Credential G)) :=
  if first = List.replicate 96 0 then .ok none else do
    let c ← Credential.fromBytes tail
    .ok (some c)

/-- `User::from_bytes` (user.rs:55-85). -/
def fromBytes (bytes : Bytes) : Res CredentialError (User G) :=
  if bytes.length ≠ 256 then .err .missingData else do
    let systemParameters ← SystemParameters.fromBytes (← slice bytes 0 64)
    let issuerParameters ← (Amacs.PublicKey.fromBytes (← slice bytes 64 96)).mapErr
      CredentialError.ofMac
    let key ← decodeKey (← slice bytes 96 160)
    let first ← slice bytes 160 256
    let tail ← sliceFrom bytes 160
    let credential ← decodeCredential first tail
    .ok { systemParameters, issuerParameters, key, credential }

/-- `User::to_bytes` (user.rs:87-104). -/
def toBytes (u : User G) : Bytes :=
  u.systemParameters.toBytes ++ u.issuerParameters.toBytes ++
    (match u.key with
      | none => List.replicate 64 0
      | some k => k.toBytes) ++
    (match u.credential with
      | none => List.replicate 96 0
      | some c => c.toBytes)

/-- `User::new` (user.rs:111-123). -/
def new (systemParameters : SystemParameters G) (issuerParameters : Amacs.PublicKey G)
    (key : Option (Elgamal.Keypair G)) : User G :=
  { systemParameters, issuerParameters, key, credential := none }

/-- `User::obtain` (user.rs:129-137). -/
def obtain (_ : User G) (attributesRevealed : List Scalar) : CredentialRequest :=
  { attributesRevealed }

/-- `User::obtain_finish` (user.rs:140-172): the result and the new user. -/
def obtainFinish (O : Oracle) (u : User G) (issuance : Option (CredentialIssuance G)) :
    Res CredentialError Unit × User G :=
  match issuance with
  | none => (.err .credentialIssuance, u)
  | some issue =>
    match u.issuerParameters.Xn[0]? with
    | none => (.err .noIssuerParameters, u)
    | some X1 =>
      let publics : IssuanceRevealed.Publics G :=
        { P := issue.credential.mac.nonce, Q := issue.credential.mac.mac
          Cx0 := issue.secretKeyCommitment, B := u.systemParameters.g, A := u.systemParameters.h
          X1 := X1 }
      if IssuanceRevealed.verify O Issuer.issuanceTranscript issue.proof publics = true then
        (.ok (), { u with credential := some issue.credential })
      else (.err .credentialIssuance, u)

/-- The error factor loop of `show` (user.rs:219-221). -/
def showV (Xn : List G) : ℕ → List Scalar → G → Res CredentialError G
  | _, [], V => .ok V
  | i, zi :: rest, V => do
    let X ← index Xn i
    showV Xn (i + 1) rest (V + zi • X)

/-- `User::show` (user.rs:176-251). `entropy` is what `thread_rng()` yields inside
`Proof::create`. -/
def «show» {R : Type} [RngCore R] (O : Oracle) (u : User G) (nonces : List Scalar) (rng : R)
    (entropy : Bytes) : Res CredentialError (CredentialPresentation G) × R :=
  match u.credential with
  | none => (.err .missingData, rng)
  | some credential =>
    let (csprng, rng1) := forkReseed O Issuer.showTranscript [] rng
    let (r, csprng1) := Amacs.Rerandomization.new csprng
    let rerandomizedMac := Amacs.applyToTag r credential.mac
    let A := u.systemParameters.h
    let B := u.systemParameters.g
    let P := rerandomizedMac.nonce
    let Q := rerandomizedMac.mac
    let (zQ, _) := Ephemeral.new csprng1
    let CQ := Pedersen.commit Q zQ A
    let commitments :=
      List.zipWith (fun zi mi => Pedersen.commit (mi • P) zi A) nonces credential.attributes
    let res : Res CredentialError (CredentialPresentation G) := do
      let V0 ← showV u.issuerParameters.Xn 0 nonces 0
      let V := V0 - zQ • A
      let minus_zQ := -zQ
      let m0 ← index credential.attributes 0
      let z0 ← index nonces 0
      let secrets : ValidCredential.Secrets := { m0 := m0, z0 := z0, minus_zQ := minus_zQ }
      let X0 ← index u.issuerParameters.Xn 0
      let Cm0 ← index commitments 0
      let publics : ValidCredential.Publics G :=
        { B := B, A := A, X0 := X0, P := rerandomizedMac.nonce, V := V, Cm0 := Cm0 }
      let proof := ValidCredential.create O Issuer.showTranscript entropy publics secrets
      .ok { proof := proof, rerandomizedMacCommitment := CQ
            rerandomizedNonce := rerandomizedMac.nonce, attributesRevealed := []
            attributesBlinded := commitments }
    (res, rng1)

end User

end Verif
