import Verif.Model.Amacs
import Verif.Model.Parameters
import Verif.Model.Bincode

/-!
# Credentials (`aeonflux/src/credential.rs`)
-/

namespace Verif

variable {G : Type} [AddCommGroup G] [Module F G]

/-- `SIZEOF_CREDENTIAL = SIZEOF_TAG + NUMBER_OF_ATTRIBUTES * 32` (credential.rs:42, amacs.rs:59). -/
def SIZEOF_CREDENTIAL : ℕ := 64 + NUMBER_OF_ATTRIBUTES * 32

/-- `SIZEOF_CREDENTIAL_PRESENTATION` (credential.rs:43). -/
def SIZEOF_CREDENTIAL_PRESENTATION : ℕ := 256

/-- `PRESENTATION_NUMBER_OF_REVEALED_ATTRIBUTES` (credential.rs:52). -/
def PRESENTATION_NUMBER_OF_REVEALED_ATTRIBUTES : ℕ := 0

/-- `PRESENTATION_NUMBER_OF_BLINDED_ATTRIBUTES` (credential.rs:55). -/
def PRESENTATION_NUMBER_OF_BLINDED_ATTRIBUTES : ℕ := 1

/-- `Credential` (credential.rs:67-76). -/
@[ext] structure Credential (G : Type) where
  mac : Amacs.Tag G
  attributes : List Scalar
  deriving DecidableEq

/-- `CredentialRequest` (credential.rs:156-160). -/
@[ext] structure CredentialRequest where
  attributesRevealed : List Scalar
  deriving DecidableEq

/-- `CredentialIssuance` (credential.rs:202-208). -/
@[ext] structure CredentialIssuance (G : Type) where
  secretKeyCommitment : G
  credential : Credential G
  proof : IssuanceRevealed.Proof
  deriving DecidableEq

/-- `CredentialPresentation` (credential.rs:248-264). -/
@[ext] structure CredentialPresentation (G : Type) where
  rerandomizedMacCommitment : G
  rerandomizedNonce : G
  attributesRevealed : List Scalar
  attributesBlinded : List G
  proof : ValidCredential.Proof
  deriving DecidableEq

/-- A 32-byte chunk as a canonical scalar (the loop bodies at credential.rs:90-98, 174-182). -/
def chunkToScalar (chunk : Bytes) : Res CredentialError Scalar := do
  let tmp ← copyFromSlice 32 chunk
  Res.ofOption .scalarFormatError (Scalar.fromCanonical tmp)

namespace CredentialRequest

/-- `CredentialRequest::from_bytes` (credential.rs:163-186). -/
def fromBytes (bytes : Bytes) : Res CredentialError CredentialRequest :=
  if bytes.length % 32 ≠ 0 then .err .wrongNumberOfBytes else do
    let attributesRevealed ← Res.mapM chunkToScalar (chunks32 bytes)
    .ok { attributesRevealed }

/-- `CredentialRequest::to_bytes` (credential.rs:188-196). -/
def toBytes (r : CredentialRequest) : Bytes := (r.attributesRevealed.map Scalar.toBytes).flatten

end CredentialRequest

variable [Ristretto G]

namespace Credential

/-- `Credential::from_bytes` (credential.rs:79-102). -/
def fromBytes (bytes : Bytes) : Res CredentialError (Credential G) :=
  let length := bytes.length
  if length % 32 ≠ 0 ∨ length < 96 ∨ length ≠ SIZEOF_CREDENTIAL then .err .wrongNumberOfBytes else do
    let mac ← (Amacs.Tag.fromBytes (← slice bytes 0 64)).mapErr CredentialError.ofMac
    let attributes ← Res.mapM chunkToScalar (chunks32 (← sliceFrom bytes 64))
    .ok { mac, attributes }

/-- `Credential::to_bytes` (credential.rs:104-114). -/
def toBytes (c : Credential G) : Bytes :=
  c.mac.toBytes ++ (c.attributes.map Scalar.toBytes).flatten

end Credential

namespace CredentialIssuance

/-- `CredentialIssuance::from_bytes` (credential.rs:211-224). -/
def fromBytes (bytes : Bytes) : Res CredentialError (CredentialIssuance G) := do
  let secretKeyCommitment ← Pedersen.fromBytes (← slice bytes 0 32)
  let credential ← Credential.fromBytes (← slice bytes 32 (32 + SIZEOF_CREDENTIAL))
  let proof ← Res.ofOption .missingData
    (IssuanceRevealed.Proof.deserialize (← sliceFrom bytes (32 + SIZEOF_CREDENTIAL)))
  .ok { secretKeyCommitment, credential, proof }

/-- `CredentialIssuance::to_bytes` (credential.rs:226-242); bincode into a `Vec` cannot fail. -/
def toBytes (i : CredentialIssuance G) : Bytes :=
  Pedersen.toBytes i.secretKeyCommitment ++ i.credential.toBytes ++ i.proof.serialize

end CredentialIssuance

namespace CredentialPresentation

/-- The attribute loop of `from_bytes` (credential.rs:288-303): `processed` chunks done so far. -/
def attributeLoop : ℕ → List Bytes → Res CredentialError (List Scalar × List G)
  | _, [] => .ok ([], [])
  | processed, chunk :: rest =>
    if processed < PRESENTATION_NUMBER_OF_REVEALED_ATTRIBUTES then do
      let x ← chunkToScalar chunk
      let (revealed, blinded) ← attributeLoop (processed + 1) rest
      .ok (x :: revealed, blinded)
    else do
      let x ← (Pedersen.fromBytes chunk).mapErr fun _ => .pointDecompressionError
      let (revealed, blinded) ← attributeLoop (processed + 1) rest
      .ok (revealed, x :: blinded)

/-- `CredentialPresentation::from_bytes` (credential.rs:267-321). -/
def fromBytes (bytes : Bytes) : Res CredentialError (CredentialPresentation G) :=
  if bytes.length % 32 ≠ 0 then .err .wrongNumberOfBytes else do
    let rerandomizedMacCommitment ← Pedersen.fromBytes (← slice bytes 0 32)
    let tmp ← copyFromSlice 32 (← slice bytes 32 64)
    let rerandomizedNonce ← Res.ofOption .ofNone (dec tmp)
    let attributesOffset :=
      32 * (PRESENTATION_NUMBER_OF_REVEALED_ATTRIBUTES + PRESENTATION_NUMBER_OF_BLINDED_ATTRIBUTES)
    let (attributesRevealed, attributesBlinded) ←
      attributeLoop 0 (chunks32 (← slice bytes 64 (64 + attributesOffset)))
    let proof ← Res.ofOption .missingData
      (ValidCredential.Proof.deserialize (← sliceFrom bytes (64 + attributesOffset)))
    .ok { rerandomizedMacCommitment, rerandomizedNonce, attributesRevealed, attributesBlinded, proof }

/-- `CredentialPresentation::to_bytes` (credential.rs:323-346). -/
def toBytes (p : CredentialPresentation G) : Bytes :=
  Pedersen.toBytes p.rerandomizedMacCommitment ++ enc p.rerandomizedNonce ++
    (p.attributesRevealed.map Scalar.toBytes).flatten ++
    (p.attributesBlinded.map Pedersen.toBytes).flatten ++ p.proof.serialize

end CredentialPresentation

/-- `VerifiedCredential` (credential.rs:359-361): a presentation that went through `verify`. -/
@[ext] structure VerifiedCredential (G : Type) where
  presentation : CredentialPresentation G
  deriving DecidableEq

namespace VerifiedCredential

/-- `VerifiedCredential::from_bytes` (credential.rs:364-366). -/
def fromBytes (bytes : Bytes) : Res CredentialError (VerifiedCredential G) := do
  let p ← CredentialPresentation.fromBytes bytes
  .ok ⟨p⟩

/-- `VerifiedCredential::to_bytes` (credential.rs:368-370). -/
def toBytes (v : VerifiedCredential G) : Bytes := v.presentation.toBytes

end VerifiedCredential

end Verif
