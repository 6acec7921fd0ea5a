import Verif.Model.Amacs
import Verif.Model.PhoneNumber

/-!
# Error texts, conversions and operators

`Display` of the error types, `From`, `Index`, `len` and `Neg` implementations that the other model
files do not need.
-/

namespace Verif

/-- `Display for MacError` (aeonflux/src/errors.rs:37-52). -/
def MacError.text : MacError → String
  | .keypairDeserialisation => "Cannot deserialise keypair"
  | .pointDecompressionError => "Cannot decompress Ristretto point"
  | .scalarFormatError => "Cannot use scalar with high-bit set"
  | .messageLengthError l => "Message must be " ++ Nat.repr l ++ " bytes in length"
  | .authenticationError => "MAC could not be authenticated"

/-- `Display for CredentialError` (aeonflux/src/errors.rs:79-110). -/
def CredentialError.text : CredentialError → String
  | .badAttribute => "An attribute was unacceptable"
  | .credentialIssuance => "Failed to get a credential issued"
  | .macCreation => "Could not create a MAC"
  | .macVerification => "Could not verify a MAC"
  | .missingData => "Some data, such as a key or zkproof, was missing"
  | .noIssuerKey => "The issuer was not initialised properly and has no secret key"
  | .noIssuerParameters => "The issuer was not initialised properly and has no parameters"
  | .noSystemParameters => "The system parameters were not initialised"
  | .pointDecompressionError => "Cannot decompress Ristretto point"
  | .scalarFormatError => "Cannot use scalar with high-bit set"
  | .wrongNumberOfAttributes => "The credential did not have the correct number of attributes"
  | .wrongNumberOfBytes =>
    "The credential could not be deserialised because it was not a multiple of 32 bytes"
  | .verificationFailure => "The proof could not be verified"

/-- `Display for PhoneNumberError` (signal-credential/src/errors.rs:30-39). -/
def PhoneNumberError.text : PhoneNumberError → String
  | .lengthExceeded => "A canonicalised phone number cannot be more than 32 bytes"
  | .invalidPhoneNumber => "The user's proof of roster membership could not be verified"

namespace Amacs

/-- `From<String> for Message` (amacs.rs:77-85). `sha512` is the hash function (external), of which the
model only uses that it gives 64 bytes, as the input of `Scalar::from_bytes_mod_order_wide`. -/
def Message.ofString (sha512 : Bytes → Bytes) (source : String) : List Scalar :=
  [Scalar.fromWide (sha512 source.toUTF8.toList)]

/-- `From<Scalar> for Message` (amacs.rs:87-95). -/
def Message.ofScalar (source : Scalar) : List Scalar := [source]

/-- `From<Vec<Scalar>> for Message` (amacs.rs:97-101). A `Message` is its list of scalars. -/
def Message.ofVec (source : List Scalar) : List Scalar := source

/-- `From<Message> for Vec<Scalar>` (amacs.rs:103-107). -/
def Message.toVec (source : List Scalar) : List Scalar := source

/-- `Index<usize> for Message` (amacs.rs:109-115): panics out of range. -/
def Message.index (m : List Scalar) (k : ℕ) : Res Empty Scalar := Verif.index m k

/-- `PublicKey::len` (amacs.rs:197-199). -/
def PublicKey.len {G : Type} (k : PublicKey G) : ℕ := k.Xn.length

/-- `SecretKey::len` (amacs.rs:284-286). -/
def SecretKey.len (k : SecretKey) : ℕ := k.xn.length + 1

/-- `Keypair::len` (amacs.rs:378-380). -/
def Keypair.len {G : Type} (k : Keypair G) : ℕ := k.publicKey.len + k.secretKey.len

end Amacs

/-- `Index<usize> for PhoneNumber` (signal-credential/src/phone_number.rs:59-66): the bytes of the
scalar; panics from 32 on. -/
def PhoneNumber.index (n : Scalar) (k : ℕ) : Res Empty UInt8 := Verif.index n.toBytes k

/-- `From<PhoneNumber> for amacs::Message` (phone_number.rs:243-247). -/
def PhoneNumber.toMessage (n : Scalar) : List Scalar := Amacs.Message.ofScalar n

/-- `Neg for Ephemeral` (nonces.rs:149-155). -/
def Ephemeral.neg (e : Scalar) : Scalar := -e

section

variable {G : Type} [AddCommGroup G] [Module F G]

/-- `Mul<&RistrettoBasepointTable> for &Ephemeral` (nonces.rs:69-75). A table stands for its base. -/
def Ephemeral.mulTable (e : Scalar) (table : G) : G := e • table

/-- `Mul<&Ephemeral> for &RistrettoBasepointTable` (nonces.rs:77-83). -/
def Ephemeral.tableMul (table : G) (e : Scalar) : G := e • table

/-- `Mul` of a point by an `Ephemeral`, by value or reference (nonces.rs:85-91, 101-107, 125-131, 141-147). -/
def Ephemeral.pointMul (P : G) (e : Scalar) : G := e • P

/-- `Mul` of an `Ephemeral` by a point, by value or reference (nonces.rs:93-99, 109-115, 117-123, 133-139). -/
def Ephemeral.mulPoint (e : Scalar) (P : G) : G := e • P

/-- `Index<usize> for Nonces` (nonces.rs:168-174): panics out of range. -/
def Nonces.index (l : List Scalar) (k : ℕ) : Res Empty Scalar := Verif.index l k

/-- `From<Commitment> for RistrettoPoint` (aeonflux/src/pedersen.rs:38-42). -/
def Commitment.toPoint (c : G) : G := c

/-- `Mul<&Scalar> for &Commitment` (pedersen.rs:44-50). -/
def Commitment.mulScalar (c : G) (s : Scalar) : G := s • c

/-- `Mul<&Commitment> for &Scalar` (pedersen.rs:52-58). -/
def Commitment.scalarMul (s : Scalar) (c : G) : G := s • c

/-- `SubAssign<Commitment> for RistrettoPoint` (pedersen.rs:60-64): the new value of the point. -/
def Commitment.subAssign (P c : G) : G := P - c

/-- `Mul<&Rerandomization> for &Tag` (amacs.rs:402-411). -/
def Rerandomization.tagMul (t : Amacs.Tag G) (r : Scalar) : Amacs.Tag G := { nonce := r • t.nonce, mac := r • t.mac }

/-- `Mul<&Tag> for &Rerandomization` (amacs.rs:413-422). -/
def Rerandomization.mulTag (r : Scalar) (t : Amacs.Tag G) : Amacs.Tag G := { nonce := r • t.nonce, mac := r • t.mac }

/-- `From<Scalar> for Ephemeral` (nonces.rs:35-39). -/
def Ephemeral.ofScalar (source : Scalar) : Scalar := source

/-- `From<&Ephemeral> for &Scalar` (nonces.rs:56-60). -/
def Ephemeral.toScalar (source : Scalar) : Scalar := source

/-- `Nonces::iter` (nonces.rs:193-195). An iterator stands for the list of what it yields. -/
def Nonces.iter (l : List Scalar) : List Scalar := l

/-- `elgamal::SecretKey::generate` (elgamal.rs:170-175). -/
def Elgamal.SecretKey.generate {R : Type} [RngCore R] (r : R) : Scalar × R := Scalar.random r

/-- `From<elgamal::SecretKey> for Scalar` (elgamal.rs:184-188). -/
def Elgamal.SecretKey.toScalar (secret : Scalar) : Scalar := secret

/-- `From<elgamal::PublicKey> for RistrettoPoint` (elgamal.rs:133-137). -/
def Elgamal.PublicKey.toPoint (public_ : G) : G := public_

/-- `From<EncryptedPhoneNumber> for Vec<EncryptedAttribute>` (signal-credential/src/phone_number.rs:265-273). -/
def EncryptedPhoneNumber.toAttributes {α : Type} (source : α) : List α := [source]

end

end Verif
