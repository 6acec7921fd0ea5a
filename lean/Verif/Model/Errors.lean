import Verif.Merlin

/-!
# Error types (`aeonflux/src/errors.rs`, `signal-credential/src/errors.rs`)
-/

namespace Verif

/-- `MacError` (aeonflux/src/errors.rs:25-35). -/
inductive MacError where
  | keypairDeserialisation
  | pointDecompressionError
  | scalarFormatError
  | messageLengthError (length : ℕ)
  | authenticationError
  deriving DecidableEq, Repr

/-- `CredentialError` (aeonflux/src/errors.rs:63-77). -/
inductive CredentialError where
  | badAttribute
  | credentialIssuance
  | macCreation
  | macVerification
  | missingData
  | noIssuerKey
  | noIssuerParameters
  | noSystemParameters
  | pointDecompressionError
  | scalarFormatError
  | wrongNumberOfAttributes
  | wrongNumberOfBytes
  | verificationFailure
  deriving DecidableEq, Repr

/-- `PhoneNumberError` (signal-credential/src/errors.rs:25-28). -/
inductive PhoneNumberError where
  | lengthExceeded
  | invalidPhoneNumber
  deriving DecidableEq, Repr

/-- `From<NoneError> for MacError` (aeonflux/src/errors.rs:56-60): `?` on a `None`. -/
def MacError.ofNone : MacError := .pointDecompressionError

/-- `From<NoneError> for CredentialError` (aeonflux/src/errors.rs:114-118). -/
def CredentialError.ofNone : CredentialError := .missingData

/-- `From<MacError> for CredentialError` (aeonflux/src/errors.rs:120-135). -/
def CredentialError.ofMac : MacError → CredentialError
  | .keypairDeserialisation => .noIssuerKey
  | .pointDecompressionError => .noIssuerParameters
  | .scalarFormatError => .scalarFormatError
  | .messageLengthError _ => .macCreation
  | .authenticationError => .macVerification

/-- `From<NoneError> for PhoneNumberError` (signal-credential/src/errors.rs:43-47). -/
def PhoneNumberError.ofNone : PhoneNumberError := .invalidPhoneNumber

/-- `From<PhoneNumberError> for CredentialError` (signal-credential/src/errors.rs:49-53). -/
def CredentialError.ofPhone (_ : PhoneNumberError) : CredentialError := .ofNone

/-- `From<CredentialError> for PhoneNumberError` (signal-credential/src/errors.rs:55-59). -/
def PhoneNumberError.ofCredential (_ : CredentialError) : PhoneNumberError := .ofNone

end Verif
