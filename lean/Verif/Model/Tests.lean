import Verif.Model.Signal
import Verif.Model.Conversions
import Verif.Model.BuildTest

/-!
# The repository's tests

The test functions of the library crates (`aeonflux`, `signal-credential`, `build-test/maths`), as programs of their
own. A failing assertion or `unwrap` panics; a test passes if it returns `ok ()`.

All calls of `thread_rng()` in a test read the same generator. Here `r n` is its state before the `n`-th call that
reads it, and `e n` the bytes that `Proof::create` reads from it. The theorems hold for all of these, whether or not
each follows from the one before.
-/

namespace Verif.Tests

open Amacs

variable {G : Type} [AddCommGroup G] [Module F G] [Ristretto G] [DecidableEq G]
variable {R : Type} [RngCore R]

/-- `Result::unwrap` (as in aeonflux/src/amacs.rs:463). -/
def unwrap {ε α : Type} : Res ε α → Res Empty α
  | .ok a => .ok a
  | .err _ => .panic
  | .panic => .panic

/-- `assert!(x.is_ok())` (as in amacs.rs:465). -/
def assertOk {ε α : Type} : Res ε α → Res Empty Unit
  | .ok _ => .ok ()
  | .err _ => .panic
  | .panic => .panic

/-- `assert!(x.is_err())` (as in amacs.rs:466). -/
def assertErr {ε α : Type} : Res ε α → Res Empty Unit
  | .ok _ => .panic
  | .err _ => .ok ()
  | .panic => .panic

/-- `test_mac_authentication` (amacs.rs:449-467). -/
def macAuthentication (G : Type) [AddCommGroup G] [Module F G] [Ristretto G] [DecidableEq G] (r : ℕ → R) :
    Res Empty Unit := do
  let key := (SecretKey.new 2 (r 0)).1
  let s1 := (Scalar.random (r 1)).1
  let s2 := (Scalar.random (r 2)).1
  let s3 := (Scalar.random (r 3)).1
  let tagged : Tag G ← unwrap (key.mac [s1, s2] (r 4)).1
  assertOk (key.verify tagged [s1, s2])
  assertErr (key.verify tagged [s1, s3])

/-- `test_rerandomised_mac_authentication` (amacs.rs:469-487). -/
def rerandomisedMacAuthentication (G : Type) [AddCommGroup G] [Module F G] [Ristretto G] [DecidableEq G] (r : ℕ → R) :
    Res Empty Unit := do
  let key := (SecretKey.new 2 (r 0)).1
  let s1 := (Scalar.random (r 1)).1
  let s2 := (Scalar.random (r 2)).1
  let s3 := (Scalar.random (r 3)).1
  let tag : Tag G ← unwrap (key.mac [s1, s2] (r 4)).1
  let rerandomised := applyToTag (Rerandomization.new (r 5)).1 tag
  assertOk (key.verify rerandomised [s1, s2])
  assertErr (key.verify rerandomised [s1, s3])

/-- `roundtrip` (aeonflux/src/elgamal.rs:242-251): the message is made from the nonce that also encrypts it. -/
def elgamalRoundtrip (G : Type) [AddCommGroup G] [Module F G] [Ristretto G] [DecidableEq G] (r : ℕ → R) :
    Res Empty Unit :=
  let nonce := (Ephemeral.new (r 0)).1
  let msg : G := nonce • basepoint G
  let keypair : Elgamal.Keypair G := (Elgamal.Keypair.generate (r 1)).1
  let enc := Elgamal.PublicKey.encrypt keypair.publicKey msg nonce
  Res.assert (Elgamal.SecretKey.decrypt keypair.secretKey enc = msg)

/-- `good_commitment` (aeonflux/src/pedersen.rs:127-137), with the bytes `H` of line 121. -/
def goodCommitment (G : Type) [AddCommGroup G] [Module F G] [Ristretto G] [DecidableEq G] (H : Bytes) (r : ℕ → R) :
    Res Empty Unit := do
  let nonce := (Ephemeral.new (r 0)).1
  let value : G := (Scalar.random (r 1)).1 • basepoint G
  let base : G ← Res.unwrap (dec H)
  Res.assert (Pedersen.open (Pedersen.commit value nonce base) value nonce base = true)

/-- `bad_commitment` (pedersen.rs:139-150). -/
def badCommitment (G : Type) [AddCommGroup G] [Module F G] [Ristretto G] [DecidableEq G] (H : Bytes) (r : ℕ → R) :
    Res Empty Unit := do
  let nonce := (Ephemeral.new (r 0)).1
  let value : G := (Scalar.random (r 1)).1 • basepoint G
  let other : G := (Scalar.random (r 2)).1 • basepoint G
  let base : G ← Res.unwrap (dec H)
  Res.assert (Pedersen.open (Pedersen.commit value nonce base) other nonce base = false)

/-- `system_parameters_serialize_deserialize` (aeonflux/src/parameters.rs:186-195), with the bytes `H` of line 181. -/
def parametersRoundtrip (G : Type) [AddCommGroup G] [Module F G] [Ristretto G] [DecidableEq G] (debug : Bool)
    (H : Bytes) : Res Empty Unit := do
  let parameters : SystemParameters G ← SystemParameters.ofArray debug H
  let serialized := parameters.toBytes
  let deserialized : SystemParameters G ← unwrap (SystemParameters.fromBytes serialized)
  Res.assert (parameters = deserialized)
  Res.assert ((← slice serialized 32 64) = H)

/-- `system_parameters_from_bytes` (parameters.rs:197-210), with the bytes given there. -/
def parametersFromBytes (G : Type) [AddCommGroup G] [Module F G] [Ristretto G] (bytes : Bytes) : Res Empty Unit :=
  assertErr (SystemParameters.fromBytes bytes : Res _ (SystemParameters G))

/-- `hunt_and_peck` (parameters.rs:212-217): `none` after `fuel` draws without result. -/
def huntAndPeck (G : Type) [AddCommGroup G] [Module F G] [Ristretto G] (fuel : ℕ) (r : ℕ → R) :
    Option (Res Empty Unit) := do
  let _ : SystemParameters G × R ← SystemParameters.huntAndPeck fuel (r 0)
  some (.ok ())

/-- What the tests of aeonflux with an issuer and a user have in common (aeonflux/src/issuer.rs:252-281,
credential.rs:395-412 and 423-440): issuer and presentation. -/
def presentation (G : Type) [AddCommGroup G] [Module F G] [Ristretto G] [DecidableEq G] (O : Oracle) (debug : Bool)
    (H : Bytes) (r : ℕ → R) (e : ℕ → Bytes) : Res Empty (Issuer G × CredentialPresentation G) := do
  let parameters : SystemParameters G ← SystemParameters.ofArray debug H
  let issuer := (Issuer.create parameters (r 0)).1
  let alice := User.new parameters issuer.getIssuerParameters none
  let request := alice.obtain [(Scalar.random (r 1)).1]
  let issuance ← unwrap (issuer.issue O request (r 2) (e 0)).1
  let finished := alice.obtainFinish O (some issuance)
  unwrap finished.1
  let nonces := (Nonces.new (r 3) NUMBER_OF_ATTRIBUTES).1
  let p ← unwrap (finished.2.show O nonces (r 4) (e 1)).1
  .ok (issuer, p)

/-- `credential_issuance_and_presentation` (aeonflux/src/issuer.rs:249-282). -/
def issuanceAndPresentation (G : Type) [AddCommGroup G] [Module F G] [Ristretto G] [DecidableEq G] (O : Oracle)
    (debug : Bool) (H : Bytes) (r : ℕ → R) (e : ℕ → Bytes) : Res Empty Unit := do
  let (issuer, p) ← presentation G O debug H r e
  let _ ← unwrap (issuer.verify O p)
  .ok ()

/-- `credential_presentation_serialize_deserialize` (aeonflux/src/credential.rs:393-419). -/
def presentationRoundtrip (G : Type) [AddCommGroup G] [Module F G] [Ristretto G] [DecidableEq G] (O : Oracle)
    (debug : Bool) (H : Bytes) (r : ℕ → R) (e : ℕ → Bytes) : Res Empty Unit := do
  let (_, p) ← presentation G O debug H r e
  let deserialized := CredentialPresentation.fromBytes p.toBytes
  assertOk deserialized
  Res.assert ((← unwrap deserialized) = p)

/-- `verified_credential_serialize_deserialize` (aeonflux/src/credential.rs:421-449). -/
def verifiedRoundtrip (G : Type) [AddCommGroup G] [Module F G] [Ristretto G] [DecidableEq G] (O : Oracle)
    (debug : Bool) (H : Bytes) (r : ℕ → R) (e : ℕ → Bytes) : Res Empty Unit := do
  let (issuer, p) ← presentation G O debug H r e
  let verified ← unwrap (issuer.verify O p)
  let deserialized := VerifiedCredential.fromBytes verified.toBytes
  assertOk deserialized
  Res.assert ((← unwrap deserialized) = verified)

/-- Alice's number (signal-credential/tests/full-protocol.rs:38, credential.rs:161, user.rs:277). -/
def aliceNumber : Bytes := [1, 4, 1, 5, 5, 5, 5, 1, 2, 3, 4]

/-- Bob's number (full-protocol.rs:44). -/
def bobNumber : Bytes := [1, 4, 1, 5, 5, 5, 5, 6, 6, 6, 6]

/-- `verified_credential_serialize_deserialize` (signal-credential/src/credential.rs:153-180), after the parameters. -/
def signalVerifiedRoundtrip (O : Oracle) (parameters : SystemParameters G) (r : ℕ → R) (e : ℕ → Bytes) :
    Res Empty Unit := do
  let issuer := (SignalIssuer.create parameters (r 0)).1
  let alice ← unwrap (SignalUser.new parameters issuer.getIssuerParameters none aliceNumber)
  let issuance ← unwrap (issuer.issue O aliceNumber (r 1) (e 0)).1
  let finished := alice.obtainFinish O (some issuance)
  unwrap finished.1
  let entry ← unwrap (RosterEntryCommitment.create aliceNumber parameters (r 2)).1
  let p ← unwrap (finished.2.show O (r 3) entry (e 1) (e 2)).1
  let verified ← unwrap (issuer.verify O p)
  let deserialized := VerifiedSignalCredential.fromBytes verified.toBytes
  assertOk deserialized
  Res.assert ((← unwrap deserialized) = verified)

/-- `signal_user_serialize_deserialize` (signal-credential/src/user.rs:270-287), with the bytes `H` of line 263. -/
def signalUserRoundtrip (G : Type) [AddCommGroup G] [Module F G] [Ristretto G] [DecidableEq G] (debug : Bool)
    (H : Bytes) (r : ℕ → R) : Res Empty Unit := do
  let parameters : SystemParameters G ← SystemParameters.ofArray debug H
  let issuer := (SignalIssuer.create parameters (r 0)).1
  let alice ← unwrap (SignalUser.new parameters issuer.issuer.keypair.publicKey none aliceNumber)
  let deserialized ← unwrap (SignalUser.fromBytes alice.toBytes)
  Res.assert (deserialized = alice)

/-- `credential_issuance_and_presentation` (signal-credential/tests/full-protocol.rs:24-93), after the parameters. -/
def fullProtocol (O : Oracle) (parameters : SystemParameters G) (r : ℕ → R) (e : ℕ → Bytes) : Res Empty Unit := do
  let issuer := (SignalIssuer.create parameters (r 0)).1
  let issuerParameters := issuer.issuer.keypair.publicKey
  let alice ← unwrap (SignalUser.new parameters issuerParameters none aliceNumber)
  let bob ← unwrap (SignalUser.new parameters issuerParameters none bobNumber)
  let aliceIssuance ← unwrap (issuer.issue O aliceNumber (r 1) (e 0)).1
  let aliceFinished := alice.obtainFinish O (some aliceIssuance)
  unwrap aliceFinished.1
  let bobIssuance ← unwrap (issuer.issue O bobNumber (r 2) (e 1)).1
  let bobFinished := bob.obtainFinish O (some bobIssuance)
  unwrap bobFinished.1
  let bobEntry ← unwrap (RosterEntryCommitment.create bobNumber parameters (r 3)).1
  let rosterAdmins := [bobEntry.commitment]
  let aliceEntry ← unwrap (RosterEntryCommitment.create aliceNumber parameters (r 4)).1
  let rosterUsers := [aliceEntry.commitment]
  let p ← unwrap (aliceFinished.2.show O (r 5) aliceEntry (e 2) (e 3)).1
  let verified ← unwrap (issuer.verify O p)
  let proof := issuer.verifyRosterMembership O verified
  assertOk proof
  let copy ← unwrap proof
  Res.assert (copy ∉ rosterAdmins)
  Res.assert (copy ∈ rosterUsers)

/-- The two tests of signal-credential with new parameters (full-protocol.rs:31, credential.rs:158): `none` after `fuel`
draws without result. -/
def withParameters (fuel : ℕ) (r : R) (test : SystemParameters G → Res Empty Unit) : Option (Res Empty Unit) := do
  let (parameters, _) ← SystemParameters.huntAndPeck fuel r
  some (test parameters)

/-- `test_roundtrip` (signal-credential/src/phone_number.rs:387-396). -/
def phoneRoundtrip : Res Empty Unit := do
  let input := "0018005551234".toUTF8.toList
  let number ← unwrap (PhoneNumber.tryFromString input)
  let check ← PhoneNumber.toStr number
  Res.assert (input = check)

/-- `test_equality_leading_zeroes` (phone_number.rs:398-404). -/
def phoneLeadingZeroes : Res Empty Unit := do
  let a ← unwrap (PhoneNumber.tryFromString "0018005551234".toUTF8.toList)
  let b ← unwrap (PhoneNumber.tryFromString "00018005551234".toUTF8.toList)
  Res.assert (a ≠ b)

/-- The example in the documentation of `try_from_string` (phone_number.rs:101-123). Its `main` ignores an error of
`try_from_string`, here it is unwrapped. -/
def phoneExample : Res Empty Unit := do
  let microsoft := Scalar.fromBytesModOrder
    [15, 15, 00, 00, 01, 08, 00, 00, 06, 04, 02, 07, 06, 07, 06, 15,
     15, 13, 00, 00, 00, 00, 00, 00, 00, 00, 00, 00, 00, 00, 00, 00]
  let expected ← unwrap (PhoneNumber.tryFromString "0018006427676".toUTF8.toList)
  Res.assert (microsoft = expected)

/-- `test_do_things_with_maths` (build-test/maths/src/lib.rs:36-44). -/
def mathsTest (G : Type) [AddCommGroup G] [Module F G] [Ristretto G] (r : ℕ → R) : Res Empty Unit :=
  Res.assert (BuildTest.maths G r ≠ enc (0 : G))

end Verif.Tests
