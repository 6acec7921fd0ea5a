{"id": "C01", "title": "System parameters codec is an exact bijection", "statement": "SystemParameters::from_bytes(b) is Ok(p) exactly when b is 64 bytes whose halves are both valid point encodings; then p.to_bytes() == b, and from_bytes(p.to_bytes()) == Ok(p) for every p. Wrong length gives NoSystemParameters, a bad point gives PointDecompressionError, and no input panics.", "quantifier": "for every byte string and every pair of points", "why_tests_cant": "the accept/reject split is over all byte strings of all lengths", "anchors": ["aeonflux/src/parameters.rs SystemParameters::from_bytes, to_bytes"]}
{"id": "C02", "title": "MAC tag codec is an exact bijection", "statement": "amacs::Tag::from_bytes(b) is Ok(t) exactly when b is the 64-byte serialisation of t; every other input is Err(PointDecompressionError); no input panics.", "quantifier": "for every byte string and every tag", "why_tests_cant": "needs every byte string, not samples", "anchors": ["aeonflux/src/amacs.rs Tag::from_bytes, Tag::to_bytes"]}
{"id": "C03", "title": "Issuer parameters codec is an exact bijection", "statement": "IssuerParameters::from_bytes(b) is Ok(k) exactly when b is the concatenation of the encodings of the points of k (any count, including zero); a length that is not a multiple of 32 gives MessageLengthError carrying the length, otherwise a bad chunk gives PointDecompressionError; no input panics.", "quantifier": "for every byte string and every list of points of any length", "why_tests_cant": "unbounded number of attributes and all byte strings", "anchors": ["aeonflux/src/amacs.rs PublicKey::from_bytes, to_bytes"]}
{"id": "C04", "title": "Issuer secret key codec", "statement": "amacs::SecretKey::from_bytes(b) is Ok(k) exactly when b is a non-empty concatenation of 32-byte canonical scalars which k serialises back to; bad length gives MessageLengthError, a non-canonical chunk gives ScalarFormatError, and decoding never panics.", "quantifier": "for every byte string and every key of any length", "why_tests_cant": "the failing input is a single length (0) out of all lengths; canonicity is over all 2^256 chunks", "anchors": ["aeonflux/src/amacs.rs SecretKey::from_bytes, to_bytes"]}
{"id": "C05", "title": "Issuer keypair codec", "statement": "amacs::Keypair::from_bytes(to_bytes(k)) == Ok(k) for every keypair with one more secret scalar than public points and canonical scalars; Ok is only ever returned for inputs that re-serialise to themselves; no input panics.", "quantifier": "for every byte string of every length, in builds with and without overflow checks", "why_tests_cant": "arithmetic underflow depends on the length and the build profile; all lengths must be covered", "anchors": ["aeonflux/src/amacs.rs Keypair::from_bytes, to_bytes"]}
{"id": "C06", "title": "Issuer codec is total and round-trips", "statement": "Issuer::from_bytes never panics on any input; Ok(i) implies i.to_bytes() is the input and i has at least one attribute key on both the public and secret side; every issuer whose key has n>=1 public points, n+1 canonical secret scalars round-trips. SignalIssuer behaves identically.", "quantifier": "for every byte string and every issuer", "why_tests_cant": "all byte strings", "anchors": ["aeonflux/src/issuer.rs Issuer::from_bytes, to_bytes", "signal-credential/src/issuer.rs SignalIssuer::from_bytes, to_bytes"]}
{"id": "C07", "title": "Credential and credential request codecs", "statement": "Credential::from_bytes(b) is Ok(c) exactly when b is the 96-byte serialisation of a one-attribute credential c; CredentialRequest::from_bytes(b) is Ok(r) exactly when b is a concatenation of canonical scalars; every failure is the documented Err and nothing panics.", "quantifier": "for every byte string, credential and request", "why_tests_cant": "all byte strings", "anchors": ["aeonflux/src/credential.rs Credential::from_bytes, CredentialRequest::from_bytes"]}
{"id": "C08", "title": "Issuance codec", "statement": "CredentialIssuance round-trips through bytes (328 bytes for a one-attribute credential); decoding returns Ok exactly for inputs beginning with such a serialisation; short inputs are rejected with an error rather than a panic.", "quantifier": "for every byte string and every issuance", "why_tests_cant": "short-prefix inputs of every length and every trailing suffix", "anchors": ["aeonflux/src/credential.rs CredentialIssuance::from_bytes, to_bytes"]}
{"id": "C09", "title": "Presentation codec", "statement": "CredentialPresentation round-trips through bytes (256 bytes with one blinded attribute); decoding returns Ok exactly for 32-byte-aligned inputs beginning with such a serialisation; other inputs are rejected with the documented error rather than a panic.", "quantifier": "for every byte string and every presentation", "why_tests_cant": "every length and every suffix", "anchors": ["aeonflux/src/credential.rs CredentialPresentation::from_bytes, to_bytes"]}
{"id": "C10", "title": "Signal presentation codec is total and round-trips", "statement": "SignalCredentialPresentation and VerifiedSignalCredential round-trip through bytes (448 bytes); decoding never panics, and Ok is returned exactly for inputs beginning with such a serialisation.", "quantifier": "for every byte string and every presentation", "why_tests_cant": "every length and every suffix", "anchors": ["signal-credential/src/credential.rs SignalCredentialPresentation::from_bytes, VerifiedSignalCredential::from_bytes"]}
{"id": "C11", "title": "User state survives a save/load cycle", "statement": "User::from_bytes(u.to_bytes()) == Ok(u), and SignalUser likewise, for every user reachable through the API; a loaded user has a credential exactly when the saved user had one.", "quantifier": "for every user state and every byte string", "why_tests_cant": "sentinel (all-zero) encodings collide only for particular field values", "anchors": ["aeonflux/src/user.rs User::from_bytes, to_bytes", "signal-credential/src/user.rs SignalUser::from_bytes, to_bytes"]}
{"id": "C12", "title": "Commitment and roster entry codecs", "statement": "pedersen::Commitment, CommittedPhoneNumber and RosterEntryCommitment round-trip through bytes for every value, reject bad points with an error, and accept only inputs of the right length.", "quantifier": "for every byte string and every commitment/opening", "why_tests_cant": "every length and all 2^256 opening encodings", "anchors": ["aeonflux/src/pedersen.rs Commitment::from_bytes", "signal-credential/src/phone_number.rs CommittedPhoneNumber::from_bytes, RosterEntryCommitment::from_bytes"]}
{"id": "C13", "title": "ElGamal key codecs", "statement": "elgamal PublicKey, SecretKey and Keypair round-trip through bytes for every value; inputs of the right length are accepted exactly when canonical; wrong lengths are rejected.", "quantifier": "for every byte string and every key", "why_tests_cant": "all byte strings", "anchors": ["aeonflux/src/elgamal.rs PublicKey/SecretKey/Keypair::from_bytes, to_bytes"]}
{"id": "C14", "title": "Decoding attacker-supplied bytes never panics", "statement": "For every type with a from_bytes, no input makes it panic; equivalently every input yields Ok or Err.", "quantifier": "for every decoder and every byte string", "why_tests_cant": "a panic may be hidden at a single length with a particular valid prefix", "anchors": ["every from_bytes in aeonflux/src/ and signal-credential/src/"]}
{"id": "C15", "title": "Encodings are unambiguous (non-malleable)", "statement": "No two distinct byte strings decode to the same object, for every type with a from_bytes.", "quantifier": "for every pair of byte strings and every decoder", "why_tests_cant": "pairs of arbitrary byte strings", "anchors": ["every from_bytes in aeonflux/src/ and signal-credential/src/"]}
{"id": "C16", "title": "Phone number acceptance by length", "statement": "PhoneNumber::try_from_bytes and try_from_string return Ok for every number of at most 32 bytes, Err(LengthExceeded) for longer ones, and never panic.", "quantifier": "for every byte string / string", "why_tests_cant": "off-by-k array bounds for particular lengths", "anchors": ["signal-credential/src/phone_number.rs PhoneNumber::try_from_bytes, try_from_string"]}
{"id": "C17", "title": "Distinct phone numbers become distinct attributes", "statement": "PhoneNumber::try_from_bytes is injective on the inputs it accepts (including numbers differing only in leading zeroes), even after reduction modulo the group order.", "quantifier": "for every pair of accepted byte strings", "why_tests_cant": "collision-freedom over all pairs and a modular reduction", "anchors": ["signal-credential/src/phone_number.rs PhoneNumber::try_from_bytes"]}
{"id": "C18", "title": "Phone number attribute is a canonical non-zero scalar", "statement": "Every PhoneNumber produced by try_from_bytes/try_from_string is a reduced, non-zero scalar, so a user holding a phone number credential is never confused with a user without one when saved.", "quantifier": "for every accepted number", "why_tests_cant": "all inputs", "anchors": ["signal-credential/src/phone_number.rs", "aeonflux/src/user.rs User::from_bytes"]}
{"id": "C19", "title": "Phone number string round trip", "statement": "String::from(PhoneNumber::try_from_string(s)) == s for every string of digits that try_from_string accepts. For any phone number, also one decoded from 32 bytes, String::from gives the empty string for zero and otherwise the digits among the x bytes after the first two, x being the last non-zero byte.", "quantifier": "for every digit string", "why_tests_cant": "fails only at the two extreme lengths", "anchors": ["signal-credential/src/phone_number.rs try_from_string, impl From<PhoneNumber> for String"]}
{"id": "C20", "title": "Phone number strings are encoded injectively and consistently", "statement": "try_from_string agrees with try_from_bytes on the digit values, and distinct accepted strings give distinct phone numbers.", "quantifier": "for every pair of strings", "why_tests_cant": "pairs of arbitrary strings", "anchors": ["signal-credential/src/phone_number.rs try_from_string"]}
{"id": "C21", "title": "An honestly created MAC verifies", "statement": "For every secret key and message of matching length, SecretKey::mac returns a tag that SecretKey::verify accepts, for every RNG.", "quantifier": "for every key, message length, message and RNG output", "why_tests_cant": "fails only for one nonce value out of 2^252", "anchors": ["aeonflux/src/amacs.rs SecretKey::mac, SecretKey::verify"]}
{"id": "C22", "title": "A MAC verifies only for its own message", "statement": "SecretKey::verify(tag, m) is Ok exactly when tag.mac is the correct multiple of tag.nonce; in particular a tag with non-identity nonce for [m] is accepted for [m'] only if m = m' (non-zero key).", "quantifier": "for every key, tag and message", "why_tests_cant": "all group elements", "anchors": ["aeonflux/src/amacs.rs SecretKey::verify"]}
{"id": "C23", "title": "Degenerate tags and wrong-length messages are rejected", "statement": "SecretKey::verify rejects the identity tag (which needs no key to produce) and rejects messages whose length differs from the key; SecretKey::mac rejects messages of the wrong length.", "quantifier": "for every key, tag and message", "why_tests_cant": "special group elements and all length pairs", "anchors": ["aeonflux/src/amacs.rs SecretKey::verify, mac"]}
{"id": "C24", "title": "Rerandomisation preserves validity and only validity", "statement": "Multiplying a tag by a non-zero rerandomisation keeps it valid for exactly the same messages; successive rerandomisations compose multiplicatively; any non-identity-nonce tag valid for a message can be reached from any other by exactly one non-zero rerandomisation.", "quantifier": "for every tag, key, message and scalar", "why_tests_cant": "all scalars and points", "anchors": ["aeonflux/src/amacs.rs Rerandomization"]}
{"id": "C25", "title": "Issued tags never share a nonce across different numbers", "statement": "Two issuances for different phone numbers never expose enough to compute a valid tag on a third number.", "quantifier": "for every pair of issuances by the same issuer", "why_tests_cant": "depends on RNG state reuse across calls", "anchors": ["aeonflux/src/issuer.rs Issuer::issue", "ffi/src/c.rs issuer_issue"]}
{"id": "C26", "title": "Pedersen commitments open exactly to what was committed, and binding reduces to discrete log", "statement": "open(value, nonce, base) succeeds exactly when the commitment equals value + nonce*base; two different openings of one commitment reveal a linear relation between the bases.", "quantifier": "for every commitment, value, nonce and base", "why_tests_cant": "all group elements and scalars", "anchors": ["aeonflux/src/pedersen.rs Commitment::to, open"]}
{"id": "C27", "title": "Pedersen commitments are perfectly hiding", "statement": "For a non-identity base, the commitment to any value under a uniform nonce has the same distribution as for any other value.", "quantifier": "for every pair of values", "why_tests_cant": "a statement about a distribution over 2^252 nonces", "anchors": ["aeonflux/src/pedersen.rs Commitment::to"]}
{"id": "C28", "title": "ElGamal correctness and homomorphism", "statement": "decrypt(encrypt(m, r)) == m for every generated keypair, message and nonce; adding ciphertexts adds plaintexts.", "quantifier": "for every keypair, message and nonce", "why_tests_cant": "all scalars and points", "anchors": ["aeonflux/src/elgamal.rs", "signal-credential/src/phone_number.rs PhoneNumber::encrypt"]}
{"id": "C29", "title": "Zero-knowledge proofs are complete", "statement": "For each of the five proof systems, a proof created from secrets satisfying the statement verifies against the same public values, for every hash function, RNG and starting transcript.", "quantifier": "for every witness, public values, random tape and challenge function", "why_tests_cant": "all witnesses and hash outputs", "anchors": ["aeonflux/src/proofs.rs issuance_revealed, attributes_blinded, issuance_blinded, valid_credential, committed_values_equal"]}
{"id": "C30", "title": "Zero-knowledge proofs are special-sound", "statement": "For each of the five proof systems, two accepting proofs on the same public values and same hash query but different challenges yield secrets satisfying the advertised statement.", "quantifier": "for every pair of accepting proofs", "why_tests_cant": "needs reasoning about adversarially chosen proofs", "anchors": ["aeonflux/src/proofs.rs", "aeonflux/src/proofs_macros.rs"]}
{"id": "C31", "title": "Zero-knowledge proofs are perfectly simulatable", "statement": "For each proof system and every challenge, the (commitment, response) pairs of honest executions are distributed exactly as those of a simulator that does not know the secrets.", "quantifier": "for every witness and challenge", "why_tests_cant": "distributional statement over all random tapes", "anchors": ["aeonflux/src/proofs.rs"]}
{"id": "C32", "title": "Challenges bind the whole statement and the protocol", "statement": "The hash query made when verifying a proof determines the domain separator, every public value and every commitment; no query of one proof system or protocol coincides with that of another.", "quantifier": "for every pair of statements and proofs", "why_tests_cant": "all pairs", "anchors": ["aeonflux/src/proofs.rs", "aeonflux/src/issuer.rs", "aeonflux/src/user.rs", "signal-credential/src/issuer.rs", "signal-credential/src/user.rs"]}
{"id": "C33", "title": "Honest issuance is always accepted", "statement": "If an issuer created by the API issues a one-attribute credential, a user with that issuer's parameters always accepts it with obtain_finish and then stores exactly the issued credential.", "quantifier": "for every issuer, attribute, RNG, hash function", "why_tests_cant": "all keys and random tapes", "anchors": ["aeonflux/src/issuer.rs Issuer::issue", "aeonflux/src/user.rs User::obtain_finish"]}
{"id": "C34", "title": "obtain_finish is all-or-nothing", "statement": "obtain_finish either returns Ok and stores the issuance's credential, or returns Err and leaves the user unchanged; it never modifies parameters or keys and never panics.", "quantifier": "for every user state and every issuance (including none)", "why_tests_cant": "all issuances, honest or not", "anchors": ["aeonflux/src/user.rs User::obtain_finish", "signal-credential/src/user.rs SignalUser::obtain_finish"]}
{"id": "C35", "title": "An accepted issuance is a valid MAC on the user's attribute", "statement": "If obtain_finish accepts, then the stored credential's attributes are the ones requested and its MAC is valid for them under the issuer's published key.", "quantifier": "for every issuance, honest or malicious", "why_tests_cant": "adversarial issuer or network", "anchors": ["aeonflux/src/user.rs User::obtain_finish", "aeonflux/src/proofs.rs issuance_revealed"]}
{"id": "C36", "title": "All users of an issuer get credentials under the same key", "statement": "The published issuer parameters determine the key under which an accepted credential is valid, so an issuer cannot tag users with per-user keys.", "quantifier": "for every pair of accepted issuances", "why_tests_cant": "adversarial issuer choosing keys", "anchors": ["aeonflux/src/amacs.rs SecretKey::get_public_key", "aeonflux/src/user.rs User::obtain_finish"]}
{"id": "C37", "title": "show requires a credential and does not change the user", "statement": "show returns Err(MissingData) exactly when no credential is held (and otherwise Ok, for users produced by the API), leaves the user unchanged, and never reveals the attribute as a revealed attribute.", "quantifier": "for every user state and RNG", "why_tests_cant": "all states", "anchors": ["aeonflux/src/user.rs User::show", "signal-credential/src/user.rs SignalUser::show"]}
{"id": "C38", "title": "Honest presentations always verify", "statement": "A presentation made with a credential accepted from an honest issuer is accepted by that issuer's verify, and the returned verified credential contains that presentation.", "quantifier": "for every issuer, attribute, nonces, RNGs, hash function", "why_tests_cant": "all keys and random tapes", "anchors": ["aeonflux/src/user.rs User::show", "aeonflux/src/issuer.rs Issuer::verify"]}
{"id": "C39", "title": "The roster membership protocol is complete", "statement": "For every phone number accepted by the API: issue, obtain_finish, roster entry creation, show, verify, verify_roster_membership all succeed, and the last returns exactly the user's roster entry commitment.", "quantifier": "for every phone number, system parameters, issuer key, RNGs, hash function", "why_tests_cant": "all keys, numbers and random tapes", "anchors": ["signal-credential/src/issuer.rs", "signal-credential/src/user.rs", "signal-credential/src/phone_number.rs"]}
{"id": "C40", "title": "The protocol is complete over the wire", "statement": "C39 still holds when every object (parameters, issuer, issuance, user, roster entry, presentation, verified credential) is serialised and deserialised between steps.", "quantifier": "for every phone number, keys, RNGs, hash function", "why_tests_cant": "composition of protocol and codecs over all values", "anchors": ["signal-credential/src/issuer.rs", "signal-credential/src/user.rs", "signal-credential/src/credential.rs", "ffi/src/c.rs"]}
{"id": "C41", "title": "Accepted presentations prove possession of a valid MAC", "statement": "If verify accepts a presentation then (by extraction) the prover knew an attribute and a MAC on it valid under the issuer's key; nobody without a credential can produce an accepted presentation.", "quantifier": "for every presentation and every prover", "why_tests_cant": "adversarially chosen presentations", "anchors": ["aeonflux/src/issuer.rs Issuer::verify", "aeonflux/src/proofs.rs valid_credential"]}
{"id": "C42", "title": "Roster membership binds the credential's number to the roster entry", "statement": "If verify and verify_roster_membership both accept, the number in the credential is the number in the roster entry, or the prover knew a discrete logarithm relation between the nonce and the parameters.", "quantifier": "for every presentation and every prover", "why_tests_cant": "adversarially chosen presentations", "anchors": ["signal-credential/src/issuer.rs SignalIssuer::verify_roster_membership", "aeonflux/src/proofs.rs committed_values_equal"]}
{"id": "C43", "title": "Presentations are unlinkable", "statement": "For any two credentials validly issued under the same key, with tag nonces other than the identity, and parameters with h not the identity, the presentations they generate (including the roster proof, for any roster entry they can open) are identically distributed, so the issuer cannot tell which credential was shown.", "quantifier": "for every pair of credentials and every possible presentation", "why_tests_cant": "a distributional statement", "anchors": ["aeonflux/src/user.rs User::show", "signal-credential/src/user.rs SignalUser::show"]}
{"id": "C44", "title": "Roster entries open only to their own number and reveal nothing else", "statement": "A created roster entry opens for the number it was created with and for no other accepted number; the commitment alone is independent of the number.", "quantifier": "for every pair of numbers, parameters and RNG", "why_tests_cant": "all pairs", "anchors": ["signal-credential/src/phone_number.rs RosterEntryCommitment::create, open"]}
{"id": "C45", "title": "A VerifiedSignalCredential always went through verify", "statement": "Any VerifiedSignalCredential accepted by verify_roster_membership was returned by a successful SignalIssuer::verify.", "quantifier": "for every way of obtaining the type through the public API", "why_tests_cant": "all histories of API calls", "anchors": ["signal-credential/src/credential.rs VerifiedSignalCredential", "aeonflux/src/credential.rs VerifiedCredential", "ffi/src/c.rs issuer_verify_roster_membership"]}
{"id": "C46", "title": "issue never panics and reports the documented errors", "statement": "Issuer::issue returns Ok exactly when both key halves are non-empty and the request has as many attributes as the key; otherwise NoIssuerParameters, NoIssuerKey or MacCreation, in that order of precedence; it never panics. SignalIssuer::issue adds MissingData for over-long numbers.", "quantifier": "for every issuer, request, RNG", "why_tests_cant": "all key/request shapes", "anchors": ["aeonflux/src/issuer.rs Issuer::issue", "signal-credential/src/issuer.rs SignalIssuer::issue"]}
{"id": "C47", "title": "verify never panics on decoded data and is a pure check", "statement": "For any issuer and presentation obtained by decoding bytes, verify and verify_roster_membership return Ok with exactly the presented object, or Err(MacVerification)/Err(VerificationFailure); they never panic.", "quantifier": "for every decoded issuer and presentation", "why_tests_cant": "all decoded values", "anchors": ["aeonflux/src/issuer.rs Issuer::verify", "signal-credential/src/issuer.rs"]}
{"id": "C48", "title": "System parameter generation", "statement": "hunt_and_peck returns g equal to the standard basepoint and h a valid generator different from g, derived only from the first acceptable RNG block; it terminates exactly when the RNG eventually yields an acceptable block.", "quantifier": "for every RNG stream", "why_tests_cant": "an unbounded loop over an arbitrary stream", "anchors": ["aeonflux/src/parameters.rs SystemParameters::hunt_and_peck, From<RistrettoPoint>, From<[u8;32]>"]}
{"id": "C49", "title": "Seeded calls are deterministic up to proof randomness", "statement": "For a fixed seed, the credential issued and the blinded values presented are functions of the inputs only; the operating-system RNG influences only the zero-knowledge proofs, whose verification result it never changes.", "quantifier": "for every input, seed and OS entropy", "why_tests_cant": "all entropy values", "anchors": ["ffi/src/c.rs", "aeonflux/src/issuer.rs", "aeonflux/src/user.rs"]}
{"id": "C50", "title": "Random scalars are as uniform as possible", "statement": "Reducing 64 uniform bytes modulo the group order hits every scalar, with frequencies differing by at most one part.", "quantifier": "for every scalar, over all 2^512 inputs", "why_tests_cant": "counting argument over 2^512 inputs", "anchors": ["aeonflux/src/nonces.rs Ephemeral::new", "aeonflux/src/amacs.rs SecretKey::new"]}
{"id": "C51", "title": "FFI: null or empty inputs fail cleanly", "statement": "Every C function given a null pointer or a zero length for any argument it reads returns a zero-length buffer without reading memory or panicking.", "quantifier": "for every function and every argument position", "why_tests_cant": "combinatorial argument positions with arbitrary other arguments", "anchors": ["ffi/src/c.rs", "ffi/src/macros.rs"]}
{"id": "C52", "title": "FFI: successful results have the documented lengths", "statement": "Whenever a C function succeeds on inputs of the documented sizes, the returned length is the LENGTH_* constant documented in credential.h.", "quantifier": "for every successful call", "why_tests_cant": "all inputs", "anchors": ["ffi/src/c.rs", "ffi/src/include/credential.h"]}
{"id": "C53", "title": "FFI: returned buffers are readable by the caller", "statement": "After a C function returns a buffer with non-zero length and pointer, the caller can read that many bytes from it.", "quantifier": "for every successful call and heap state", "why_tests_cant": "memory lifetime is not observable by functional tests", "anchors": ["ffi/src/c.rs", "ffi/src/macros.rs slice_to_len_and_ptr"]}
{"id": "C54", "title": "FFI: failures return NULL", "statement": "On failure the returned buffer has length 0 and a NULL pointer, as credential.h documents.", "quantifier": "for every failing call", "why_tests_cant": "all failing inputs", "anchors": ["ffi/src/macros.rs zero_len_and_ptr", "ffi/src/include/credential.h"]}
{"id": "C55", "title": "FFI: the C call chain completes the protocol", "statement": "Chaining system_parameters_create, issuer_create, issuer_new, issuer_get_issuer_parameters, issuer_issue, user_obtain_finish, roster_entry_commitment_create, user_show, issuer_verify, issuer_verify_roster_membership on byte buffers succeeds at every step for every seed and every phone number of 1 to 27 bytes.", "quantifier": "for every seed and phone number", "why_tests_cant": "all seeds and numbers", "anchors": ["ffi/src/c.rs"]}
{"id": "C56", "title": "FFI: no panic crosses the C boundary", "statement": "No call with valid pointers panics.", "quantifier": "for every function and every input buffer", "why_tests_cant": "single bad lengths", "anchors": ["ffi/src/c.rs"]}
{"id": "C57", "title": "WASM: values returned to JavaScript can be passed back", "statement": "Every JsValue produced by one WASM function is accepted where another WASM function expects that type.", "quantifier": "for every value", "why_tests_cant": "interaction of two serialisation formats", "anchors": ["wasm/src/js.rs", "aeonflux/src/macros.rs"]}
{"id": "C58", "title": "Swift: wrappers report failure as nil", "statement": "The Swift initialisers return nil on wrongly sized data, and SignalIssuer.verify returns nil when the presentation is rejected.", "quantifier": "for every byte array and presentation", "why_tests_cant": "all lengths", "anchors": ["swift/Credential/Credential.swift"]}
{"id": "C59", "title": "Secrets are erased when dropped", "statement": "After a SecretKey, elgamal SecretKey, Ephemeral, Rerandomization or Nonces is dropped every secret scalar it held reads as zero.", "quantifier": "for every secret of any length", "why_tests_cant": "all values and lengths", "anchors": ["aeonflux/src/amacs.rs Drop", "aeonflux/src/elgamal.rs Drop", "aeonflux/src/nonces.rs Drop"]}
{"id": "C60", "title": "Error conversions are total and loss is as documented", "statement": "Every error of a lower layer is mapped to a fixed upper-layer error; over-long or invalid phone numbers surface as MissingData, tag/parameter decoding failures as NoIssuerParameters, keypair failures as NoIssuerKey.", "quantifier": "for every error value", "why_tests_cant": "finite but must be composed through every decoder", "anchors": ["aeonflux/src/errors.rs", "signal-credential/src/errors.rs"]}
{"id": "C61", "title": "Protocol invariants hold in every history", "statement": "In every interleaving of issuer creation, issuance, delivery of arbitrary (also malicious) issuances, and presentation by any number of users: a user holds a credential exactly when some delivered issuance was accepted, it is the credential of the last accepted one; and users who were only ever sent honestly issued credentials can present successfully at any time.", "quantifier": "for every number of users and every finite history", "why_tests_cant": "all schedules", "anchors": ["aeonflux/src/user.rs", "aeonflux/src/issuer.rs"]}
{"id": "C62", "title": "Algebraic unforgeability of the MAC", "statement": "An adversary who only combines group elements it has been given (generators, issuer parameters, issued tags) linearly cannot produce a tag with non-identity nonce on a new message that is valid for all keys; any such tag is on a message that was issued.", "quantifier": "for every number of issued tags and every linear combination", "why_tests_cant": "adversary strategies are unbounded", "anchors": ["aeonflux/src/amacs.rs SecretKey::mac, verify"]}
{"id": "C63", "title": "The expanded proof code implements the declared statements", "statement": "Each hand-expanded proof module creates and verifies exactly the linear statements declared in the create_nipk! specifications, in the declared order of secrets and publics.", "quantifier": "for every witness, publics, proof, transcript", "why_tests_cant": "all inputs", "anchors": ["aeonflux/src/proofs.rs", "aeonflux/src/proofs_macros.rs"]}
{"id": "C64", "title": "Proofs are witness indistinguishable", "statement": "For each of the five proof systems and any two witnesses valid for the same publics, the proofs made with them are identically distributed over the prover's blinding values, whatever the transcript and whatever (fixed) hash function is used.", "quantifier": "for every transcript, publics, pair of valid witnesses and hash function", "why_tests_cant": "a statement about probability distributions over all blindings", "anchors": ["aeonflux/src/proofs.rs", "aeonflux/src/proofs_macros.rs"]}
{"id": "C65", "title": "FFI: lengths are not changed on the way in", "statement": "Every C function works on exactly as many bytes of an argument as the 64-bit length that the caller passed.", "quantifier": "for every platform word size, pointer and length", "why_tests_cant": "needs buffers larger than 4 GiB and a 32-bit target", "anchors": ["ffi/src/macros.rs len_and_ptr_to_slice"]}
{"id": "C66", "title": "Proof blindings come from a keyed generator and differ between proofs", "statement": "Every blinding value of a proof is the next 64-byte read of a generator keyed with the whole transcript up to that point, with every witness, and with fresh entropy; two blindings come from the same read only for the same transcript, witnesses, entropy and position. Consequently, if two proofs share blindings but have different challenges the witnesses follow, and equal inputs give equal proofs.", "quantifier": "for every proof system, transcript, publics, witnesses and entropy", "why_tests_cant": "nonce reuse shows up only over pairs of runs", "anchors": ["aeonflux/src/proofs.rs", "aeonflux/src/proofs_macros.rs"]}
{"id": "C67", "title": "Exact use of the caller's random generator", "statement": "Every operation that takes a generator makes a fixed sequence of reads (issuer creation 64+64 bytes, issuance 32, presentation 32, phone-number presentation 64+32, roster entry 64, nonces 64 each, ElGamal key 64), turns each read into the stated value by reduction modulo the group order, leaves the generator exactly after them, and makes no read on the stated failure paths.", "quantifier": "for every generator, input and failure path", "why_tests_cant": "generator state after each path is not observable in examples with a system generator", "anchors": ["aeonflux/src/amacs.rs SecretKey::new, mac", "aeonflux/src/nonces.rs", "aeonflux/src/elgamal.rs", "aeonflux/src/issuer.rs", "aeonflux/src/user.rs", "signal-credential/src/user.rs", "signal-credential/src/phone_number.rs"]}
{"id": "C68", "title": "A proved blind issuance decrypts to the MAC of the requested attribute", "statement": "If the issuance_blinded proof verifies for a request that encrypts m to the user, the user's decryption (after removing x0*P) is x1*m*P, the MAC contribution of m under the published key.", "quantifier": "for every request, key and issuer", "why_tests_cant": "needs a malicious issuer and a discrete-logarithm relation", "anchors": ["aeonflux/src/proofs_macros.rs:82-102", "aeonflux/src/proofs.rs:347-593"]}
{"id": "C69", "title": "Serde encodings are framed byte encodings", "statement": "For every type with the serde macro, deserialisation accepts exactly a length-prefixed byte string that from_bytes accepts, returns the unread rest, inverts serialisation, and never panics.", "quantifier": "for every type, value and byte string", "why_tests_cant": "all byte strings and lengths", "anchors": ["aeonflux/src/macros.rs:13-48"]}
{"id": "C70", "title": "No presentation or roster proof for an attribute that was not issued", "statement": "An adversary that has had attributes issued to it and has seen presentations and roster entries of other users cannot have a presentation accepted unless its committed attribute is one issued to the adversary, nor a presentation with a roster proof unless both are for the same attribute issued to the adversary; repeating a presentation of another user unchanged is excepted.", "quantifier": "for every strategy, number of issuances, observed presentations and roster entries, hash queries and verifications", "why_tests_cant": "adversary strategies are unbounded, and the claim is about probability", "anchors": ["aeonflux/src/issuer.rs verify", "signal-credential/src/issuer.rs verify, verify_roster_membership", "aeonflux/src/proofs.rs valid_credential, committed_values_equal"]}
{"id": "C71", "title": "Keeping users and issuers as bytes between calls changes nothing", "statement": "A history of Signal calls (create, issue, obtain, present, verify, check roster), with arbitrary bytes arriving from outside, gives its callers the same results whether issuers and users are kept in memory or saved with to_bytes after each call and loaded with from_bytes before the next.", "quantifier": "for every history, number of issuers and users, input bytes, RNG state, entropy and hash", "why_tests_cant": "histories are unbounded in length and the delivered bytes are arbitrary", "anchors": ["signal-credential/src/user.rs from_bytes, to_bytes, obtain_finish, show", "signal-credential/src/issuer.rs from_bytes, to_bytes, issue, verify, verify_roster_membership"]}
{"id": "C72", "title": "Group elements in byte strings are unique, canonical and of prime order", "statement": "In the actual group (Ristretto255, constructed from the curve over the field of 2^255-19 elements), a byte string is accepted as a group element exactly if it is the canonical encoding defined by RFC 9496; each element has exactly one encoding, exactly l strings are accepted, every accepted element other than the identity has prime order l, only the zero string is the identity, and compression does not depend on the representative of the coset. Tags, parameters and public keys are accepted exactly if their parts are such encodings.", "quantifier": "for every byte string and every curve point", "why_tests_cant": "2^256 strings; small-order and non-canonical inputs are never produced by honest code", "anchors": ["aeonflux/src/amacs.rs:137-138", "aeonflux/src/amacs.rs:177", "aeonflux/src/credential.rs:279", "aeonflux/src/parameters.rs:63-71", "aeonflux/src/pedersen.rs:72", "aeonflux/src/elgamal.rs:105"]}
{"id": "C73", "title": "Parameter generation is fast and uniform", "statement": "With uniform random bytes, hunt_and_peck needs more than n draws with probability exactly (1-(l-1)/2^256)^n, at most (15/16)^n, and returns every group element other than the base point as h with the same probability, the base point never.", "quantifier": "for every number of draws and every group element", "why_tests_cant": "a claim about a distribution and about unlikely long runs", "anchors": ["aeonflux/src/parameters.rs:102-124"]}
{"id": "C74", "title": "Error texts tell the truth", "statement": "Different errors of one type have different texts; the length named by MessageLengthError is one the rejecting function would accept (its documentation: \"pass the length in bytes which its constructor expects\"); LengthExceeded is only returned for inputs over 32 bytes; InvalidPhoneNumber, whose text is about a roster proof, is only returned for such proofs.", "quantifier": "for every input of every function that returns these errors", "why_tests_cant": "tests check the variant of an error at most, never that its text holds for all inputs", "anchors": ["aeonflux/src/errors.rs:24-52", "aeonflux/src/errors.rs:79-110", "signal-credential/src/errors.rs:24-40", "aeonflux/src/amacs.rs:152-190", "signal-credential/src/phone_number.rs:68-84"]}
{"id": "C75", "title": "Messages, lengths and indices", "statement": "len of a key counts the 32-byte blocks of its serialisation; indexing a message or phone number gives the element and panics exactly out of range; a tag on the message made from a string (phone number) is accepted for another one exactly if the SHA-512 digests (numbers) agree modulo the group order; a string message is rejected by a key for other than one attribute; a negated nonce cancels the nonce; every multiplication operator of nonces and commitments multiplies, on either side; subtracting the blinding from a commitment gives the value; indexing nonces is as for messages; the wrappers (message from and to a vector, scalars in and out of ephemeral nonces, rerandomisation of a tag from either side, keys to scalars and points) keep the value they wrap.", "quantifier": "for every key, message, index, string, hash function, and generator not giving a degenerate nonce", "why_tests_cant": "quantifies over all strings and hash functions", "anchors": ["aeonflux/src/amacs.rs:77-115", "aeonflux/src/amacs.rs:197-199", "aeonflux/src/amacs.rs:284-286", "aeonflux/src/amacs.rs:378-380", "signal-credential/src/phone_number.rs:59-66", "signal-credential/src/phone_number.rs:243-247", "signal-credential/src/phone_number.rs:265-273", "aeonflux/src/nonces.rs:69-174", "aeonflux/src/pedersen.rs:38-64"]}
{"id": "C76", "title": "Revealed attributes of an accepted presentation are those of the credential", "statement": "Issuer::verify panics exactly on presentations with more revealed or blinded attributes than key elements, without a blinded attribute, or on an issuer without public key element, and otherwise decides by the proof for V = x0 P + sum x_k a_k P + sum x_k C_k - C_Q; and an attribute revealed in an accepted presentation is an attribute of the credential presented.", "quantifier": "for every issuer and presentation, including those no decoder produces", "why_tests_cant": "presentations are built by an adversary; the honest code never reveals an attribute", "anchors": ["aeonflux/src/issuer.rs:197-228", "aeonflux/src/credential.rs:251-270"]}
{"id": "C77", "title": "The C, JavaScript and Swift functions do what the library does", "statement": "A function of the C, JavaScript or Swift interface returns a result exactly if its arguments decode and the library operation of that name succeeds on the decoded values, and the result is the serialised value that the library returned: nothing is reported as verified, issued or opened that the library rejected. (Swift: unless the object is empty or holds only zero bytes.)", "quantifier": "for every call, memory, platform, byte string and JavaScript value", "why_tests_cant": "the interfaces have no tests of rejected inputs; quantifies over all argument bytes and memory layouts", "anchors": ["ffi/src/c.rs", "ffi/src/macros.rs", "wasm/src/js.rs", "swift/Credential/Credential.swift"]}
{"id": "C78", "title": "Accepted proofs are proofs of knowledge", "statement": "In the random oracle model, whoever makes proofs that are accepted with probability e, after q hash queries, knows the secrets: running the prover a second time with fresh answers from the deciding query on, and applying the extraction formula to the two proofs, yields secrets satisfying the declared statement with probability at least e^2/(q+1) - e/2^252. For presentations accepted by an issuer with a non-identity nonce this yields a tag on the attribute under the issuer key; for Signal presentations that pass both checks, rewinding twice yields a tag on m and an opening of the roster entry to the same m (or the discrete logarithm of the nonce to base h) with probability at least (e/2)(e/(4(q+2)) - 2^-252)^2.", "quantifier": "for every prover (any function of its coins and the answers so far), number of queries, group, label, issuer key and base hash", "why_tests_cant": "a statement about all adversaries and probabilities over hash answers", "anchors": ["aeonflux/src/proofs.rs", "aeonflux/src/issuer.rs Issuer::verify", "aeonflux/src/user.rs User::obtain_finish", "signal-credential/src/issuer.rs SignalIssuer::verify_roster_membership"]}
{"id": "C79", "title": "The JavaScript handle table never confuses two values", "statement": "In credential.js, storing a value gives a handle that stood for nothing and is not one of the four constants; a handle reads as the value it stands for; dropping it removes that meaning (after the last drop it reads as undefined); other handles never change, the free list holds each free entry exactly once, the table grows only when all entries are in use, and the constants cannot be dropped. (Nothing protects against dropping twice: then two values share a handle and the next one reads as undefined. And from 2^30 entries on handles are negative numbers in JavaScript: the next value cannot be read, and never be dropped.)", "quantifier": "for every healthy table with fewer than 2^30 entries (2^30 to 2^31 - 1 entries for the limit), every handle and value", "why_tests_cant": "the table is generated code without tests; the claim is an invariant over all histories of stores and drops", "anchors": ["wasm/src/credential.js:20-55", "wasm/src/credential.js:86-95"]}
{"id": "C80", "title": "The JavaScript wrappers pass arguments and results faithfully and clean up", "statement": "Each of the nine functions of credential.js calls the Rust function on the bytes and values it was given and returns what that returned, also when memory grows during the call; afterwards no block of memory and no handle is left over, and any program of returning calls keeps the table at 8 entries or fewer. If the Rust function panics, the wrapper throws and frees its blocks but the handles of the arguments are lost for ever; an allocation failure for the second byte array of issuer_issue loses the first.", "quantifier": "for every request, allocator, healthy table, memory and behaviour of the Rust functions", "why_tests_cant": "quantifies over all allocator behaviours and call histories; leaks are invisible in single calls", "anchors": ["wasm/src/credential.js:6-18", "wasm/src/credential.js:74-333", "wasm/src/credential.js:335-375"]}
{"id": "C81", "title": "The proofs are zero knowledge", "statement": "In the random oracle model with programmable hash answers, nobody learns anything from a proof but the truth of the statement: an observer that asks the hash at most q times and gets at most n proofs, of any of the five kinds, of true statements of its choice, says yes with probabilities that differ by at most n(q+n)/l if every proof is replaced by a simulated one, made from the public values alone. Simulated proofs are accepted by the verifier except with probability (|queries so far|+1)/l.", "quantifier": "for every adaptive observer, numbers of queries and proofs, statements, labels and secrets; the statement must have a non-identity point among those multiplied by randomness", "why_tests_cant": "a statement about all observers and about probabilities over coins and hash answers", "anchors": ["aeonflux/src/proofs.rs create", "aeonflux/src/proofs_macros.rs"]}
{"id": "C82", "title": "The issuer learns nothing from a Signal presentation but the roster commitment", "statement": "In the random oracle model, an observer that knows the issuer's secret keys, chooses who presents, with which valid credentials and roster entries, asks the hash at most q times and sees at most n presentations made by SignalUser::show with uniform randomness, says yes with probabilities that differ by at most 2n(q+2n)/l if every presentation is replaced by one made from the issuer's keys and the roster commitment alone. The replacements pass both checks of the issuer except with probability 2(|queries so far|+2)/l, so a presentation also proves nothing to third parties.", "quantifier": "for every adaptive observer, key, system parameters with h not the identity, credentials with non-identity nonce, roster entries, numbers of queries and presentations", "why_tests_cant": "a statement about all observers and about probabilities over coins and hash answers", "anchors": ["signal-credential/src/user.rs SignalUser::show", "aeonflux/src/user.rs User::show", "signal-credential/src/issuer.rs"]}
{"id": "C83", "title": "A user learns nothing from issuances but MACs", "statement": "In the random oracle model, an observer that has at most n attributes of its choice issued by Issuer::issue with uniform randomness and asks the hash at most q times says yes with probabilities that differ by at most n(q+n)/l if every issuance is replaced by one made from the public parameters and a MAC on the attribute alone; in particular the key commitment and the proof show nothing about the secret key.", "quantifier": "for every adaptive observer, key, system parameters with h not the identity, attributes, numbers of queries and issuances", "why_tests_cant": "a statement about all observers and about probabilities over coins and hash answers", "anchors": ["aeonflux/src/issuer.rs Issuer::issue", "aeonflux/src/proofs.rs issuance_revealed"]}
{"id": "C84", "title": "Presentations and roster proofs cannot be forged by anyone who sees the messages of the protocol", "statement": "In the random oracle model, an algebraic adversary that makes at most n steps, each of which may be: have an attribute issued (and get tag, key commitment and proof), see a roster entry or a whole presentation of another user (with both proofs), ask the hash on any transcript (whose items may be combinations of the elements it received), or have SignalIssuer::verify or verify_roster_membership check something, wins with probability at most (8n^2+5n+1)/l. It wins by a presentation with non-identity nonce that verify accepts, unless it is one it has seen, with the same proof, or commits to an attribute issued to the adversary with an opening it knows; or by one that also passes verify_roster_membership, unless all of it (roster entry and both proofs included) is one it has seen, or both it and the roster entry are for one attribute issued to the adversary.", "quantifier": "for every adaptive adversary, number of steps, issuances, roster entries and observed presentations", "why_tests_cant": "adversary strategies are unbounded, and the claim is about probability", "anchors": ["signal-credential/src/issuer.rs SignalIssuer::verify, verify_roster_membership", "aeonflux/src/issuer.rs Issuer::issue, verify", "aeonflux/src/user.rs show", "aeonflux/src/proofs.rs"]}
{"id": "C85", "title": "A presentation is accepted under one issuer key only", "statement": "If two issuers, with any system parameters (h not the identity) and any key pairs, both accept the same presentation, whoever made it, then their system parameters and secret keys are the same, unless the two particular hash queries that they make for it are different but have the same challenge. The presentation's nonce must not be the identity; with the identity, the decision does not depend on x0.", "quantifier": "for every presentation, hash function, and pair of issuers", "why_tests_cant": "quantifies over all presentations, also maliciously made ones, and all pairs of keys", "anchors": ["aeonflux/src/issuer.rs Issuer::verify", "aeonflux/src/proofs.rs valid_credential"]}
{"id": "C86", "title": "A malicious issuer cannot link presentations to issuances", "statement": "Users accept only credentials whose presentations cannot be told from those of other users, also if the issuer deviates from the protocol. False: an issuer that uses a different x0 for each user has all its issuances accepted, and recognises every presentation, with one hash query and error probability at most 3/l. What holds: for each credential with non-identity nonce there is exactly one pair of keys that fits it, and presentations show nothing but this pair and the roster commitment, to an observer with at most q hash queries and n presentations, except with advantage 4n(q+2n)/l.", "quantifier": "for every pair of keys, attribute, user and roster entry; for every observer and population of users", "why_tests_cant": "the attack needs an issuer that deviates from the code, and the positive part quantifies over all observers", "anchors": ["aeonflux/src/issuer.rs Issuer::issue", "aeonflux/src/user.rs User::obtain_finish, show", "aeonflux/src/proofs.rs issuance_revealed", "signal-credential/src/user.rs SignalUser::show"]}
{"id": "C87", "title": "Reducing 64 bytes modulo l instead of drawing uniform scalars costs at most 2^-259 per scalar", "statement": "If every scalar that the code draws comes from 64 uniform bytes reduced modulo l, then the probability of any event is within k/2^259 of that for k uniform scalars, and the guarantees for uniform scalars hold with small additions: proofs are zero knowledge up to n(q+n)/l + 6n/2^259, presentations can be simulated up to 2n(q+2n)/l + 9n/2^259 and issuances up to n(q+n)/l + 6n/2^259, presentations of different people under the same keys are indistinguishable up to 4n(q+2n)/l + 18n/2^259, and forgeries (C84, with at most N issuances, users and presentations) succeed with probability at most (8n^2+5n+1)/l + (6N+3+6n)/2^259.", "quantifier": "for every observer and adversary, number of queries, key, attribute and roster entry", "why_tests_cant": "the bias is about 2^-259, and the claim is about all observers", "anchors": ["curve25519-dalek Scalar::random, from_bytes_mod_order_wide (as used in the repo)", "aeonflux/src/amacs.rs", "aeonflux/src/user.rs show", "aeonflux/src/issuer.rs issue", "aeonflux/src/proofs.rs"]}
{"id": "C88", "title": "The privacy guarantees hold for the code with its own transcript generators", "statement": "SignalUser::show and Issuer::issue draw some scalars from transcript generators keyed with 32 random bytes and the secrets. If the hash and the transcript generators are random functions that everybody can evaluate, and only the bytes drawn from the outside (64 and three times 32 for show, two times 32 for issue) are uniform, then presentations can be replaced by simulated ones (C82) up to 2n(q+2n)/l + 9n/2^259 + 3n(2t+8n+3)/2^256, issuances (C83) up to n(q+n)/l + 6n/2^259 + 2n(2t+6n+2)/2^256, and presentations of different people under the same keys, with the same roster commitments, cannot be told apart except with advantage 4n(q+2n)/l + 18n/2^259 + 6n(2t+8n+3)/2^256, by an observer that asks the hash at most q times, reads generators at most t times and makes at most n requests. No read of a generator is ever made twice with the same key.", "quantifier": "for every adaptive observer, key, system parameters with h not the identity, credentials, attributes, roster entries, numbers of queries, reads and requests", "why_tests_cant": "a statement about all observers and about probabilities over coins, hash answers and generator outputs", "anchors": ["signal-credential/src/user.rs SignalUser::show", "aeonflux/src/user.rs User::show", "aeonflux/src/issuer.rs Issuer::issue", "aeonflux/src/proofs.rs create"]}
{"id": "C89", "title": "Forgeries against the code with its own transcript generators are unlikely", "statement": "An adversary has attributes issued by Issuer::issue, sees roster entries and presentations (SignalUser::show) of other users with both proofs, asks the hash, reads transcript generators on inputs of its choice, which may contain elements it received, has presentations and roster proofs checked, and then outputs a presentation, or a presentation with a roster proof. Issuances and presentations are made as the code makes them: scalars come from the caller's RNG, or from transcript generators keyed with 32 random bytes and the secrets. Hash and generators are random functions. An adversary that makes at most n steps and t reads outputs an accepted presentation, with non-identity nonce and not an exact copy, whose number was not issued to it (or, with a roster proof, that does not fit the roster entry it opens), with probability at most (8(n+t)^2+5(n+t)+1)/l + (6N+3+9n)/2^259 + 3n(2t+8n+3)/2^256, where at most N issuances, users and presentations occur. The other users may have any credentials with non-identity nonces.", "quantifier": "for every adaptive algebraic adversary, every n, t, N, and all nonces of the other users' credentials", "why_tests_cant": "a statement about all adversaries and about probabilities over coins, hash answers and generator outputs", "anchors": ["signal-credential/src/user.rs SignalUser::show", "signal-credential/src/issuer.rs SignalIssuer::verify", "signal-credential/src/issuer.rs verify_roster_membership", "aeonflux/src/user.rs User::show", "aeonflux/src/issuer.rs Issuer::issue", "aeonflux/src/issuer.rs Issuer::verify", "aeonflux/src/proofs.rs create"]}
{"id": "C90", "title": "ElGamal encryption hides messages exactly if the decisional Diffie-Hellman problem is hard", "statement": "An adversary that gets the public key of Keypair::generate, chooses pairs of messages adaptively and gets encryptions of always the first or always the second, with nonces from Ephemeral::new, in at most n encryptions tells which with advantage at most that of two explicit algorithms at telling Diffie-Hellman triples from random triples, plus 2/l + (2n+2)/2^259; each of these runs the adversary once. The other way round, every algorithm that tells Diffie-Hellman triples from random ones with advantage d gives an adversary that tells encryptions apart with one encryption and advantage at least d - 4/2^259. A nonce used twice shows the difference of the two messages. Encryptions of phone numbers are those of the game.", "quantifier": "for every adversary with any number of encryptions, every algorithm for the Diffie-Hellman problem, all messages", "why_tests_cant": "a statement about all adversaries and about probabilities", "anchors": ["aeonflux/src/elgamal.rs:121-131", "aeonflux/src/elgamal.rs:170-175", "aeonflux/src/elgamal.rs:220-233", "aeonflux/src/nonces.rs Ephemeral::new", "signal-credential/src/phone_number.rs:249-260"]}
{"id": "C91", "title": "Whoever has no credential is not accepted, also after watching others", "statement": "An adversary that has no attribute issued, but may see roster entries and whole presentations of other users, ask the hash, and have presentations and roster proofs checked, cannot send a presentation with non-identity nonce that SignalIssuer::verify (or also verify_roster_membership) accepts, except with small probability. In particular a presentation is worth nothing to someone who has only seen it.", "quantifier": "for every adaptive adversary without issuances, and all randomness", "why_tests_cant": "a statement about all adversaries and about probabilities", "anchors": ["signal-credential/src/issuer.rs SignalIssuer::verify, verify_roster_membership", "signal-credential/src/user.rs SignalUser::show", "aeonflux/src/issuer.rs Issuer::verify"]}
{"id": "C92", "title": "Presentations stay unlinkable when the caller's seed repeats", "statement": "The proofs of a presentation draw randomness from the operating system as well as from the seed that the caller of user_show passes. So presentations show the issuer nothing beyond the roster commitments even if seeds repeat or are shared between users: no observer with the issuer's keys can tell who presented, or that two presentations are by the same user.", "quantifier": "for every observer with at most q hash queries and n presentations, all populations of users and all ways in which seeds repeat", "why_tests_cant": "a statement about all observers and about probabilities; tests use a few fixed seeds", "anchors": ["aeonflux/src/user.rs:176-252", "signal-credential/src/user.rs:99-146", "ffi/src/c.rs:211-231", "wasm/src/js.rs:335-347"]}
{"id": "C93", "title": "Getting accepted for a number that was not issued is as hard as forging a MAC", "statement": "Take any adversary, algebraic or not, that asks the hash, gets attributes issued by Issuer::issue, and finally sends a presentation together with an opening of its roster entry. If the nonce is not the identity and SignalIssuer::verify and verify_roster_membership accept it, for a roster entry that commits to a phone number in a set V of which no number was issued, with non-negligible probability, then the adversary can be turned into an algorithm that either forges a MAC (amacs::Tag) on a number in V from MACs on the issued numbers only, or finds the discrete logarithm of h to the base g. Conversely, every such algorithm gives an adversary that is accepted. So issuance and presentation are as strong as the MAC and the parameters, up to the loss of the reduction.", "quantifier": "for every adversary with at most T hash queries and issuance requests, every set V of numbers, every distribution of the parameters with h not the identity, all randomness", "why_tests_cant": "a statement about all adversaries and about probabilities, by a reduction that runs the adversary three times", "anchors": ["aeonflux/src/issuer.rs Issuer::issue, Issuer::verify", "signal-credential/src/issuer.rs SignalIssuer::verify, verify_roster_membership", "aeonflux/src/amacs.rs Tag::create, Tag::verify", "aeonflux/src/nonces.rs; aeonflux/src/proofs.rs", "aeonflux/src/parameters.rs SystemParameters"]}
{"id": "C94", "title": "Watching honest users present does not help anybody to be accepted for another number", "statement": "Take any adversary, algebraic or not, that asks the hash, gets attributes issued by Issuer::issue, and watches presentations that honest users make with SignalUser::show, whose phone numbers, credentials' nonces and roster openings it chooses. If it sends a presentation that SignalIssuer::verify and verify_roster_membership accept, with non-identity nonce, for a roster entry that it opens to a number in a set V of which no number was issued to it, and the presentation is not one that it saw, with non-negligible probability, then it can be turned into an algorithm that forges a MAC on a number in V from MACs on the issued numbers only, or into one that finds the discrete logarithm of h to the base g. In particular presentations cannot be modified.", "quantifier": "for every adversary with at most T hash queries in all, every set V of numbers, every distribution of the parameters with g and h not the identity, all randomness", "why_tests_cant": "a statement about all adversaries and about probabilities, by a reduction that runs the adversary several times", "anchors": ["signal-credential/src/user.rs SignalUser::show", "aeonflux/src/user.rs User::show", "aeonflux/src/issuer.rs Issuer::issue, Issuer::verify", "signal-credential/src/issuer.rs SignalIssuer::verify, verify_roster_membership", "aeonflux/src/proofs.rs; aeonflux/src/amacs.rs Tag::create"]}
{"id": "C95", "title": "The bound on being accepted for a number that was not issued holds from the generation of parameters and keys on", "statement": "Suppose that SystemParameters::hunt_and_peck and Issuer::create are run with uniform bytes. Then an adversary as in C94 is accepted with the same probability as if h were a uniform non-zero multiple of the base point and the keys uniform, up to (15/16)^N + 1/(l-1) + 2^-258, where N is the number of draws allowed to hunt_and_peck. So the only assumptions that remain are that MACs cannot be forged, and that the discrete logarithm of a uniform group element cannot be found: the bound of C94 holds for the program as a whole, with parameters, keys, issuances and presentations all made by the code.", "quantifier": "for every adversary with at most q hash queries, s reads of generators and n issuances and presentations, every set V of numbers, every N, all bytes drawn", "why_tests_cant": "a statement about all adversaries and about probabilities over all bytes drawn by parameter and key generation", "anchors": ["aeonflux/src/parameters.rs:102-124", "aeonflux/src/issuer.rs:86-96", "aeonflux/src/amacs.rs:225-237, 386-394", "signal-credential/src/user.rs SignalUser::show", "aeonflux/src/issuer.rs Issuer::issue, Issuer::verify"]}
{"id": "C96", "title": "Having presentations checked does not help anybody to be accepted for another number", "statement": "Take any adversary, algebraic or not, that in addition to what it does in C94 has any bytes checked by the issuer, at any time and as often as it likes, and goes on with the answers (which error it was, or the accepted roster entry). The answers depend on the issuer's secret key. If such an adversary sends a presentation that SignalIssuer::verify and verify_roster_membership accept, with non-identity nonce, for a roster entry that it opens to a number in a set V of which no number was issued to it, and the presentation is not one that it saw, with non-negligible probability, then it can be turned into an algorithm that forges a MAC on a number in V from MACs on the issued numbers and the answers to equations W = x0 U + x1 C in the key, or into one that finds the discrete logarithm of h to the base g. So the verifier is no useful oracle.", "quantifier": "for every adversary with at most T hash queries in all (two for each check), every set V of numbers, every distribution of the parameters with g and h not the identity, all randomness", "why_tests_cant": "a statement about all adversaries and about probabilities, by a reduction that runs the adversary several times without the key", "anchors": ["signal-credential/src/issuer.rs SignalIssuer::verify, verify_roster_membership", "aeonflux/src/issuer.rs Issuer::issue, Issuer::verify", "signal-credential/src/credential.rs:65-99", "signal-credential/src/user.rs SignalUser::show", "aeonflux/src/parameters.rs:102-124"]}
{"id": "C97", "title": "The assumptions of the reductions hold for generic algorithms", "statement": "An algorithm that gets the parameters g and h (h a uniform non-zero multiple of the base point g), the public key, and tags by SecretKey::mac on any number of values of its choice, and that works with group elements only by linear combination, by comparing combinations, and by asking whether W = x0 U + x1 C for combinations U, C, W and the secret key (x0, x1), does not return a tag with non-identity nonce that SecretKey::verify would accept on a value in a set V of which none was tagged, nor the logarithm of h, except with probability at most c/(l-1), where c is two for each comparison, three for each equation asked, and three for the result. So no such algorithm refutes the assumptions under which C93 to C96 bound the acceptance of other numbers.", "quantifier": "for every such algorithm, randomised and adaptive, every set V, any number of tags", "why_tests_cant": "a statement about all algorithms of a kind and about probabilities", "anchors": ["aeonflux/src/amacs.rs:304-339", "aeonflux/src/parameters.rs:102-124"]}
{"id": "C98", "title": "The repository's tests pass whatever they draw, with the exceptions listed", "statement": "The eighteen unit and integration tests of aeonflux, signal-credential and build-test/maths that do something, and the documentation example for phone numbers, pass or fail as follows. Those on serialisation, on issuance and presentation with fixed parameters, on ElGamal, on opening a commitment and on phone numbers pass whatever the generator returns and whatever the hash function is. test_mac_authentication passes exactly if the MAC's nonce is neither the identity nor the base point, the last key element is not zero and the last attributes of the two messages differ, (l-2)(l-1)(l^2-l) of the l^4 possible draws; the rerandomised one likewise; bad_commitment passes exactly if the two values drawn differ; the test of the full protocol passes exactly if the commitments to Alice's and Bob's numbers differ, which excludes one value of Alice's draw; the test of build-test/maths passes exactly if neither nonce nor exponent is zero. The tests that look for parameters return as soon as hunt_and_peck does (C48).", "quantifier": "for every state of the generator at every call, every entropy, every hash function, debug and release builds", "why_tests_cant": "running a test tries one value of each draw; here all of them are covered", "anchors": ["aeonflux/src/amacs.rs:449-487", "aeonflux/src/elgamal.rs:242-251", "aeonflux/src/pedersen.rs:121-150", "aeonflux/src/parameters.rs:181-217", "aeonflux/src/issuer.rs:244-282", "aeonflux/src/credential.rs:388-449", "signal-credential/src/credential.rs:153-180", "signal-credential/src/user.rs:265-287", "signal-credential/src/phone_number.rs:387-404", "signal-credential/tests/full-protocol.rs:24-93", "build-test/maths/src/lib.rs:20-44"]}
{"id": "C99", "title": "The build experiments compute and show the point, until they run out of memory", "statement": "allocate_buffer_for_bytes never reads or writes memory other than the block it allocated and never panics; it returns null exactly if the size plus one does not fit into usize or malloc returns null, and else a block that holds the bytes and a zero (as a C string it is cut at the first zero byte). do_things_with_maths of the iOS library, called from Swift, gives the encoding of (1 + b * 4155551234) y B for the two numbers b, y drawn, which for every b but one takes every value of the group for exactly one y; the text shown determines it. Claimed and refuted: the button can be pressed any number of times. The Swift code does not free the buffer, so that with any allocator the application crashes after fewer than 2^bits/33 presses.", "quantifier": "for every allocator, memory, size of usize, and all draws", "why_tests_cant": "quantifies over allocators and memories; the leak shows only after very many calls", "anchors": ["build-test/maths/src/lib.rs:20-28", "build-test/alloc/src/lib.rs:22-47", "build-test/ios/src/lib.rs:17-28", "build-test/ios/xcode/BuildTest.swift:11-18", "build-test/ios/xcode/RustBuildTest/ViewController.swift:15-28"]}
{"id": "C100", "title": "A seed may serve both for a roster entry and for its presentation", "statement": "RosterEntryCommitment::create and SignalUser::show begin with the same draw, so that with the same seed the opening of the entry is the blinding of the attribute: the entry is m h + z g and the presentation contains m P + z h; two entries made with one seed differ by the difference of the numbers times h. Claimed and refuted: this does no harm. Whoever knows the logarithm of h tests numbers with one presentation and no hash query: yes always for the right number, with probability 1/l for another, and with probability 1/l if the seeds are different. With separate seeds the numbers are hidden from everybody who makes q hash queries and n requests, also with all keys and the logarithm, up to 4n(q+2n)/l. With one seed, for uniform h, they are hidden if the decisional Diffie-Hellman problem is hard, and telling two members apart is exactly as easy as that problem.", "quantifier": "for every group, hash, observers of q queries and n requests, all members with valid credentials", "why_tests_cant": "the presentations are accepted and look alike; the statement is about all observers and about probabilities", "anchors": ["signal-credential/src/phone_number.rs:351-366", "signal-credential/src/user.rs:99-140", "ffi/src/c.rs:211-247", "aeonflux/src/user.rs:176-251"]}
{"id": "C101", "title": "Values with equal encodings are equal", "statement": "Two values of a type have the same to_bytes only if they are equal (in the sense of the derived ==), so that comparing encodings is as good as comparing values.", "quantifier": "for every pair of values of every type with a to_bytes, also values no decoder returns", "why_tests_cant": "pairs of arbitrary values; collisions are only between special values", "anchors": ["aeonflux/src/amacs.rs:369-376", "aeonflux/src/credential.rs:104-114", "aeonflux/src/credential.rs:226-242", "aeonflux/src/credential.rs:323-346", "aeonflux/src/issuer.rs", "aeonflux/src/user.rs:87-104", "signal-credential/src/credential.rs:91-108", "signal-credential/src/user.rs:53-60", "signal-credential/src/phone_number.rs:337-344"]}
{"id": "C102", "title": "Error messages contain no secrets", "statement": "What the functions of the C interface print to standard output (with the feature std) contains no bytes of their arguments, which may hold phone numbers, openings, keys and credentials; calls that succeed print nothing, and the printing does not change results.", "quantifier": "for every call, memory, arguments of any content and length, hash, and with and without std", "why_tests_cant": "the output of a program is rarely asserted, and leaks only on malformed or swapped arguments", "anchors": ["aeonflux/src/parameters.rs:52-81", "aeonflux/src/macros.rs:36-46", "signal-credential/src/credential.rs:65-89", "signal-credential/src/phone_number.rs:203-241", "ffi/src/macros.rs:41-84", "ffi/src/c.rs:71-284"]}
{"id": "C103", "title": "Nobody can use the roster entry of another", "statement": "Take any adversary, algebraic or not, that knows the issuer's secret key (so that it can make any MAC), chooses the phone number and the nonce of an honest user's credential, is given the user's roster entry, with uniform opening, asks the hash, and watches the user present for this entry with SignalUser::show as often as it likes. If it sends bytes that SignalIssuer::verify and verify_roster_membership accept for this entry (even with the identity as nonce), and that are not a presentation of the user, with non-negligible probability, then it can be turned into an algorithm that opens the entry, from the entry alone, or into one that finds the discrete logarithm of h to the base g. If the logarithm of h is known, the former finds the discrete logarithm of a uniform group element. Conversely, every algorithm that opens roster entries gives an adversary that is accepted. The same holds for any number of users, each with an entry, all of whom the adversary watches, if it may use the entry of any of them; and for the program as a whole. So entries in a roster protect their owners even against the issuer and against those who know their number.", "quantifier": "for every adversary with at most T hash queries in all (two for each presentation), every distribution of the parameters with g and h not the identity, all randomness", "why_tests_cant": "a statement about all adversaries and about probabilities, by a reduction that runs the adversary several times", "anchors": ["signal-credential/src/issuer.rs:149-182", "signal-credential/src/user.rs:99-146", "signal-credential/src/phone_number.rs:291-303, 346-366", "aeonflux/src/user.rs:176-252", "aeonflux/src/issuer.rs Issuer::verify", "aeonflux/src/proofs.rs"]}
{"id": "C104", "title": "Only the issuer can issue", "statement": "Take any adversary, algebraic or not, that knows the parameters and the public key of an issuer, asks the hash, gets attributes of its choice issued by Issuer::issue, and watches presentations by users with numbers and roster openings of its choice. If it sends bytes that decode to an issuance which User::obtain_finish accepts, and whose key commitment, MAC or proof is not that of an issuance it received, with non-negligible probability, then it can be turned into an algorithm that finds the discrete logarithm of the public key to the base h, or into one that finds the discrete logarithm of h to the base g. So not even another proof for a MAC that was issued can be made. Conversely, whoever finds the logarithm of the public key makes issuances that are accepted. The same holds for the program as a whole: parameters from hunt_and_peck, keys from Issuer::create, and Issuer::issue and SignalUser::show with their own generators, which the adversary may read.", "quantifier": "for every adversary with at most T hash queries and issuances in all (a presentation counts twice), every distribution of the parameters with g and h not the identity, all randomness", "why_tests_cant": "a statement about all adversaries and about probabilities, by a reduction that runs the adversary twice", "anchors": ["aeonflux/src/user.rs:140-172", "aeonflux/src/issuer.rs Issuer::issue", "aeonflux/src/credential.rs CredentialIssuance::from_bytes", "aeonflux/src/proofs.rs:36-200", "aeonflux/src/amacs.rs SecretKey::mac"]}
{"id": "C105", "title": "Issuers with the same parameters do not endanger each other", "statement": "Let any number of issuers, each with its own key, use the same system parameters. Take any adversary, algebraic or not, that asks the hash, gets attributes of its choice issued by any of the issuers, watches users of any of them present, with numbers and roster openings of its choice, and learns the secret keys of issuers of its choice at any time. If it is accepted, by an issuer whose key it did not learn, for a number that this issuer (though maybe others) did not issue to it, with something that no user of this issuer sent (though maybe users of others), with non-negligible probability, then one of the algorithms of C94 succeeds against a single issuer. The same holds for issuances, with C104. With one issuer the games are those of C94 and C104; the key of an issuer is enough to make its issuances. The same holds for the program as a whole: parameters from hunt_and_peck, keys from Issuer::create, issuances from Issuer::issue and presentations from SignalUser::show with their own generators, which the adversary may read. For credentials it also holds if the adversary may have any bytes checked by any of the issuers, at any time, and goes on with the answer; then one of the algorithms of C96 succeeds against a single issuer.", "quantifier": "for every number of issuers, every adversary with at most T hash queries and issuances in all (a presentation or a check counts twice), every distribution of the parameters with g and h not the identity, all randomness", "why_tests_cant": "a statement about all adversaries and about probabilities, with interleaved sessions with several issuers", "anchors": ["aeonflux/src/issuer.rs:86-260", "aeonflux/src/parameters.rs", "aeonflux/src/user.rs:140-252", "signal-credential/src/issuer.rs:130-182", "signal-credential/src/user.rs:87-146"]}
{"id": "C106", "title": "Errors say what was wrong", "statement": "Whenever a function returns an error, the text of that error is true of the input. \"Cannot decompress Ristretto point\" and \"The system parameters were not initialised\" are returned by the decoders of parameters and public keys if and only if some point is not an encoding, or the length is not that of parameters; \"MAC could not be authenticated\", \"Could not verify a MAC\" and \"The proof could not be verified\" if and only if the check fails; \"Failed to get a credential issued\" if and only if there is no issuance or its proof does not verify; \"The issuer was not initialised properly and has no parameters\" (\"no secret key\") only if the issuer has none; \"Could not create a MAC\" only for a wrong number of attributes; \"Some data, such as a key or zkproof, was missing\" only if data is missing; \"Cannot use scalar with high-bit set\" only for scalars with the high bit set; \"not a multiple of 32 bytes\" only for such lengths; \"Message must be n bytes in length\" only if n bytes are accepted; \"A canonicalised phone number cannot be more than 32 bytes\" only for more than 32 bytes; \"The user's proof of roster membership could not be verified\" only for such proofs.", "quantifier": "for all bytes, keys, tags, messages, issuers, users, issuances, presentations and randomness", "why_tests_cant": "tests compare no texts, and the cases where a text is wrong are unusual inputs", "anchors": ["aeonflux/src/errors.rs:24-135", "signal-credential/src/errors.rs:24-59", "aeonflux/src/amacs.rs:120-360", "aeonflux/src/credential.rs:80-310", "aeonflux/src/issuer.rs:50-160", "aeonflux/src/user.rs:55-190"]}
{"id": "C107", "title": "Rosters and presentations do not show phone numbers", "statement": "Let the members of a roster make entries with RosterEntryCommitment::create, and let them present with SignalUser::show, as often as an observer likes, to any number of issuers from which they have credentials. The observer may know the keys of all issuers, all credentials, and the logarithm of h to the base g, may ask the hash, may read what the generators give, and may know the openings of some members. Exchange the numbers of all other members for any others, of which some may be equal. Then the observer says yes with almost the same probability: the difference is at most 4n(q+2n)/l + 18n/2^259 + 6n(2t+8n+3)/2^256 + 2N/2^259. With uniform openings it may also choose the numbers, at any time. So neither a list of entries nor the presentations for them show who is in the roster, whether two entries belong to the same person, or who presents to several issuers, beyond which entry is used. Both g and h must differ from the identity, although the decoder accepts it: with the identity as g the entries, and with the identity as h the presentations, show the numbers.", "quantifier": "for all parameters with g and h not the identity, all keys and credentials, every number N of entries, every set of members that collude, any two choices of the numbers of the others, every observer with at most q hash queries, t reads of generators and n presentations, all randomness", "why_tests_cant": "a statement about all observers and about probabilities, with several users and issuers", "anchors": ["signal-credential/src/phone_number.rs:291-303, 346-366", "signal-credential/src/user.rs:99-146", "aeonflux/src/user.rs:176-252", "aeonflux/src/parameters.rs", "aeonflux/src/nonces.rs"]}
{"id": "C108", "title": "Entries and presentations convince nobody but the issuer", "statement": "Whoever knows the secret keys of the issuers can, without help from the users and without knowing their numbers, credentials or openings, make a roster and presentations for it, to any number of issuers, that an observer who knows all keys, and sees presentations as often as it likes, cannot tell from those of the users, except with the advantage of C107; the numbers must be right only for those users that give the openings of their entries away. The forger needs nothing but the program: the credentials are what SignalIssuer::issue gives for any number, if the nonce is not the identity, entries are made by RosterEntryCommitment::create, presentations by SignalUser::show, and all are accepted by SignalIssuer::verify and verify_roster_membership. So what an issuer has received is no evidence against the users for others, who have to rely on the roster being genuine. (For an entry that was made by somebody else it is different: C103.)", "quantifier": "for all parameters with g and h not the identity, all keys, users, credentials, numbers and nonces, every number of entries, every observer with at most q hash queries, t reads of generators and n presentations, all randomness", "why_tests_cant": "a statement about all observers and about probabilities", "anchors": ["signal-credential/src/issuer.rs:130-182", "signal-credential/src/user.rs:68-146", "signal-credential/src/phone_number.rs:346-366", "aeonflux/src/amacs.rs:304-321"]}
{"id": "C109", "title": "Honest presentations do not repeat, so that replays can be recognised", "statement": "SignalIssuer::verify and verify_roster_membership keep no state, so what was accepted once is accepted again. A server that remembers what it has accepted, and refuses it when it is sent again, never accepts the same presentation twice, in whatever bytes; and it refuses an honest presentation only with small probability: n presentations made by SignalUser::show, by any users with any valid credentials and entries, are all accepted in the order in which they are sent, except with probability at most n(n-1)/(2l)+n/2^259 over the first 64 bytes that each show draws. It need not keep all: the blinded attribute of each presentation, 32 bytes, is enough. The server must compare what the bytes decode to and not the bytes: SignalCredentialPresentation::from_bytes ignores what follows, so the same presentation with bytes appended is decoded and accepted too.", "quantifier": "for every hash, all parameters with h not the identity, all keys, all users, valid credentials and entries they can open, every number of presentations, all bytes for the transcript generators; for all sequences of bytes sent to the server", "why_tests_cant": "a statement about probabilities, and about all sequences of bytes", "anchors": ["signal-credential/src/user.rs:99-146", "aeonflux/src/user.rs:176-252", "signal-credential/src/issuer.rs:149-182", "signal-credential/src/credential.rs:65-89"]}
