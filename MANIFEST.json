{
 "claims": [
  {
   "property": "C01",
   "status": "proved",
   "theorems": [
    "Verif.C01_ok_iff",
    "Verif.C01_roundtrip",
    "Verif.C01_reserialise",
    "Verif.C01_wrong_length",
    "Verif.C01_bad_point",
    "Verif.C01_no_panic"
   ],
   "note": "Exact bijection, exact errors, no panic."
  },
  {
   "property": "C02",
   "status": "proved",
   "theorems": [
    "Verif.C02_ok_iff",
    "Verif.C02_roundtrip",
    "Verif.C02_reserialise",
    "Verif.C02_otherwise",
    "Verif.C02_no_panic"
   ],
   "note": "Exact bijection, single error value, no panic."
  },
  {
   "property": "C03",
   "status": "proved",
   "theorems": [
    "Verif.C03_ok_iff",
    "Verif.C03_roundtrip",
    "Verif.C03_reserialise",
    "Verif.C03_wrong_length",
    "Verif.C03_bad_point",
    "Verif.C03_no_panic"
   ],
   "note": "Exact bijection for any number of points, exact errors, no panic."
  },
  {
   "property": "C04",
   "status": "partial",
   "theorems": [
    "Verif.C04_ok_iff",
    "Verif.C04_roundtrip",
    "Verif.C04_reserialise",
    "Verif.C04_wrong_length",
    "Verif.C04_bad_scalar",
    "Verif.C04_empty_panics",
    "Verif.C04_no_panic_partial"
   ],
   "note": "Codec and errors proved; 'never panics' is false for the empty input (C04_empty_panics), proved for every other input."
  },
  {
   "property": "C05",
   "status": "partial",
   "theorems": [
    "Verif.C05_short_err",
    "Verif.C05_short_panics",
    "Verif.C05_ok_iff",
    "Verif.C05_roundtrip",
    "Verif.C05_reserialise",
    "Verif.C05_no_panic_partial",
    "Verif.C05_wraps",
    "Verif.C05_wraps_64",
    "Verif.C05_width"
   ],
   "note": "Codec proved in both build modes and for every size of usize (C05_width); 'no input panics' is false for inputs shorter than 32 bytes with overflow checks (C05_short_panics), proved otherwise."
  },
  {
   "property": "C06",
   "status": "proved",
   "theorems": [
    "Verif.C06_ok_iff",
    "Verif.C06_roundtrip",
    "Verif.C06_reserialise",
    "Verif.C06_has_key",
    "Verif.C06_no_panic",
    "Verif.C06_errors",
    "Verif.C06_signal",
    "Verif.C06_signal_roundtrip"
   ],
   "note": "Total, exact characterisation, keys non-empty, errors, SignalIssuer identical."
  },
  {
   "property": "C07",
   "status": "proved",
   "theorems": [
    "Verif.C07_request_ok_iff",
    "Verif.C07_request_roundtrip",
    "Verif.C07_request_wrong_length",
    "Verif.C07_request_bad_scalar",
    "Verif.C07_request_no_panic",
    "Verif.C07_credential_ok_iff",
    "Verif.C07_credential_roundtrip",
    "Verif.C07_credential_reserialise",
    "Verif.C07_credential_wrong_length",
    "Verif.C07_credential_bad",
    "Verif.C07_credential_no_panic"
   ],
   "note": "Exact characterisation of both codecs, errors, no panic."
  },
  {
   "property": "C08",
   "status": "partial",
   "theorems": [
    "Verif.C08_ok_iff",
    "Verif.C08_toBytes",
    "Verif.C08_roundtrip",
    "Verif.C08_panic_iff",
    "Verif.C08_short_panics",
    "Verif.C08_no_panic_partial",
    "Verif.C08_errors"
   ],
   "note": "Round trip and exact Ok set proved; 'short inputs give an error' is false: exact panic set in C08_panic_iff."
  },
  {
   "property": "C09",
   "status": "partial",
   "theorems": [
    "Verif.C09_ok_iff",
    "Verif.C09_toBytes",
    "Verif.C09_roundtrip",
    "Verif.C09_verified",
    "Verif.C09_long",
    "Verif.C09_panic_iff",
    "Verif.C09_wrong_length",
    "Verif.C09_short_panics",
    "Verif.C09_no_panic_partial"
   ],
   "note": "Round trip and exact Ok set proved; 'error rather than panic' is false: exact panic set in C09_panic_iff."
  },
  {
   "property": "C10",
   "status": "proved",
   "theorems": [
    "Verif.C10_ok_iff",
    "Verif.C10_toBytes",
    "Verif.C10_roundtrip",
    "Verif.C10_no_panic",
    "Verif.C10_verified",
    "Verif.C10_errors"
   ],
   "note": "Round trip, exact Ok set, no panic, error set."
  },
  {
   "property": "C11",
   "status": "partial",
   "theorems": [
    "Verif.C11_ok_iff",
    "Verif.C11_roundtrip_iff",
    "Verif.C11_signal_roundtrip_iff",
    "Verif.C11_new",
    "Verif.C11_zero_key_lost",
    "Verif.C11_loaded_credential",
    "Verif.C11_no_panic",
    "Verif.C11_signal_panic_iff"
   ],
   "note": "Exact set of users surviving save/load (C11_roundtrip_iff); the general claim is false (C11_zero_key_lost)."
  },
  {
   "property": "C12",
   "status": "partial",
   "theorems": [
    "Verif.C12_commitment_ok_iff",
    "Verif.C12_commitment_roundtrip",
    "Verif.C12_commitment_panic_iff",
    "Verif.C12_commitment_err",
    "Verif.C12_committed_number",
    "Verif.C12_roster_ok_iff",
    "Verif.C12_roster_roundtrip",
    "Verif.C12_roster_panic_iff",
    "Verif.C12_commitment_accepts_suffix",
    "Verif.C12_roster_length_partial"
   ],
   "note": "Round trips and exact Ok/panic sets; 'accept only inputs of the right length' is false for commitments (C12_commitment_accepts_suffix)."
  },
  {
   "property": "C13",
   "status": "proved",
   "theorems": [
    "Verif.C13_public_ok_iff",
    "Verif.C13_secret_ok_iff",
    "Verif.C13_keypair_ok_iff",
    "Verif.C13_roundtrip",
    "Verif.C13_panic_iff",
    "Verif.C13_err"
   ],
   "note": "Exact Ok, panic and error sets; wrong lengths are rejected by a panic."
  },
  {
   "property": "C14",
   "status": "partial",
   "theorems": [
    "Verif.C14_table",
    "Verif.C14_false",
    "Verif.C14_total_partial"
   ],
   "note": "Complete panic table C14_table; the claim is false for twelve decoders (C14_false), proved for the others."
  },
  {
   "property": "C15",
   "status": "partial",
   "theorems": [
    "Verif.C15_injective_partial",
    "Verif.C15_malleable"
   ],
   "note": "Injective for the canonical decoders, false for ten others (C15_malleable)."
  },
  {
   "property": "C16",
   "status": "partial",
   "theorems": [
    "Verif.C16_bytes_ok_iff",
    "Verif.C16_bytes_panic_iff",
    "Verif.C16_bytes_err_iff",
    "Verif.C16_string_outcome",
    "Verif.C16_false",
    "Verif.C16_lengths_partial"
   ],
   "note": "Exact Ok/panic/Err sets; the claim is false for lengths 28..32, which panic (C16_false)."
  },
  {
   "property": "C17",
   "status": "proved",
   "theorems": [
    "Verif.C17_injective"
   ],
   "note": "Injective modulo the group order on everything accepted."
  },
  {
   "property": "C18",
   "status": "proved",
   "theorems": [
    "Verif.C18_canonical",
    "Verif.C18_saved"
   ],
   "note": "Canonical and non-zero for both constructors; a user holding one survives save/load for every tag."
  },
  {
   "property": "C19",
   "status": "partial",
   "theorems": [
    "Verif.C19_roundtrip_partial",
    "Verif.C19_empty",
    "Verif.C19_27",
    "Verif.C19_false",
    "Verif.C19_roundtrip_iff",
    "Verif.C19_display_panic_iff",
    "Verif.C19_display"
   ],
   "note": "True exactly for digit strings of 1..26 characters (C19_roundtrip_iff); false for the empty string and 27 digits. C19_display says what is shown for every number, C19_display_panic_iff exactly when it panics."
  },
  {
   "property": "C20",
   "status": "partial",
   "theorems": [
    "Verif.C20_consistent",
    "Verif.C20_collision_iff",
    "Verif.C20_injective_partial",
    "Verif.C20_false",
    "Verif.C20_constructors_differ"
   ],
   "note": "Agreement with try_from_bytes on digit values for every string; injective on digit strings; false for non-digits (C20_false); exact collision relation."
  },
  {
   "property": "C21",
   "status": "partial",
   "theorems": [
    "Verif.C21_mac_valid",
    "Verif.C21_complete_partial",
    "Verif.C21_nonce_one_rejected",
    "Verif.C21_false"
   ],
   "note": "Completeness for every nonce but 1; false for nonce 1 (C21_false)."
  },
  {
   "property": "C22",
   "status": "partial",
   "theorems": [
    "Verif.C22_verify_iff",
    "Verif.C22_basepoint_rejected",
    "Verif.C22_verify_iff_partial",
    "Verif.C22_verify_total",
    "Verif.C22_unique_message",
    "Verif.C22_zero_key",
    "Verif.C22_mod_order"
   ],
   "note": "Exact acceptance set; uniqueness of the message for non-zero key and non-identity nonce. The bare equation is not the acceptance set because the basepoint nonce is rejected (C22_basepoint_rejected)."
  },
  {
   "property": "C23",
   "status": "partial",
   "theorems": [
    "Verif.C23_identity_accepted",
    "Verif.C23_zero_nonce_iff",
    "Verif.C23_short_message",
    "Verif.C23_long_message",
    "Verif.C23_false",
    "Verif.C23_mac_length_partial"
   ],
   "note": "mac length check proved; verify accepts the identity tag and any message length (C23_false, exact relations)."
  },
  {
   "property": "C24",
   "status": "partial",
   "theorems": [
    "Verif.C24_valid_iff",
    "Verif.C24_zero",
    "Verif.C24_compose",
    "Verif.C24_one",
    "Verif.C24_transitive",
    "Verif.C24_verify_iff_partial",
    "Verif.C24_verify_false"
   ],
   "note": "All algebraic claims proved for the MAC equation; through verify every tag has a non-zero rerandomisation that is rejected (C24_verify_false)."
  },
  {
   "property": "C25",
   "status": "partial",
   "theorems": [
    "Verif.C25_forgery",
    "Verif.C25_nonce_of_issue",
    "Verif.C25_issue_valid",
    "Verif.C25_seed_reuse_forgery",
    "Verif.C25_distinct_nonces_partial"
   ],
   "note": "False under seed reuse (C25_seed_reuse_forgery); nonces coincide exactly when RNG outputs coincide modulo the order."
  },
  {
   "property": "C26",
   "status": "proved",
   "theorems": [
    "Verif.C26_open_iff",
    "Verif.C26_commit_opens",
    "Verif.C26_value_unique",
    "Verif.C26_binding",
    "Verif.C26_binding_points"
   ],
   "note": "Exact opening set; two openings yield the discrete logarithm."
  },
  {
   "property": "C27",
   "status": "proved",
   "theorems": [
    "Verif.C27_exactly_one_nonce",
    "Verif.C27_hiding",
    "Verif.C27_uniform",
    "Verif.C27_identity_base"
   ],
   "note": "Equality of distributions (PMF) for a uniform nonce, uniform on the group, exactly one nonce per value and commitment."
  },
  {
   "property": "C28",
   "status": "proved",
   "theorems": [
    "Verif.C28_correct",
    "Verif.C28_correct_iff",
    "Verif.C28_decrypt_add",
    "Verif.C28_homomorphic",
    "Verif.C28_phone_number"
   ],
   "note": "Correctness for generated keypairs, exact condition for arbitrary ones, homomorphism, phone numbers."
  },
  {
   "property": "C29",
   "status": "proved",
   "theorems": [
    "Verif.IssuanceRevealed.C29_complete_any",
    "Verif.IssuanceRevealed.C29_complete",
    "Verif.AttributesBlinded.C29_complete_any",
    "Verif.AttributesBlinded.C29_complete",
    "Verif.IssuanceBlinded.C29_complete_any",
    "Verif.IssuanceBlinded.C29_complete",
    "Verif.ValidCredential.C29_complete_any",
    "Verif.ValidCredential.C29_complete",
    "Verif.CommittedValuesEqual.C29_complete_any",
    "Verif.CommittedValuesEqual.C29_complete"
   ],
   "note": "Five proof systems, every oracle, transcript, randomness; C29_complete_any even for every choice of prover randomness."
  },
  {
   "property": "C30",
   "status": "proved",
   "theorems": [
    "Verif.IssuanceRevealed.C30_special_sound",
    "Verif.AttributesBlinded.C30_special_sound",
    "Verif.AttributesBlinded.C30_nonce_unused",
    "Verif.IssuanceBlinded.C30_special_sound",
    "Verif.ValidCredential.C30_special_sound",
    "Verif.CommittedValuesEqual.C30_special_sound"
   ],
   "note": "Extraction of the full declared relation from two transcripts with the same hash query and different challenge scalars."
  },
  {
   "property": "C31",
   "status": "proved",
   "theorems": [
    "Verif.IssuanceRevealed.C31_simulatable",
    "Verif.IssuanceRevealed.C31_simulated_accepted",
    "Verif.AttributesBlinded.C31_simulatable",
    "Verif.AttributesBlinded.C31_simulated_accepted",
    "Verif.IssuanceBlinded.C31_simulatable",
    "Verif.IssuanceBlinded.C31_simulated_accepted",
    "Verif.ValidCredential.C31_simulatable",
    "Verif.ValidCredential.C31_simulated_accepted",
    "Verif.CommittedValuesEqual.C31_simulatable",
    "Verif.CommittedValuesEqual.C31_simulated_accepted"
   ],
   "note": "Equality of PMFs; simulator is given only the public values and the challenge."
  },
  {
   "property": "C32",
   "status": "proved",
   "theorems": [
    "Verif.C32_query_made",
    "Verif.C32_injective",
    "Verif.C32_protocols_distinct",
    "Verif.C32_steps_distinct"
   ],
   "note": "The query determines every field; the five proof systems never share a query, nor do different steps of one protocol."
  },
  {
   "property": "C33",
   "status": "proved",
   "theorems": [
    "Verif.C33_created_matches",
    "Verif.C33_honest_accepted"
   ],
   "note": "For every created issuer, every attribute, RNG and oracle."
  },
  {
   "property": "C34",
   "status": "proved",
   "theorems": [
    "Verif.C34_all_or_nothing",
    "Verif.C34_outcomes",
    "Verif.C34_signal"
   ],
   "note": "All four outcomes listed with their conditions; also through SignalUser."
  },
  {
   "property": "C35",
   "status": "partial",
   "theorems": [
    "Verif.C35_attributes_unchecked",
    "Verif.C35_invalid_accepted",
    "Verif.C35_false",
    "Verif.C35_extract_partial"
   ],
   "note": "False: attributes are never compared and the proof only shows validity under some x0 (C35_false, C35_attributes_unchecked, C35_invalid_accepted). Proved part: special soundness extraction."
  },
  {
   "property": "C36",
   "status": "partial",
   "theorems": [
    "Verif.C36_tagging",
    "Verif.C36_x1_determined_partial"
   ],
   "note": "False for x0: the published parameters do not determine it (C36_tagging). x1 is determined (C36_x1_determined_partial)."
  },
  {
   "property": "C37",
   "status": "proved",
   "theorems": [
    "Verif.C37_outcomes",
    "Verif.C37_missing_iff",
    "Verif.C37_signal_outcomes",
    "Verif.C37_api_users",
    "Verif.C37_api"
   ],
   "note": "C37_outcomes/missing_iff give the full result table of User::show; C37_api* show a user reachable by new, obtain_finish and decoding never panics."
  },
  {
   "property": "C38",
   "status": "proved",
   "theorems": [
    "Verif.C38_honest_accepted",
    "Verif.C38_issued",
    "Verif.C38_created"
   ],
   "note": "Perfect completeness for every issuer whose public key matches its secret key, every attribute, nonce, RNG and entropy."
  },
  {
   "property": "C39",
   "status": "proved",
   "theorems": [
    "Verif.C39_complete"
   ],
   "note": "Whole chain at the Signal level."
  },
  {
   "property": "C40",
   "status": "proved",
   "theorems": [
    "Verif.C40_complete",
    "Verif.C40_zero_key",
    "Verif.C40_any_key"
   ],
   "note": "Spec.wireRun encodes and decodes between every two steps. C40_any_key: for every key with a canonical secret, the all-zero key included. C40_zero_key: that key is then forgotten by the saved user (C11), which show does not notice."
  },
  {
   "property": "C41",
   "status": "partial",
   "theorems": [
    "Verif.C41_forgery",
    "Verif.C41_signal_forgery",
    "Verif.C41_forgery_decodes",
    "Verif.C41_extract_partial",
    "Verif.C41_attribute_determined_partial"
   ],
   "note": "False of the code: verify does not reject a rerandomized nonce equal to the identity, so C41_forgery builds an accepted presentation from public parameters alone (C41_signal_forgery at the Signal level, C41_forgery_decodes: it survives decoding). C41_extract_partial computes a valid MAC from two accepting presentations for the same query; C78_presentation obtains the second one by rewinding, for non-identity nonces."
  },
  {
   "property": "C42",
   "status": "proved",
   "theorems": [
    "Verif.C42_bound",
    "Verif.C42_checks",
    "Verif.C42_identity_nonce"
   ],
   "note": "Stated on witnesses computed from two accepting responses for one commitment; C78_signal obtains them by rewinding. C42_identity_nonce shows that for an identity nonce the discrete-log alternative always holds, which is how the forgery of C41 passes."
  },
  {
   "property": "C43",
   "status": "proved",
   "theorems": [
    "Verif.C43_show_is_present",
    "Verif.C43_unlinkable",
    "Verif.C43_issued_nonce",
    "Verif.C43_tagged_linkable"
   ],
   "note": "Needs h and the tag nonces to be non-identity, which honest issuers guarantee except with probability 1/ell (C43_issued_nonce). C43_tagged_linkable: an issuer using a different x0 per user does link presentations."
  },
  {
   "property": "C44",
   "status": "partial",
   "theorems": [
    "Verif.C44_open_outcomes",
    "Verif.C44_opens_iff_partial",
    "Verif.C44_identity_h",
    "Verif.C44_commitment",
    "Verif.C44_hiding",
    "Verif.C44_entry_determines"
   ],
   "note": "C44_opens_iff_partial: full claim when h is not the identity. C44_identity_h: with h the identity, which hunt_and_peck accepts, an entry opens for every number."
  },
  {
   "property": "C45",
   "status": "partial",
   "theorems": [
    "Verif.C45_unchecked",
    "Verif.C45_false",
    "Verif.C45_membership_for_anyone",
    "Verif.C45_verify_partial"
   ],
   "note": "False of the code: VerifiedSignalCredential::from_bytes performs no check (C45_false, C45_membership_for_anyone). C45_verify_partial is what SignalIssuer::verify itself guarantees."
  },
  {
   "property": "C46",
   "status": "partial",
   "theorems": [
    "Verif.C46_outcomes",
    "Verif.C46_no_panic",
    "Verif.C46_signal"
   ],
   "note": "Proved for Issuer; SignalIssuer::issue panics for 28 to 32 byte numbers (C46_signal)."
  },
  {
   "property": "C47",
   "status": "proved",
   "theorems": [
    "Verif.C47_verify",
    "Verif.C47_signal"
   ],
   "note": "For issuers and presentations obtained by decoding."
  },
  {
   "property": "C48",
   "status": "partial",
   "theorems": [
    "Verif.C48_result_iff",
    "Verif.C48_terminates_iff",
    "Verif.C48_fuel_irrelevant",
    "Verif.C48_params_partial",
    "Verif.C48_identity",
    "Verif.C48_false",
    "Verif.C48_may_diverge",
    "Verif.C48_from"
   ],
   "note": "Exact characterisation: g is the basepoint, h is the point of the first acceptable 32-byte block, loop terminates iff one exists, result independent of the iteration bound. The claim that h is a generator is false: an all-zero block is accepted and makes h the identity (C48_identity, C48_false). C48_params_partial gives the generator claim when no block is all zero. C48_from treats the two From constructors, debug and release."
  },
  {
   "property": "C49",
   "status": "proved",
   "theorems": [
    "Verif.C49_issue",
    "Verif.C49_show",
    "Verif.C49_signal_show",
    "Verif.C49_verdict"
   ],
   "note": "For a fixed RNG state, tag, attributes, commitment and blinded values do not depend on the operating-system entropy, nor does the verification verdict on honest runs; the entropy enters only the proofs."
  },
  {
   "property": "C50",
   "status": "proved",
   "theorems": [
    "Verif.C50_count",
    "Verif.C50_bias",
    "Verif.C50_draw"
   ],
   "note": "Counts all 2^512 inputs: every scalar is hit floor or floor+1 times; statistical bias bound; Scalar::random is the reduction of the next 64 RNG bytes."
  },
  {
   "property": "C51",
   "status": "partial",
   "theorems": [
    "Verif.C51_no_undefined",
    "Verif.C51_absent_partial",
    "Verif.C51_exceptions",
    "Verif.C51_false",
    "Verif.C51_first"
   ],
   "note": "False: user_show without an entry panics on a user shorter than 32 bytes (C51_false); user_obtain_finish without a number panics on a truncated issuance. C51_exceptions: no others. C51_absent_partial: every other call with a null or empty argument returns an empty buffer; C51_no_undefined: only memory that is the caller's is read; C51_first: the argument looked at first decides alone."
  },
  {
   "property": "C52",
   "status": "partial",
   "theorems": [
    "Verif.C52_table",
    "Verif.C52_documented_partial",
    "Verif.C52_roster",
    "Verif.C52_false"
   ],
   "note": "False of issuer_verify_roster_membership, which returns 32 bytes where credential.h says 64 (C52_roster, C52_false). Proved for the eleven other functions (C52_documented_partial); C52_table gives the result length for arbitrary arguments."
  },
  {
   "property": "C53",
   "status": "partial",
   "theorems": [
    "Verif.C53_contents_partial",
    "Verif.C53_dangles",
    "Verif.C53_chaining",
    "Verif.C53_false"
   ],
   "note": "False of every successful call: the vector is dropped before the function returns (C53_dangles, C53_false), so that handing the result on is undefined behaviour (C53_chaining). C53_contents_partial: the bytes were at that address until the drop."
  },
  {
   "property": "C54",
   "status": "partial",
   "theorems": [
    "Verif.C54_nonnull",
    "Verif.C54_false",
    "Verif.C54_open_partial"
   ],
   "note": "False: every early exit returns the address of an empty slice, which is not null (C54_nonnull, C54_false). C54_open_partial: roster_entry_commitment_open returns NULL once its arguments are decoded, with length 1 exactly if the entry opens to the number."
  },
  {
   "property": "C55",
   "status": "partial",
   "theorems": [
    "Verif.C55_chain_partial"
   ],
   "note": "Proved for all seeds and numbers, given that the parameter search ends on the seed (hypothesis hh), which depends on ChaCha. Covers all twelve functions. Contents of a result are those in memory before the drop (see C53)."
  },
  {
   "property": "C56",
   "status": "partial",
   "theorems": [
    "Verif.C56_sized_partial",
    "Verif.C56_table_partial",
    "Verif.C56_false"
   ],
   "note": "False (C56_false): numbers of 28 to 32 bytes and short buffers. C56_table_partial is the exact condition for each function; C56_sized_partial: no panic for arguments of the documented sizes and other numbers, whatever they contain."
  },
  {
   "property": "C57",
   "status": "partial",
   "theorems": [
    "Verif.C57_results",
    "Verif.C57_rejects",
    "Verif.C57_never",
    "Verif.C57_success",
    "Verif.C57_string_partial",
    "Verif.C57_unrepresentable",
    "Verif.C57_false"
   ],
   "note": "The claim is false of the code. Proved: what each of the nine functions accepts and returns for all arguments (C57_results: results are arrays of byte numbers or null; C57_rejects: anything but strings is rejected; C57_never: no returned value is accepted by any function that decodes a value), with a concrete witness (C57_false). Partial positive result: given strings, each function computes what the C function computes on the UTF-8 bytes of the string (C57_string_partial); C57_unrepresentable: encodings with a byte outside UTF-8 can be passed by no string at all."
  },
  {
   "property": "C58",
   "status": "partial",
   "theorems": [
    "Verif.C58_wrong_size",
    "Verif.C58_right_size_partial",
    "Verif.C58_issuer_parameters",
    "Verif.C58_false",
    "Verif.C58_nil_iff",
    "Verif.C58_verify_accepted",
    "Verif.C58_verify_rejected",
    "Verif.C58_get_parameters",
    "Verif.C58_user_identity",
    "Verif.C58_flow",
    "Verif.C58_lengths",
    "Verif.C58_show_failed",
    "Verif.C58_open_partial",
    "Verif.C58_verify_false"
   ],
   "note": "The claim is false of the code. Proved for all data: an initialiser given data of the wrong size never returns nil (C58_wrong_size: it yields an object of zero bytes, C58_false witness); C58_nil_iff characterises when nil is returned at all; a rejected presentation gives a verified credential of zero bytes (C58_verify_rejected, witness C58_verify_false). C58_right_size_partial: data of the right size is kept by all classes but IssuerParameters, whose guard uses the wrong constant, so real issuer parameters become the identity (C58_issuer_parameters, C58_get_parameters) and a user then accepts no honest issuance unless two particular transcripts collide (C58_flow). C58_open_partial excludes numbers of 28 to 32 bytes. Positive results that read a returned buffer assume freed memory is still intact (C53). C58_lengths: LENGTH_USER and LENGTH_ISSUER are the sizes of users and issuers."
  },
  {
   "property": "C59",
   "status": "proved",
   "theorems": [
    "Verif.C59_mac_key",
    "Verif.C59_scalar",
    "Verif.C59_nonces",
    "Verif.C59_reads_zero"
   ],
   "note": "Memory model in Verif/Model/Memory.lean. Every byte of every secret scalar reads zero after drop and nothing else changes. Copies the compiler or moves may have left elsewhere are outside the model."
  },
  {
   "property": "C60",
   "status": "partial",
   "theorems": [
    "Verif.C60_issuer_partial",
    "Verif.C60_keypair_false",
    "Verif.C60_user",
    "Verif.C60_phone",
    "Verif.C60_commitment"
   ],
   "note": "Complete error tables for Issuer and User decoding and phone numbers. The clause that keypair failures always surface as NoIssuerKey is false (C60_keypair_false): the table in C60_issuer_partial shows which keypair failures surface as NoIssuerParameters or ScalarFormatError."
  },
  {
   "property": "C61",
   "status": "proved",
   "theorems": [
    "Verif.C61_credential",
    "Verif.C61_parameters_fixed",
    "Verif.C61_issuers_match",
    "Verif.C61_present",
    "Verif.C61_read_only",
    "Verif.C61_isolated"
   ],
   "note": "Histories of any length with any number of issuers and users; deliveries are arbitrary values, so malicious issuers and networks are included."
  },
  {
   "property": "C62",
   "status": "proved",
   "theorems": [
    "Verif.C62_unforgeable",
    "Verif.C62_all_keys",
    "Verif.C62_view"
   ],
   "note": "C62_all_keys is the claim as stated, for any number of attributes and issuances. C62_unforgeable is stronger: an adaptive strategy that combines the given elements linearly, tests combinations for being the identity and has tags verified by SecretKey.verify, wins for at most cost/l of the values of the unknowns (secret key, discrete log of h, nonces, openings), by Schwartz-Zippel. C62_view shows that the elements are those that Issuer.issue and get_public_key give out. The unknowns are taken as uniform and independent; that the issuance proofs (scalars only) reveal nothing more is C31/C64, not part of this game. Identity nonces are excluded because the code accepts them (C23, C41)."
  },
  {
   "property": "C63",
   "status": "proved",
   "theorems": [
    "Verif.IssuanceRevealed.C63_relation",
    "Verif.IssuanceRevealed.C63_verify",
    "Verif.IssuanceRevealed.C63_create",
    "Verif.IssuanceRevealed.C63_witnesses",
    "Verif.AttributesBlinded.C63_relation",
    "Verif.AttributesBlinded.C63_verify",
    "Verif.AttributesBlinded.C63_create",
    "Verif.AttributesBlinded.C63_witnesses",
    "Verif.IssuanceBlinded.C63_relation",
    "Verif.IssuanceBlinded.C63_verify",
    "Verif.IssuanceBlinded.C63_create",
    "Verif.IssuanceBlinded.C63_witnesses",
    "Verif.ValidCredential.C63_relation",
    "Verif.ValidCredential.C63_verify",
    "Verif.ValidCredential.C63_create",
    "Verif.ValidCredential.C63_witnesses",
    "Verif.CommittedValuesEqual.C63_relation",
    "Verif.CommittedValuesEqual.C63_verify",
    "Verif.CommittedValuesEqual.C63_create",
    "Verif.CommittedValuesEqual.C63_witnesses"
   ],
   "note": "The expanded code equals a generic interpreter of the declared statements, create and verify, for all five modules."
  },
  {
   "property": "C64",
   "status": "proved",
   "theorems": [
    "Verif.IssuanceRevealed.C64_witness_indistinguishable",
    "Verif.AttributesBlinded.C64_witness_indistinguishable",
    "Verif.IssuanceBlinded.C64_witness_indistinguishable",
    "Verif.ValidCredential.C64_witness_indistinguishable",
    "Verif.CommittedValuesEqual.C64_witness_indistinguishable"
   ],
   "note": "Perfect witness indistinguishability, for each fixed hash function."
  },
  {
   "property": "C65",
   "status": "partial",
   "theorems": [
    "Verif.C65_wide",
    "Verif.C65_small_partial",
    "Verif.C65_false",
    "Verif.C65_issue_empty"
   ],
   "note": "False on 32-bit platforms (C65_false): length 2^32 becomes 0 after the check for 0, so a credential for the empty number is issued (C65_issue_empty). Proved on 64-bit platforms (C65_wide) and for lengths below 2^32 (C65_small_partial)."
  },
  {
   "property": "C66",
   "status": "proved",
   "theorems": [
    "Verif.IssuanceRevealed.C66_create",
    "Verif.AttributesBlinded.C66_create",
    "Verif.IssuanceBlinded.C66_create",
    "Verif.ValidCredential.C66_create",
    "Verif.CommittedValuesEqual.C66_create",
    "Verif.C66_reads_injective",
    "Verif.C66_same_proof",
    "Verif.C66_reuse_leaks"
   ],
   "note": "For each of the five proof modules create equals an independent prover that draws each blinding by Spec.Read; C66_reads_injective: equal reads only for equal transcript, witnesses, entropy and position; C66_reuse_leaks: two proofs with the same blindings and different challenges give the witness. That different reads give independent bytes is a property of the hash, which is an arbitrary function here."
  },
  {
   "property": "C67",
   "status": "proved",
   "theorems": [
    "Verif.C67_append",
    "Verif.C67_secret_key",
    "Verif.C67_issuer_create",
    "Verif.C67_nonces",
    "Verif.C67_elgamal",
    "Verif.C67_roster",
    "Verif.C67_mac",
    "Verif.C67_issue",
    "Verif.C67_signal_issue",
    "Verif.C67_show",
    "Verif.C67_signal_show"
   ],
   "note": "Reads are listed by Spec.reads; the value of each read is stated by Spec.wide. Covers key generation, nonces, ElGamal keys, roster entries, MACs, issuance and presentation on both layers, with the failure paths."
  },
  {
   "property": "C68",
   "status": "partial",
   "theorems": [
    "Verif.IssuanceBlinded.C68_decrypts_partial",
    "Verif.IssuanceBlinded.C68_any_plaintext",
    "Verif.IssuanceBlinded.C68_false",
    "Verif.IssuanceBlinded.C68_equal_copies",
    "Verif.IssuanceBlinded.C68_repaired"
   ],
   "note": "False: the statement lets the issuer choose the two copies of T0 independently and uses X0 where X1 is needed, so for a nonzero attribute a verifying proof can decrypt to anything (C68_any_plaintext, C68_false). Partial: what decryption gives in terms of the prover's t0; with equal copies it is bound to x0, not x1 (C68_equal_copies). C68_repaired: the intended statement with X1 and equal copies has the property."
  },
  {
   "property": "C69",
   "status": "partial",
   "theorems": [
    "Verif.C69_ok_iff",
    "Verif.C69_panic_iff",
    "Verif.C69_roundtrip",
    "Verif.C69_roundtrip_iff",
    "Verif.C69_types",
    "Verif.C69_issuer",
    "Verif.C69_user_iff",
    "Verif.C69_false",
    "Verif.C69_no_panic_partial"
   ],
   "note": "False only in 'never panics': eight zero bytes (an empty byte string) panic for SecretKey, Keypair (debug builds), CredentialIssuance, CredentialPresentation, RosterEntryCommitment and SignalUser (C69_false); C69_panic_iff says exactly when. All other parts proved (C69_ok_iff, C69_roundtrip_iff, C69_types, C69_issuer, C69_user_iff); no panic for ten decoders (C69_no_panic_partial)."
  },
  {
   "property": "C70",
   "status": "partial",
   "theorems": [
    "Verif.C70_unforgeable_partial",
    "Verif.C70_false",
    "Verif.C70_presentation_accepted",
    "Verif.C70_signal_accepted",
    "Verif.C70_roster_accepted",
    "Verif.C70_view"
   ],
   "note": "C70_unforgeable_partial: the bound cost/l (2 per test, 1 per hash query, 3 per verification and for the output) for every strategy of an algebraic adversary with a random hash; opening values are the adversary's own coefficients. Needs a non-identity nonce: without it the claim is false (C70_false, also C41). Not in the adversary's view: the scalars in proofs of the issuer and of other users. They are in the view in C84. C70_presentation_accepted, C70_roster_accepted and C70_view tie the game to Issuer::verify, verify_roster_membership, issue, show and roster entries."
  },
  {
   "property": "C71",
   "status": "partial",
   "theorems": [
    "Verif.C71_transparent_partial",
    "Verif.C71_honest_ordinary",
    "Verif.C71_false"
   ],
   "note": "False in general: an issuer can make its user accept an all-zero credential (C71_false), which is lost on saving. Proved for all histories without all-zero credentials or keys and with one-point issuer keys; histories of honest issuers are of this kind (C71_honest_ordinary)."
  },
  {
   "property": "C72",
   "status": "proved",
   "theorems": [
    "Verif.Group255.C72_accept",
    "Verif.Group255.C72_unique",
    "Verif.Group255.C72_count",
    "Verif.Group255.C72_order",
    "Verif.Group255.C72_torsion",
    "Verif.Group255.C72_tag",
    "Verif.Group255.C72_parameters",
    "Verif.Group255.C72_public_key"
   ],
   "note": "About the real group: Verif/Curve constructs Ristretto255 and proves the laws the model assumes. That curve25519-dalek implements this group is trusted."
  },
  {
   "property": "C73",
   "status": "proved",
   "theorems": [
    "Verif.Hunt.C73_uniform",
    "Verif.Hunt.C73_draws",
    "Verif.Hunt.C73_bound",
    "Verif.Hunt.C73_fast",
    "Verif.Hunt.C73_exact"
   ],
   "note": "Counting over all sequences of n blocks of 32 bytes, for every group with the assumed laws."
  },
  {
   "property": "C74",
   "status": "partial",
   "theorems": [
    "Verif.C74_distinct",
    "Verif.C74_length_false",
    "Verif.C74_mac_partial",
    "Verif.C74_too_short",
    "Verif.C74_roster_text"
   ],
   "note": "Distinct texts: proved. The named length is false of every wrong-length rejection by the key decoders (C74_length_false); SecretKey::mac names the right count, of attributes, not bytes (C74_mac_partial). LengthExceeded is returned for short inputs too (C74_too_short) and InvalidPhoneNumber for undecodable commitments (C74_roster_text)."
  },
  {
   "property": "C75",
   "status": "proved",
   "theorems": [
    "Verif.C75_len",
    "Verif.C75_index",
    "Verif.C75_string",
    "Verif.C75_phone",
    "Verif.C75_string_count",
    "Verif.C75_neg",
    "Verif.C75_operators",
    "Verif.C75_wrappers"
   ],
   "note": "SHA-512 is an arbitrary function; the string and phone theorems are for x1 ≠ 0 and a MAC nonce other than 0 and 1."
  },
  {
   "property": "C76",
   "status": "partial",
   "theorems": [
    "Verif.C76_verify",
    "Verif.C76_reveal_false",
    "Verif.C76_sum_partial",
    "Verif.C76_decoded_partial"
   ],
   "note": "The outcome of verify on every presentation: proved (C76_verify). That revealed attributes are those of the credential is false (C76_reveal_false); what holds is that revealed plus hidden value is the attribute (C76_sum_partial, on the level of the proved statement) and that decoded presentations reveal nothing (C76_decoded_partial)."
  },
  {
   "property": "C77",
   "status": "proved",
   "theorems": [
    "Verif.C77_c",
    "Verif.C77_c_answers",
    "Verif.C77_c_open",
    "Verif.C77_js",
    "Verif.C77_swift",
    "Verif.C77_swift_answers"
   ],
   "note": "C77_c, C77_c_answers and C77_c_open cover the twelve C functions, C77_js the nine JavaScript functions, C77_swift and C77_swift_answers the Swift methods. Spec.Answers states the library operation for each request. What Swift and C callers get beyond this on failure is C54, C58; that the returned C buffer is already freed is C53. Swift answers need that freed buffers are still intact and arguments are not empty."
  },
  {
   "property": "C78",
   "status": "proved",
   "theorems": [
    "Verif.IssuanceRevealed.C78_knowledge",
    "Verif.IssuanceRevealed.C78_honest",
    "Verif.AttributesBlinded.C78_knowledge",
    "Verif.AttributesBlinded.C78_honest",
    "Verif.IssuanceBlinded.C78_knowledge",
    "Verif.IssuanceBlinded.C78_honest",
    "Verif.ValidCredential.C78_knowledge",
    "Verif.ValidCredential.C78_honest",
    "Verif.CommittedValuesEqual.C78_knowledge",
    "Verif.CommittedValuesEqual.C78_honest",
    "Verif.C78_presentation",
    "Verif.C78_signal",
    "Verif.C78_issuance",
    "Verif.C78_signal_honest"
   ],
   "note": "C78_knowledge and C78_honest once per proof system (five namespaces); C78_presentation, C78_signal, C78_issuance for the protocols on byte strings. The random oracle is lazily sampled from a uniform tape; probabilities count tapes and coins. The bound on repeated challenges uses the exact count of 64-byte strings per scalar (C50)."
  },
  {
   "property": "C79",
   "status": "proved",
   "theorems": [
    "Verif.C79_add",
    "Verif.C79_get",
    "Verif.C79_drop",
    "Verif.C79_constants",
    "Verif.C79_limit",
    "Verif.C79_double_drop"
   ],
   "note": "C79_double_drop shows what goes wrong if Rust dropped a handle twice; C80 shows that the nine functions do not. Handles are 32-bit, hence the bound 2^30 on the table; C79_limit shows that it is sharp."
  },
  {
   "property": "C80",
   "status": "proved",
   "theorems": [
    "Verif.C80_returns",
    "Verif.C80_panics",
    "Verif.C80_hangs",
    "Verif.C80_programs",
    "Verif.C80_leak",
    "Verif.C80_empty_user",
    "Verif.C80_out_of_memory"
   ],
   "note": "C80_returns, C80_panics, C80_hangs cover every outcome; C80_programs iterates. C80_leak, C80_empty_user and C80_out_of_memory are the negative parts of the statement, with a concrete panicking call. The allocator never fails in the first four (Spec.Unlimited)."
  },
  {
   "property": "C81",
   "status": "proved",
   "theorems": [
    "Verif.C81_zero_knowledge",
    "Verif.C81_simulated_accepted"
   ],
   "note": "The hash is a random oracle whose answers the simulator chooses. Randomness is uniform over ZMod l (C50, C66). Statements in which all points multiplied by randomness are the identity are excluded: for these the query is always the same."
  },
  {
   "property": "C82",
   "status": "proved",
   "theorems": [
    "Verif.C82_show",
    "Verif.C82_presentation_simulatable",
    "Verif.C82_simulated_accepted"
   ],
   "note": "Needs h and the tag nonces to be non-identity (C43_issued_nonce). C43_show_is_present ties Spec.present to SignalUser::show. The model of the observer has the same hash as the provers."
  },
  {
   "property": "C83",
   "status": "proved",
   "theorems": [
    "Verif.C83_issue_is_issued",
    "Verif.C83_issuance_simulatable"
   ],
   "note": "C83_issue_is_issued ties Spec.issued to Issuer::issue."
  },
  {
   "property": "C84",
   "status": "proved",
   "theorems": [
    "Verif.Attack.C84_unforgeable",
    "Verif.Attack.C84_issue_step",
    "Verif.Attack.C84_watch_step",
    "Verif.Attack.C84_copy",
    "Verif.Attack.C84_canonical"
   ],
   "note": "C84_unforgeable. Algebraic adversary and random hash are part of the statement. A hash query is any list of transcript operations, whose items are fixed bytes or encodings of combinations of received elements. Copies are exact: another proof for the same committed values counts as a forgery (responses are compared modulo l; for presentations that come from bytes this is equality of all fields, C84_copy and C84_canonical). The nonce is non-identity, without that the claim is false (C70_false, C41). Presentations have no revealed attributes, as all decoded ones (C76_decoded_partial). C84_issue_step and C84_watch_step: the messages in the game are distributed as those of Issuer::issue and SignalUser::show (through C83_issue_is_issued and C43_show_is_present)."
  },
  {
   "property": "C85",
   "status": "proved",
   "theorems": [
    "Verif.C85_one_key",
    "Verif.C85_identity_nonce"
   ],
   "note": "C85_one_key, for every presentation that both issuers accept; the exception is about the two named queries (Spec.decisionQuery), so it is not met by the mere existence of collisions. C85_identity_nonce is the excluded case."
  },
  {
   "property": "C86",
   "status": "partial",
   "theorems": [
    "Verif.C86_class",
    "Verif.C86_recognised",
    "Verif.C86_not_confused",
    "Verif.C86_leak_partial",
    "Verif.C86_false"
   ],
   "note": "False of the code: C86_false (for every pair of different x0, the users accept both credentials and one observer separates the presentations with advantage at least 1 - 3/l), from C86_recognised and C86_not_confused. C86_class and C86_leak_partial are what holds: nothing but the fitting keys and the roster commitment is visible, for arbitrary, also maliciously issued, credentials with non-identity nonce. C43_tagged_linkable is a concrete case."
  },
  {
   "property": "C87",
   "status": "proved",
   "theorems": [
    "Verif.C87_draws",
    "Verif.C87_zero_knowledge",
    "Verif.C87_presentation_simulatable",
    "Verif.C87_issuance_simulatable",
    "Verif.C87_unlinkable",
    "Verif.C87_unforgeable"
   ],
   "note": "C87_draws for any number of draws. The drawn servers (Spec.drawn, Spec.drawnShow, Spec.drawnIssue, Spec.Present.Attack.drawn) are C81-C84 and C86 with each uniform scalar replaced by Spec.coin of 64 uniform bytes, which is how C43_show_is_present and C83_issue_is_issued name the scalars of the code. In C87_unforgeable the logarithm of h is uniform over ZMod l, as h is not drawn as a scalar, and the watched users have tags with any non-identity nonces. That the reads of ChaCha20 and of merlin are uniform bytes is assumed."
  },
  {
   "property": "C88",
   "status": "proved",
   "theorems": [
    "Verif.C88_show_program",
    "Verif.C88_issue_program",
    "Verif.C88_one_result",
    "Verif.C88_show_distinct",
    "Verif.C88_issue_distinct",
    "Verif.C88_presentation",
    "Verif.C88_unlinkable",
    "Verif.C88_issuance"
   ],
   "note": "C88_show_program and C88_issue_program: the programs are the model of the code, for every hash and generator O and every caller RNG; the tape lists the outside bytes in the order drawn, and C88_one_result says that the program has no other result. C88_show_distinct, C88_issue_distinct: no read is repeated. In the games hash and generators are sampled lazily (Program.run); the observer sees neither the keys nor the outside bytes. That merlin behaves like two independent random functions is assumed (DESIGN section 4)."
  },
  {
   "property": "C89",
   "status": "proved",
   "theorems": [
    "Verif.C89_issue",
    "Verif.C89_watch",
    "Verif.C89_unforgeable"
   ],
   "note": "C89_unforgeable is the bound. C89_issue and C89_watch tie the requests of the game to the model's Issuer::issue and SignalUser::show, for every hash, generator and caller RNG, and say that the elements in the adversary's combinations are those that are sent. Winning is, as in C84, acceptance by the model's verify and verify_roster_membership (Shows, Belongs). Adversaries are algebraic (as in C84); each item in the inputs on which they ask the hash and read generators is fixed bytes or the encoding of a combination of received elements."
  },
  {
   "property": "C90",
   "status": "proved",
   "theorems": [
    "Verif.C90_code",
    "Verif.C90_secure",
    "Verif.C90_needed",
    "Verif.C90_reused_nonce"
   ],
   "note": "Tight reductions in both directions, with explicit algorithms: C90_secure (any number of encryptions) and C90_needed (one encryption). That the problem is hard for Ristretto255 is not assumed anywhere; the theorems compare advantages. C90_code ties the game to Keypair::generate, Ephemeral::new and PhoneNumber::encrypt. C90_reused_nonce shows what a repeated nonce reveals."
  },
  {
   "property": "C91",
   "status": "partial",
   "theorems": [
    "Verif.C91_copies_partial",
    "Verif.C91_false"
   ],
   "note": "False of the code: C91_false. An adversary that watches one user and sends the same message is accepted by verify and verify_roster_membership with probability at least 1 - 1/l, because neither show nor verify involves a challenge, a time or the other party. C91_copies_partial: exact copies are the only thing that works; anything else is accepted with probability at most (8n^2+5n+1)/l in n steps. Same game and assumptions as C84 (algebraic adversary, random hash, uniform scalars)."
  },
  {
   "property": "C92",
   "status": "partial",
   "theorems": [
    "Verif.C92_seed",
    "Verif.C92_known_seed",
    "Verif.C92_only_repetition_partial",
    "Verif.C92_false"
   ],
   "note": "False of the code: C92_false (an observer without hash queries that compares nonces says yes with probability 1 if a user presents twice with one seed, and 1/l if the seed or the user differs), because the blinding values depend on the caller's generator only (C92_seed). C92_known_seed: whoever knows the seed computes the tag of the credential from a presentation and can check guesses of the number. C92_only_repetition_partial is what holds: if each unknown seed is used with one credential only, then nothing but the pattern of repetition and the roster commitments is visible, with advantage at most 4n(q+2n)/l. Uniform scalars for distinct seeds, random hash, fresh proof randomness, as in C82; C88 bounds the difference from the real generators for fresh seeds."
  },
  {
   "property": "C93",
   "status": "proved",
   "theorems": [
    "Verif.C93_code",
    "Verif.C93_code_converse",
    "Verif.C93_program",
    "Verif.C93_reduction",
    "Verif.C93_bound",
    "Verif.C93_cost",
    "Verif.C93_converse"
   ],
   "note": "C93_reduction: three runs of the adversary give a MAC on a number in V, or the logarithm of h; concrete bound, no restriction to algebraic adversaries. C93_bound: the same as an upper bound on the success probability. C93_cost: at most 3T MAC requests, all for issued numbers. C93_converse: forgers give accepted adversaries, so the two problems are equivalent up to the loss. C93_code, C93_code_converse: the same when the issuer runs Issuer::issue with its own transcript generators, which the adversary may read as well. C94 extends this to adversaries that also watch presentations of others."
  },
  {
   "property": "C94",
   "status": "proved",
   "theorems": [
    "Verif.C94_reduction",
    "Verif.C94_deputy",
    "Verif.C94_bound",
    "Verif.C94_cost",
    "Verif.C94_includes",
    "Verif.C94_code",
    "Verif.C94_code_bound",
    "Verif.C94_programs"
   ],
   "note": "C94_reduction: the success is at most that of an adversary that does not watch (to which C93 applies), plus what Spec.finder turns into the logarithm of h to the base g, plus 3(T+3)^2/l. C94_deputy: the adversary that does not watch makes one step more and gets nothing in V issued. C94_bound: as an upper bound. C94_cost: few candidates for the logarithm. C94_includes: the game is that of C93 for adversaries that do not watch. C94_code, C94_code_bound: the same when issuer and users run the code with its own transcript generators, which the adversary may read as well. Exact copies are accepted (C91_false)."
  },
  {
   "property": "C95",
   "status": "proved",
   "theorems": [
    "Verif.C95_parameters",
    "Verif.C95_create",
    "Verif.C95_setup",
    "Verif.C95_bound",
    "Verif.C95_finder"
   ],
   "note": "C95_parameters and C95_create: what hunt_and_peck and Issuer::create make of uniform bytes; C95_setup: the game with these is that of C94 with a uniform instance of the discrete logarithm problem and uniform keys, up to negligible terms; C95_bound: the resulting bound for the whole program; C95_finder: what the algorithm of C94 is asked for is exactly the exponent of the instance. Hash and transcript generators are random functions; hardness of MAC forgery and of discrete logarithms are hypotheses on explicit algorithms."
  },
  {
   "property": "C96",
   "status": "proved",
   "theorems": [
    "Verif.C96_code",
    "Verif.C96_code_bound",
    "Verif.C96_setup_bound",
    "Verif.C96_bound",
    "Verif.C96_reply",
    "Verif.C96_includes",
    "Verif.C96_cost"
   ],
   "note": "C96_bound: the bound of C94 for adversaries that also have bytes checked (decoding, SignalIssuer::verify, verify_roster_membership), in terms of an explicit algorithm (Spec.tester) that asks for MACs and for the truth of equations W = x0 U + x1 C, and of the algorithm of C94 for the discrete logarithm, which chooses the keys itself. C96_cost: at most 3(T+1) MACs and 24(T+1)^2 equations. C96_reply: the answers depend on the hash at two queries only. C96_includes: the game is that of C94 for adversaries that submit nothing. C96_code, C96_code_bound: the same when issuer and users run the code with its own transcript generators. C96_setup_bound: the same with parameters and keys from hunt_and_peck and Issuer::create. The assumption on the MAC is stronger than in C93 and C94, as the algorithm may ask for equations; it is the usual assumption for MACs whose verifier can be queried."
  },
  {
   "property": "C97",
   "status": "proved",
   "theorems": [
    "Verif.C97_generic",
    "Verif.C97_cost",
    "Verif.C97_code"
   ],
   "note": "The linear combinations are the only use of group elements; C84 and C89 have the statement about whole presentations for such adversaries."
  },
  {
   "property": "C98",
   "status": "proved",
   "theorems": [
    "Verif.C98_mac",
    "Verif.C98_rerandomised",
    "Verif.C98_elgamal",
    "Verif.C98_commitment",
    "Verif.C98_parameters",
    "Verif.C98_presentation",
    "Verif.C98_signal",
    "Verif.C98_full",
    "Verif.C98_full_unique",
    "Verif.C98_with_parameters",
    "Verif.C98_phone",
    "Verif.C98_maths",
    "Verif.C98_count",
    "Verif.C98_code"
   ],
   "note": "`r n` is the state of the generator before the n-th call that reads it, and arbitrary; so the theorems also cover generators whose draws are related. The tests that call hunt_and_peck are taken with a bound on the number of draws; whether it returns is C48, C73 and C55."
  },
  {
   "property": "C99",
   "status": "partial",
   "theorems": [
    "Verif.C99_allocate",
    "Verif.C99_c_string",
    "Verif.C99_things",
    "Verif.C99_uniform",
    "Verif.C99_false",
    "Verif.C99_presses_partial",
    "Verif.C99_text"
   ],
   "note": "False as claimed: C99_false shows that with every allocator the application crashes, since it frees nothing. C99_presses_partial shows what each press gives until then. The rest is shown in full. UIKit is not modelled."
  },
  {
   "property": "C100",
   "status": "partial",
   "theorems": [
    "Verif.C100_code",
    "Verif.C100_interface",
    "Verif.C100_entries",
    "Verif.C100_separate",
    "Verif.C100_false",
    "Verif.C100_shared_partial",
    "Verif.C100_needed"
   ],
   "note": "The claim is false: C100_false is the attack on the number of who knows the logarithm of h, and C100_needed shows that a decider of Diffie-Hellman triples suffices. C100_separate is the statement without assumptions for separate seeds, C100_shared_partial for one seed, under the decisional Diffie-Hellman assumption, for uniform h. C100_code and C100_interface tie the games to the code."
  },
  {
   "property": "C101",
   "status": "partial",
   "theorems": [
    "Verif.C101_injective",
    "Verif.C101_issuance_iff",
    "Verif.C101_presentation_iff",
    "Verif.C101_presentation_partial",
    "Verif.C101_signal_iff",
    "Verif.C101_presentation_false",
    "Verif.C101_proof_false",
    "Verif.C101_keypair_iff",
    "Verif.C101_keypair_partial",
    "Verif.C101_keypair_matched_partial",
    "Verif.C101_keypair_false",
    "Verif.C101_issuer_iff",
    "Verif.C101_user_iff_partial",
    "Verif.C101_user_false",
    "Verif.C101_signal_user_iff",
    "Verif.C101_decoded"
   ],
   "note": "C101_injective: true for fourteen types. False for key pairs (C101_keypair_false), presentations (C101_presentation_false), proofs (C101_proof_false) and users (C101_user_false); the _iff theorems say exactly which pairs share an encoding, the _partial ones that fixing the number of attributes is enough, and C101_decoded that decoded values are always told apart."
  },
  {
   "property": "C102",
   "status": "partial",
   "theorems": [
    "Verif.Print.C102_same_results",
    "Verif.Print.C102_same_calls",
    "Verif.Print.C102_printed",
    "Verif.Print.C102_partial",
    "Verif.Print.C102_number",
    "Verif.Print.C102_opening",
    "Verif.Print.C102_number_false",
    "Verif.Print.C102_opening_false",
    "Verif.Print.C102_false",
    "Verif.Print.C102_digits",
    "Verif.Print.C102_digits_false",
    "Verif.Print.C102_digits_partial",
    "Verif.Print.C102_serde"
   ],
   "note": "False of the code: bytes that do not decode as system parameters are printed. With a saved user where an issuer is expected that is the phone number, for every number of at most 26 bytes (C102_number_false, C102_false), with a roster entry where system parameters are expected the opening (C102_opening_false), and String::from prints numbers read in ASCII by try_from_bytes (C102_digits_false). C102_printed says exactly what can be printed, C102_partial that nothing of the arguments is if the system parameters in them are well-formed, C102_same_results and C102_same_calls that printing does not change results."
  },
  {
   "property": "C103",
   "status": "proved",
   "theorems": [
    "Verif.C103_many",
    "Verif.C103_many_bound",
    "Verif.C103_many_includes",
    "Verif.C103_code",
    "Verif.C103_setup",
    "Verif.C103_program",
    "Verif.C103_programs",
    "Verif.C103_reduction",
    "Verif.C103_bound",
    "Verif.C103_log",
    "Verif.C103_converse"
   ],
   "note": "C103_reduction: the success is at most e + e' + 3(T+2)^2/l, where two runs turn e into an opening of the entry and e' into the logarithm of h to the base g. C103_bound: as an upper bound. C103_many, C103_many_bound: for any number N of users, with N times the bound; C103_many_includes: one user is the case N = 1. C103_log: opening entries is finding the logarithm of a uniform element, if that of h is known. C103_converse: an algorithm that opens entries is accepted for them. C103_code, C103_setup, C103_program: the same, for N users, for the program as a whole, with parameters from hunt_and_peck, keys from Issuer::create, the openings from RosterEntryCommitment::create, and presentations from SignalUser::show with its own generators, which the adversary may read. C103_programs: what an owner does is these functions. Exact copies of presentations are accepted (C91_false)."
  },
  {
   "property": "C104",
   "status": "proved",
   "theorems": [
    "Verif.C104_watching",
    "Verif.C104_watching_bound",
    "Verif.C104_includes",
    "Verif.C104_code",
    "Verif.C104_setup",
    "Verif.C104_program",
    "Verif.C104_log",
    "Verif.C104_programs",
    "Verif.C104_reduction",
    "Verif.C104_bound",
    "Verif.C104_converse"
   ],
   "note": "C104_reduction: the success is at most e + e' + 2(T+1)^2/l, where two runs turn e into the logarithm of the public key (probability at least e^2/(T+1) - e/2^252), and one run gives the logarithm of h to the base g with probability e'. C104_bound: as an upper bound. C104_watching, C104_watching_bound: the same for adversaries that also watch presentations, with 4(T+1)^2/l. C104_includes: the others are among them. C104_log: both are logarithms of uniform elements. C104_converse: whoever finds the logarithm of the public key can issue. C104_code, C104_setup, C104_program: the same, with watching, for the program as a whole, with parameters from hunt_and_peck, keys from Issuer::create, issuances from Issuer::issue and presentations from SignalUser::show with their own generators, which the adversary may read. C104_programs: what the issuer does is Issuer::issue, and the user accepts it. The attributes in an issuance are not protected (C35): only key commitment, MAC and proof are compared."
  },
  {
   "property": "C105",
   "status": "proved",
   "theorems": [
    "Verif.C105_setup_checked",
    "Verif.C105_program_checked",
    "Verif.C105_credentials",
    "Verif.C105_credentials_bound",
    "Verif.C105_issuances",
    "Verif.C105_issuances_bound",
    "Verif.C105_includes",
    "Verif.C105_corrupted",
    "Verif.C105_checked",
    "Verif.C105_checked_bound",
    "Verif.C105_checked_includes",
    "Verif.C105_setup_credentials",
    "Verif.C105_setup_issuances",
    "Verif.C105_program_credentials",
    "Verif.C105_program_issuances"
   ],
   "note": "C105_credentials, C105_issuances: the success against N issuers is at most the sum of N successes in the games of C94 and C104 with one issuer, for adversaries with the same number of queries. C105_credentials_bound, C105_issuances_bound: as bounds, N times those of C94_bound and C104_watching_bound. C105_includes: one issuer is the case N = 1. C105_corrupted: the key of an issuer is enough to make its issuances, so issuers whose key was learnt have to be left out. C105_setup_credentials, C105_setup_issuances: for the program as a whole, with parameters from hunt_and_peck, keys from Issuer::create, and Issuer::issue and SignalUser::show with their own generators, which the adversary may read, the success differs by a stated negligible term. C105_program_credentials, C105_program_issuances: as bounds. C105_checked, C105_checked_bound: the same with presentations of the adversary that get checked, at most the sum of N successes in the game of C96, and N times C96_bound. C105_checked_includes: without such checks it is the game above. C105_setup_checked, C105_program_checked: for the program as a whole."
  },
  {
   "property": "C106",
   "status": "partial",
   "theorems": [
    "Verif.C106_scalar_partial",
    "Verif.C106_scalar_false",
    "Verif.C106_bytes_partial",
    "Verif.C106_bytes_false",
    "Verif.C106_length_false",
    "Verif.C106_phone_partial",
    "Verif.C106_phone_false",
    "Verif.C106_point",
    "Verif.C106_tag_false",
    "Verif.C106_issuer_partial",
    "Verif.C106_issuer_false",
    "Verif.C106_missing_partial",
    "Verif.C106_missing_false",
    "Verif.C106_checks",
    "Verif.C106_converted",
    "Verif.C106_issuance"
   ],
   "note": "True for the decoders of parameters and public keys (C106_point), for checks (C106_checks), issuances (C106_issuance), issuing (C106_issuer_partial), showing (C106_missing_partial), the length of requests (C106_bytes_partial) and of phone numbers to be encoded (C106_phone_partial). False: scalars from the group order on are said to have the high bit set also if it is clear (C106_scalar_false; C106_scalar_partial says when exactly); credentials of a wrong multiple of 32 bytes are said not to be a multiple of 32 bytes (C106_bytes_false); an undecodable tag in a credential gives a text about an issuer without parameters, an issuer with bytes appended one without secret key (C106_issuer_false); numbers and users that are too long give a text that data is missing (C106_missing_false); tags with bytes appended a text that a point cannot be decompressed (C106_tag_false); the length a message must have is that of the rejected key, or a number of attributes (C106_length_false); saved numbers that are too short are said to be too long, and commitments that are not points to be wrong proofs (C106_phone_false)."
  },
  {
   "property": "C107",
   "status": "proved",
   "theorems": [
    "Verif.C107_uniform",
    "Verif.C107_chosen",
    "Verif.C107_hidden",
    "Verif.C107_programs",
    "Verif.C107_g",
    "Verif.C107_opened",
    "Verif.C107_h"
   ],
   "note": "C107_hidden is the bound for openings from create with uniform bytes, C107_uniform the one for uniform openings. C107_chosen is the latter for an observer that chooses the numbers while it watches. C107_programs says that the entries and presentations of the game are those of RosterEntryCommitment::create and SignalUser::show. C107_opened shows that members who give their opening away show their number, C107_g and C107_h that the assumptions on g and h are needed and not checked by the decoder."
  },
  {
   "property": "C108",
   "status": "proved",
   "theorems": [
    "Verif.C108_denied",
    "Verif.C108_issued",
    "Verif.C108_accepted"
   ],
   "note": "C108_denied is the bound, C108_issued says that the credentials of a forgery are those that SignalIssuer::issue gives and obtain_finish accepts, C108_accepted that presentations with them are accepted."
  },
  {
   "property": "C109",
   "status": "proved",
   "theorems": [
    "Verif.C109_distinct",
    "Verif.C109_honest",
    "Verif.C109_replay",
    "Verif.C109_bytes"
   ],
   "note": "The remedy for C91_false. The server that remembers is Spec.accepted: it decodes the bytes, checks that the presentation is new, and runs verify and verify_roster_membership; the code has no such record. What it keeps of a presentation is a parameter f. C109_distinct (blinded attributes differ) and C109_honest (all are accepted, if f determines the blinded attributes) are the bound for honest users; C109_replay shows that nothing is accepted twice, for any f, C109_bytes that comparing bytes would not do. That anything but exact copies is refused is C91_copies_partial."
  }
 ]
}