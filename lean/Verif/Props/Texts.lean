import Verif.Props.Conversions
import Verif.Props.Issuance
import Verif.Props.Show

/-!
# C106: errors say what was wrong

The texts are written out here as in aeonflux/src/errors.rs and signal-credential/src/errors.rs, and compared with what is
true of the input when the error is returned.
-/

set_option maxRecDepth 100000

namespace Verif

open Amacs

variable {G : Type} [AddCommGroup G] [Module F G] [Ristretto G]

/-- The result is an error that is shown as `s`. -/
def Spec.Says {E α : Type} (text : E → String) (r : Res E α) (s : String) : Prop := ∃ e, r = .err e ∧ text e = s

namespace Texts

omit [AddCommGroup G] [Module F G] [Ristretto G] in
theorem mac {α : Type} {r : Res MacError α} (e : MacError) (h : r = .err e) (e' : MacError) :
    Spec.Says MacError.text r e'.text ↔ e = e' := by
  constructor
  · rintro ⟨d, hd, ht⟩
    rw [h] at hd
    cases hd
    exact C74_distinct.1 ht
  · rintro rfl
    exact ⟨e, h, rfl⟩

omit [AddCommGroup G] [Module F G] [Ristretto G] in
theorem cred {α : Type} {r : Res CredentialError α} (e : CredentialError) (h : r = .err e) (e' : CredentialError) :
    Spec.Says CredentialError.text r e'.text ↔ e = e' := by
  constructor
  · rintro ⟨d, hd, ht⟩
    rw [h] at hd
    cases hd
    exact C74_distinct.2.1 ht
  · rintro rfl
    exact ⟨e, h, rfl⟩

omit [AddCommGroup G] [Module F G] [Ristretto G] in
theorem ok {E α : Type} {text : E → String} {r : Res E α} {a : α} (h : r = .ok a) (s : String) :
    ¬ Spec.Says text r s := by
  rintro ⟨d, hd, -⟩
  rw [h] at hd
  cases hd

/-- Bytes are a list of reduced scalars if all blocks are below `ℓ`. -/
theorem blocks (n : ℕ) : ∀ b : Bytes, b.length = 32 * n →
    ((∃ xs : List Scalar, (∀ x ∈ xs, x.Reduced) ∧ b = (xs.map Scalar.toBytes).flatten) ↔
      ∀ k < n, leVal ((b.drop (32 * k)).take 32) < ell) := by
  induction n with
  | zero =>
    intro b hb
    rw [mul_zero, List.length_eq_zero_iff] at hb
    subst hb
    exact ⟨fun _ k hk => absurd hk (Nat.not_lt_zero k), fun _ => ⟨[], by simp, rfl⟩⟩
  | succ n ih =>
    intro b hb
    have hd : (b.drop 32).length = 32 * n := by rw [List.length_drop, hb]; omega
    constructor
    · rintro ⟨xs, h1, h2⟩ k hk
      cases xs with
      | nil => rw [h2] at hb; simp at hb
      | cons x xs =>
        have e1 : b.take 32 = x.toBytes := by
          rw [h2, List.map_cons, List.flatten_cons, List.take_left' (by simp)]
        have e2 : b.drop 32 = (xs.map Scalar.toBytes).flatten := by
          rw [h2, List.map_cons, List.flatten_cons, List.drop_left' (by simp)]
        cases k with
        | zero =>
          rw [mul_zero, List.drop_zero, e1, Scalar.leVal_toBytes]
          exact h1 x (by simp)
        | succ k =>
          have := (ih _ hd).1 ⟨xs, fun y hy => h1 y (by simp [hy]), e2⟩ k (by omega)
          rwa [List.drop_drop, show 32 + 32 * k = 32 * (k + 1) by ring] at this
    · intro h
      obtain ⟨xs, h1, h2⟩ := (ih _ hd).2 fun k hk => by
        rw [List.drop_drop, show 32 + 32 * k = 32 * (k + 1) by ring]
        exact h (k + 1) (by omega)
      have h0 := h 0 (by omega)
      rw [mul_zero, List.drop_zero] at h0
      have hl : (b.take 32).length = 32 := by rw [List.length_take, hb]; omega
      refine ⟨⟨leVal (b.take 32), h0.trans (by decide)⟩ :: xs, ?_, ?_⟩
      · intro x hx
        rcases List.mem_cons.1 hx with rfl | hx
        · exact h0
        · exact h1 x hx
      · rw [List.map_cons, List.flatten_cons, ← h2]
        conv_lhs => rw [← List.take_append_drop 32 b]
        congr 1
        exact leVal_inj (by rw [hl]; simp) (by rw [Scalar.leVal_toBytes])

/-- The same, the other way round. -/
theorem bad_block {b : Bytes} (hb : b.length % 32 = 0) :
    (∀ xs : List Scalar, (∀ x ∈ xs, x.Reduced) → b ≠ (xs.map Scalar.toBytes).flatten) ↔
      ∃ k, 32 * k < b.length ∧ ell ≤ leVal ((b.drop (32 * k)).take 32) := by
  have h := blocks (b.length / 32) b (by omega)
  constructor
  · intro hx
    have h' : ¬ ∀ k < b.length / 32, leVal ((b.drop (32 * k)).take 32) < ell := fun g => by
      obtain ⟨xs, h1, h2⟩ := h.2 g
      exact hx xs h1 h2
    push Not at h'
    obtain ⟨k, hk, hv⟩ := h'
    exact ⟨k, by omega, hv⟩
  · rintro ⟨k, hk, hv⟩ xs h1 h2
    exact absurd (h.1 ⟨xs, h1, h2⟩ k (by omega)) (not_lt.2 hv)

end Texts

/-! ## Scalars -/

/-- **C106.** Exactly when `SecretKey::from_bytes` and `CredentialRequest::from_bytes` say "Cannot use scalar with high-bit
set": if the length is right and some 32-byte block is not below the group order. Missing, as it is false
(`C106_scalar_false`): that the high bit of such a block is set. -/
theorem C106_scalar_partial (b : Bytes) :
    (Spec.Says MacError.text (SecretKey.fromBytes b) "Cannot use scalar with high-bit set" ↔
      b.length % 32 = 0 ∧ ∃ k, 32 * k < b.length ∧ ell ≤ leVal ((b.drop (32 * k)).take 32)) ∧
    (Spec.Says CredentialError.text (CredentialRequest.fromBytes b) "Cannot use scalar with high-bit set" ↔
      b.length % 32 = 0 ∧ ∃ k, 32 * k < b.length ∧ ell ≤ leVal ((b.drop (32 * k)).take 32)) := by
  by_cases hl : b.length % 32 = 0
  · by_cases hx : ∀ xs : List Scalar, (∀ x ∈ xs, x.Reduced) → b ≠ (xs.map Scalar.toBytes).flatten
    · have hk := (Texts.bad_block hl).1 hx
      have hne : b ≠ [] := by
        rintro rfl
        obtain ⟨k, h, -⟩ := hk
        exact absurd h (Nat.not_lt_zero _)
      exact ⟨⟨fun _ => ⟨hl, hk⟩, fun _ => (Texts.mac _ (C04_bad_scalar hne hl hx) .scalarFormatError).2 rfl⟩,
        ⟨fun _ => ⟨hl, hk⟩, fun _ => (Texts.cred _ (C07_request_bad_scalar hl hx) .scalarFormatError).2 rfl⟩⟩
    · have hk : ¬ ∃ k, 32 * k < b.length ∧ ell ≤ leVal ((b.drop (32 * k)).take 32) := fun h =>
        hx ((Texts.bad_block hl).2 h)
      push Not at hx
      obtain ⟨xs, h1, h2⟩ := hx
      refine ⟨⟨fun h => ?_, fun h => absurd h.2 hk⟩, ⟨fun h => ?_, fun h => absurd h.2 hk⟩⟩
      · cases xs with
        | nil =>
          obtain ⟨e, he, -⟩ := h
          rw [h2] at he
          rw [show (([] : List Scalar).map Scalar.toBytes).flatten = [] from rfl, C04_empty_panics] at he
          cases he
        | cons x xs =>
          exact absurd h (Texts.ok ((C04_ok_iff b ⟨x, xs⟩).2 ⟨⟨h1 x (by simp), fun y hy => h1 y (by simp [hy])⟩, h2⟩) _)
      · exact absurd h (Texts.ok ((C07_request_ok_iff b ⟨xs⟩).2 ⟨h1, h2⟩) _)
  · refine ⟨⟨fun h => ?_, fun h => absurd h.1 hl⟩, ⟨fun h => ?_, fun h => absurd h.1 hl⟩⟩
    · exact absurd ((Texts.mac _ (C04_wrong_length hl) .scalarFormatError).1 h) nofun
    · exact absurd ((Texts.cred _ (C07_request_wrong_length hl) .scalarFormatError).1 h) nofun

/-- **C106.** False: the text "Cannot use scalar with high-bit set" is also returned for scalars whose high bit is clear, for
all those from the group order on. -/
theorem C106_scalar_false {b : Bytes} (hb : b.length = 32) (h1 : ell ≤ leVal b) (_h2 : leVal b < 2 ^ 255) :
    Spec.Says MacError.text (SecretKey.fromBytes b) "Cannot use scalar with high-bit set" ∧
    Spec.Says CredentialError.text (CredentialRequest.fromBytes b) "Cannot use scalar with high-bit set" ∧
    ∀ t : Tag G, Spec.Says CredentialError.text (Credential.fromBytes (t.toBytes ++ b) : Res _ (Credential G))
      "Cannot use scalar with high-bit set" := by
  have hk : b.length % 32 = 0 ∧ ∃ k, 32 * k < b.length ∧ ell ≤ leVal ((b.drop (32 * k)).take 32) :=
    ⟨by omega, 0, by omega, by rwa [mul_zero, List.drop_zero, List.take_of_length_le (by omega)]⟩
  refine ⟨(C106_scalar_partial b).1.2 hk, (C106_scalar_partial b).2.2 hk, fun t => ?_⟩
  have ht : t.toBytes.length = 64 := by simp [Tag.toBytes]
  refine (Texts.cred _ ((C07_credential_bad (by rw [List.length_append, ht, hb])).2
    ⟨t.nonce, t.mac, by rw [List.take_left' ht]; rfl⟩ fun a ha he => ?_) .scalarFormatError).2 rfl
  rw [List.drop_left' ht] at he
  rw [he, Scalar.leVal_toBytes] at h1
  exact absurd ha (not_lt.2 h1)

/-- The group order itself. -/
example : (leBytes 32 ell).length = 32 ∧ ell ≤ leVal (leBytes 32 ell) ∧ leVal (leBytes 32 ell) < 2 ^ 255 ∧
    (leBytes 32 ell)[31]? = some 16 := by
  refine ⟨by decide +kernel, by decide +kernel, by decide +kernel, by decide +kernel⟩

/-! ## Lengths -/

/-- **C106.** `CredentialRequest::from_bytes` says "not a multiple of 32 bytes" for such inputs only. Missing, as it is false
(`C106_bytes_false`): `Credential::from_bytes`. -/
theorem C106_bytes_partial (b : Bytes) :
    (Spec.Says CredentialError.text (CredentialRequest.fromBytes b)
      "The credential could not be deserialised because it was not a multiple of 32 bytes" ↔ b.length % 32 ≠ 0) ∧
    (Spec.Says CredentialError.text (Credential.fromBytes b : Res _ (Credential G))
      "The credential could not be deserialised because it was not a multiple of 32 bytes" ↔ b.length ≠ 96) := by
  constructor
  · refine ⟨fun h hl => ?_, fun h => (Texts.cred _ (C07_request_wrong_length h) .wrongNumberOfBytes).2 rfl⟩
    by_cases hx : ∀ xs : List Scalar, (∀ x ∈ xs, x.Reduced) → b ≠ (xs.map Scalar.toBytes).flatten
    · exact absurd ((Texts.cred _ (C07_request_bad_scalar hl hx) .wrongNumberOfBytes).1 h) nofun
    · push Not at hx
      obtain ⟨xs, h1, h2⟩ := hx
      exact absurd h (Texts.ok ((C07_request_ok_iff b ⟨xs⟩).2 ⟨h1, h2⟩) _)
  · refine ⟨fun h hl => ?_, fun h => (Texts.cred _ (C07_credential_wrong_length h) .wrongNumberOfBytes).2 rfl⟩
    by_cases hp : ∃ p q : G, b.take 64 = enc p ++ enc q
    · by_cases ha : ∀ a : Scalar, a.Reduced → b.drop 64 ≠ a.toBytes
      · exact absurd ((Texts.cred _ ((C07_credential_bad hl).2 hp ha) .wrongNumberOfBytes).1 h) nofun
      · push Not at ha
        obtain ⟨a, ha, hd⟩ := ha
        obtain ⟨p, q, hp⟩ := hp
        refine absurd h (Texts.ok ((C07_credential_ok_iff b ⟨⟨p, q⟩, [a]⟩).2 ⟨a, ha, rfl, ?_⟩) _)
        rw [← hp, ← hd, List.take_append_drop]
    · push Not at hp
      exact absurd ((Texts.cred _ ((C07_credential_bad hl).1 hp) .wrongNumberOfBytes).1 h) nofun

/-- **C106.** False: a credential of any multiple of 32 bytes but 96 is said not to be a multiple of 32 bytes. -/
theorem C106_bytes_false {b : Bytes} (_h1 : b.length % 32 = 0) (h2 : b.length ≠ 96) :
    Spec.Says CredentialError.text (Credential.fromBytes b : Res _ (Credential G))
      "The credential could not be deserialised because it was not a multiple of 32 bytes" :=
  (C106_bytes_partial b).2.2 h2

example : (List.replicate 128 (0 : UInt8)).length % 32 = 0 ∧ (List.replicate 128 (0 : UInt8)).length ≠ 96 := by
  simp

/-- **C106.** The length in "Message must be … bytes in length". False: for keys it is the length of the input, which is never
right (`C74_length_false`); for MACs it is the right number, but of attributes, which have 32 bytes each. -/
theorem C106_length_false (b : Bytes) (n : ℕ) :
    (Spec.Says MacError.text (PublicKey.fromBytes b : Res _ (PublicKey G))
      ("Message must be " ++ Nat.repr n ++ " bytes in length") ↔ b.length % 32 ≠ 0 ∧ n = b.length) ∧
    (Spec.Says MacError.text (SecretKey.fromBytes b)
      ("Message must be " ++ Nat.repr n ++ " bytes in length") ↔ b.length % 32 ≠ 0 ∧ n = b.length) ∧
    ∀ {R : Type} [RngCore R] (k : SecretKey) (m : List Scalar) (r : R),
      Spec.Says MacError.text (k.mac (G := G) m r).1 ("Message must be " ++ Nat.repr n ++ " bytes in length") ↔
        m.length ≠ k.xn.length ∧ n = k.xn.length := by
  have key : ∀ {α : Type} {x : Res MacError α} (e : MacError) (_ : x = .err e),
      Spec.Says MacError.text x ("Message must be " ++ Nat.repr n ++ " bytes in length") ↔ e = .messageLengthError n :=
    fun e h => Texts.mac e h (.messageLengthError n)
  refine ⟨?_, ?_, fun k m r => ?_⟩
  · by_cases hl : b.length % 32 = 0
    · refine iff_of_false (fun h => ?_) (fun h => h.1 hl)
      by_cases hx : ∀ Xs : List G, b ≠ (Xs.map enc).flatten
      · exact absurd ((key _ (C03_bad_point hl hx)).1 h) nofun
      · push Not at hx
        obtain ⟨Xs, hx⟩ := hx
        exact Texts.ok ((C03_ok_iff b ⟨Xs⟩).2 hx) _ h
    · rw [key _ (C03_wrong_length hl)]
      simp [hl, eq_comm]
  · by_cases hl : b.length % 32 = 0
    · refine iff_of_false (fun h => ?_) (fun h => h.1 hl)
      by_cases hb : b = []
      · rw [hb, C04_empty_panics] at h
        obtain ⟨e, he, -⟩ := h
        cases he
      by_cases hx : ∀ xs : List Scalar, (∀ x ∈ xs, x.Reduced) → b ≠ (xs.map Scalar.toBytes).flatten
      · exact absurd ((key _ (C04_bad_scalar hb hl hx)).1 h) nofun
      · push Not at hx
        obtain ⟨xs, hr, hx⟩ := hx
        cases xs with
        | nil => exact hb hx
        | cons x xs => exact Texts.ok ((C04_ok_iff b ⟨x, xs⟩).2
            ⟨⟨hr x List.mem_cons_self, fun y hy => hr y (List.mem_cons_of_mem _ hy)⟩, hx⟩) _ h
    · rw [key _ (C04_wrong_length hl)]
      simp [hl, eq_comm]
  · by_cases hl : m.length = k.xn.length
    · refine iff_of_false (fun h => ?_) (fun h => h.1 hl)
      obtain ⟨t, ht, -⟩ := C21_mac_valid (G := G) k m r hl.symm
      exact Texts.ok ht _ h
    · have e : (k.mac (G := G) m r).1 = .err (.messageLengthError k.xn.length) := by
        rw [SecretKey.mac, if_pos fun h => hl h.symm]
      rw [key _ e]
      simp [hl, eq_comm]

/-- A key for two attributes and one attribute: "Message must be 2 bytes in length". -/
example : Spec.Says MacError.text (SecretKey.mac (G := F) ⟨1, [1 + 1, 1]⟩ [1] (⟨0⟩ : ToyRng)).1
    "Message must be 2 bytes in length" :=
  ((C106_length_false (G := F) [] 2).2.2 _ _ _).2 (by decide)

/-- **C106.** Phone numbers are said to have more than 32 bytes if and only if they have. Missing, as it is false
(`C106_phone_false`): `PhoneNumber::from_bytes`. -/
theorem C106_phone_partial (b : Bytes) :
    (Spec.Says PhoneNumberError.text (PhoneNumber.tryFromBytes b)
      "A canonicalised phone number cannot be more than 32 bytes" ↔ 32 < b.length) ∧
    (Spec.Says PhoneNumberError.text (PhoneNumber.tryFromString b)
      "A canonicalised phone number cannot be more than 32 bytes" ↔ 32 < b.length) :=
  ⟨⟨fun ⟨e, he, _⟩ => ((C16_bytes_err_iff b e).1 he).1,
      fun h => ⟨.lengthExceeded, (C16_bytes_err_iff b _).2 ⟨h, rfl⟩, rfl⟩⟩,
    ⟨fun ⟨e, he, _⟩ => (((C16_string_outcome b).2.2 e).1 he).1,
      fun h => ⟨.lengthExceeded, ((C16_string_outcome b).2.2 _).2 ⟨h, rfl⟩, rfl⟩⟩⟩

/-- **C106.** False: `PhoneNumber::from_bytes` says that fewer than 32 bytes are more than 32 bytes, and a commitment that is not a
point is said to be a proof of roster membership that could not be verified. -/
theorem C106_phone_false (b : Bytes) :
    (b.length < 32 → Spec.Says PhoneNumberError.text (PhoneNumber.fromBytes b)
      "A canonicalised phone number cannot be more than 32 bytes") ∧
    (b.length = 32 → (∀ P : G, b ≠ enc P) → Spec.Says PhoneNumberError.text (CommittedPhoneNumber.fromBytes b : Res _ G)
      "The user's proof of roster membership could not be verified") :=
  ⟨fun h => ⟨.lengthExceeded, (C74_too_short b _).2 ⟨by omega, rfl⟩, rfl⟩, fun h hP =>
    ⟨.invalidPhoneNumber, (C74_roster_text h hP).1, (C74_roster_text h hP).2⟩⟩

example : ([1] : Bytes).length < 32 ∧ (List.replicate 32 (255 : UInt8)).length = 32 ∧
    ∀ P : F, List.replicate 32 255 ≠ enc P := by
  refine ⟨by decide, by decide, fun P h => ?_⟩
  have := (dec_eq_some (b := List.replicate 32 255) (P := P)).2 h.symm
  rw [show (dec (List.replicate 32 255) : Option F) = none by decide +kernel] at this
  cases this

/-! ## Points -/

/-- **C106.** The decoders of parameters say that a point cannot be decompressed, or that parameters are missing, if and only
if it is so. -/
theorem C106_point (b : Bytes) :
    (Spec.Says CredentialError.text (SystemParameters.fromBytes b : Res _ (SystemParameters G))
      "Cannot decompress Ristretto point" ↔ b.length = 64 ∧ ∀ p q : G, b ≠ enc p ++ enc q) ∧
    (Spec.Says CredentialError.text (SystemParameters.fromBytes b : Res _ (SystemParameters G))
      "The system parameters were not initialised" ↔ b.length ≠ 64) ∧
    (Spec.Says MacError.text (PublicKey.fromBytes b : Res _ (PublicKey G))
      "Cannot decompress Ristretto point" ↔ b.length % 32 = 0 ∧ ∀ Xs : List G, b ≠ (Xs.map enc).flatten) := by
  refine ⟨?_, ?_, ?_⟩
  · refine ⟨fun h => ?_, fun h => (Texts.cred _ (C01_bad_point h.1 h.2) .pointDecompressionError).2 rfl⟩
    by_cases hl : b.length = 64
    · refine ⟨hl, fun p q he => ?_⟩
      exact absurd h (Texts.ok ((C01_ok_iff b ⟨p, q⟩).2 he) _)
    · exact absurd ((Texts.cred _ (C01_wrong_length hl) .pointDecompressionError).1 h) nofun
  · refine ⟨fun h hl => ?_, fun h => (Texts.cred _ (C01_wrong_length h) .noSystemParameters).2 rfl⟩
    by_cases hp : ∀ p q : G, b ≠ enc p ++ enc q
    · exact absurd ((Texts.cred _ (C01_bad_point hl hp) .noSystemParameters).1 h) nofun
    · push Not at hp
      obtain ⟨p, q, he⟩ := hp
      exact absurd h (Texts.ok ((C01_ok_iff b ⟨p, q⟩).2 he) _)
  · refine ⟨fun h => ?_, fun h => (Texts.mac _ (C03_bad_point h.1 h.2) .pointDecompressionError).2 rfl⟩
    by_cases hl : b.length % 32 = 0
    · refine ⟨hl, fun Xs he => ?_⟩
      exact absurd h (Texts.ok ((C03_ok_iff b ⟨Xs⟩).2 he) _)
    · exact absurd ((Texts.mac _ (C03_wrong_length hl) .pointDecompressionError).1 h) nofun

/-- The first condition can be met. -/
example : (List.replicate 64 (255 : UInt8)).length = 64 ∧ ∀ p q : F, List.replicate 64 255 ≠ enc p ++ enc q := by
  refine ⟨by simp, fun p q h => ?_⟩
  have h1 := Ristretto.dec_enc p
  have h2 : enc p = List.replicate 32 255 := by
    have := congrArg (List.take 32) h
    rw [List.take_left' (by simp)] at this
    rw [← this]
    simp
  have h3 : dec (List.replicate 32 255) = (none : Option F) := by decide +kernel
  rw [h2, h3] at h1
  cases h1

/-- **C106.** False of tags: one with bytes appended is said to have a point that cannot be decompressed, although both can. -/
theorem C106_tag_false (t : Tag G) {rest : Bytes} (h : rest ≠ []) :
    Spec.Says MacError.text (Tag.fromBytes (t.toBytes ++ rest) : Res _ (Tag G)) "Cannot decompress Ristretto point" := by
  refine (Texts.mac _ (C02_otherwise fun p q he => h ?_) .pointDecompressionError).2 rfl
  have := congrArg List.length he
  simp only [Tag.toBytes, List.length_append, enc_length] at this
  exact List.length_eq_zero_iff.1 (by omega)

example : ([0] : Bytes) ≠ [] := by simp

/-! ## Issuers -/

/-- **C106.** `Issuer::issue` says that the issuer has no parameters, no secret key, or that the MAC could not be created, if
and only if it is so. Missing, as it is false (`C106_issuer_false`): decoders. -/
theorem C106_issuer_partial {R : Type} [RngCore R] (O : Oracle) (i : Issuer G) (rq : CredentialRequest) (rng : R)
    (entropy : Bytes) :
    (Spec.Says CredentialError.text (i.issue O rq rng entropy).1
      "The issuer was not initialised properly and has no parameters" ↔ i.keypair.publicKey.Xn = []) ∧
    (Spec.Says CredentialError.text (i.issue O rq rng entropy).1
      "The issuer was not initialised properly and has no secret key" ↔
        i.keypair.publicKey.Xn ≠ [] ∧ i.keypair.secretKey.xn = []) ∧
    (Spec.Says CredentialError.text (i.issue O rq rng entropy).1 "Could not create a MAC" ↔
        i.keypair.publicKey.Xn ≠ [] ∧ i.keypair.secretKey.xn ≠ [] ∧
          i.keypair.secretKey.xn.length ≠ rq.attributesRevealed.length) := by
  obtain ⟨h1, h2, h3, h4⟩ := C46_outcomes O i rq rng entropy
  by_cases a : i.keypair.publicKey.Xn = []
  · have := Texts.cred _ (h1 a)
    exact ⟨(this .noIssuerParameters).trans (by simp [a]), (this .noIssuerKey).trans (by simp [a]),
      (this .macCreation).trans (by simp [a])⟩
  · by_cases b : i.keypair.secretKey.xn = []
    · have := Texts.cred _ (h2 a b)
      exact ⟨(this .noIssuerParameters).trans (by simp [a]), (this .noIssuerKey).trans (by simp [a, b]),
        (this .macCreation).trans (by simp [b])⟩
    · by_cases c : i.keypair.secretKey.xn.length = rq.attributesRevealed.length
      · obtain ⟨k, hk⟩ := h4 a b c
        have := fun s => Texts.ok (text := CredentialError.text) hk s
        exact ⟨iff_of_false (this _) a, iff_of_false (this _) fun h => b h.2, iff_of_false (this _) fun h => h.2.2 c⟩
      · have := Texts.cred _ (h3 a b c)
        exact ⟨(this .noIssuerParameters).trans (by simp [a]), (this .noIssuerKey).trans (by simp [b]),
          (this .macCreation).trans (by simp [a, b, c])⟩

/-- **C106.** False of decoders. A credential whose tag does not decode is rejected with the text that the issuer has no
parameters, although there is no issuer; an issuer followed by some bytes with the text that it has no secret key, although
the key is there. -/
theorem C106_issuer_false :
    (∀ b : Bytes, b.length = 96 → (∀ p q : G, b.take 64 ≠ enc p ++ enc q) →
      Spec.Says CredentialError.text (Credential.fromBytes b : Res _ (Credential G))
        "The issuer was not initialised properly and has no parameters") ∧
    ∀ (checks : Bool) (b rest : Bytes) (i : Issuer G), Issuer.fromBytes checks b = .ok i → rest.length % 64 ≠ 0 →
      i.keypair.secretKey.xn ≠ [] ∧
      Spec.Says CredentialError.text (Issuer.fromBytes checks (b ++ rest) : Res _ (Issuer G))
        "The issuer was not initialised properly and has no secret key" := by
  refine ⟨fun b hb hp => (Texts.cred _ ((C07_credential_bad hb).1 hp) .noIssuerParameters).2 rfl, ?_⟩
  intro checks b rest i hi hr
  refine ⟨(C06_has_key hi).2, ?_⟩
  obtain ⟨⟨h1, h2⟩, -, h3⟩ := (C06_ok_iff checks b i).1 hi
  have e1 : ((i.keypair.publicKey.Xn.map enc).flatten).length = 32 * i.keypair.publicKey.Xn.length := by
    rw [List.length_flatten, List.map_map]
    rw [List.map_congr_left (g := fun _ => 32) fun x _ => by simp]
    simp [mul_comm]
  have e2 : (((i.keypair.secretKey.x0 :: i.keypair.secretKey.xn).map Scalar.toBytes).flatten).length =
      32 * (i.keypair.publicKey.Xn.length + 1) := by
    rw [List.length_flatten, List.map_map]
    rw [List.map_congr_left (g := fun _ => 32) fun x _ => by simp]
    simp [h1]
    ring
  have hl : b.length = 64 + (32 * i.keypair.publicKey.Xn.length + 32 * (i.keypair.publicKey.Xn.length + 1)) := by
    conv_lhs => rw [h3]
    rw [List.length_append, List.length_append, List.length_append, e1, e2]
    simp
  have h64 : (b ++ rest).take 64 = enc i.systemParameters.g ++ enc i.systemParameters.h := by
    conv_lhs => rw [h3]
    rw [List.append_assoc _ _ rest, List.take_left' (by simp)]
  have h := ((C60_issuer_partial checks (b ++ rest)).2.2 (by rw [List.length_append]; omega) ⟨_, _, h64⟩).1
    (by rw [List.length_drop, List.length_append]; omega)
  exact (Texts.cred _ h .noIssuerKey).2 rfl

/-- An issuer to which this applies, and bytes that are not a tag. -/
example : (∃ i, (Issuer.fromBytes true (enc (1 : F) ++ enc (5 : F) ++ enc (5 : F) ++ Scalar.toBytes 1 ++ Scalar.toBytes 1) :
    Res _ (Issuer F)) = .ok i) ∧ ([0] : Bytes).length % 64 ≠ 0 := by
  refine ⟨⟨⟨⟨1, 5⟩, ⟨⟨[5]⟩, ⟨1, [1]⟩⟩⟩, ?_⟩, by simp⟩
  decide +kernel

/-! ## Missing data -/

/-- **C106.** Showing says that data is missing if and only if there is no credential. Missing, as it is false
(`C106_missing_false`): numbers and saved users that are too long. -/
theorem C106_missing_partial {R : Type} [RngCore R] (O : Oracle) (u : User G) (nonces : List Scalar) (rng : R)
    (entropy : Bytes) :
    Spec.Says CredentialError.text (u.show O nonces rng entropy).1 "Some data, such as a key or zkproof, was missing" ↔
      u.credential = none := by
  constructor
  · rintro ⟨e, he, -⟩
    exact ((C37_missing_iff O u nonces rng entropy e).1 he).1
  · intro h
    exact (Texts.cred _ ((C37_missing_iff O u nonces rng entropy .missingData).2 ⟨h, rfl⟩) .missingData).2 rfl

/-- **C106.** False: what is too long is rejected with the text that something is missing, both a number of more than 32 bytes
and a saved user of more than 256. -/
theorem C106_missing_false (sp : SystemParameters G) (ip : PublicKey G) (k : Option (Elgamal.Keypair G)) (b : Bytes) :
    (33 ≤ b.length → Spec.Says CredentialError.text (SignalUser.new sp ip k b)
      "Some data, such as a key or zkproof, was missing") ∧
    (257 ≤ b.length → Spec.Says CredentialError.text (User.fromBytes b : Res _ (User G))
      "Some data, such as a key or zkproof, was missing") :=
  ⟨fun h => (Texts.cred _ (C60_phone (R := ToyRng) toyOracle ⟨⟨sp, ⟨ip, ⟨0, []⟩⟩⟩⟩ sp ip k b h ⟨0⟩ []).2.1
      .missingData).2 rfl,
    fun h => (Texts.cred _ ((C60_user b).1 (by omega)) .missingData).2 rfl⟩

/-- A number with 33 digits. -/
example : 33 ≤ (List.replicate 33 (48 : UInt8)).length := by simp

/-! ## Checks -/

/-- **C106.** The texts that a MAC or a proof could not be verified are returned if and only if that is so: by
`SecretKey::verify`, and by issuers, for whatever they decoded. -/
theorem C106_checks [DecidableEq G] (O : Oracle) :
    (∀ (k : SecretKey) (t : Tag G) (m : List Scalar),
      Spec.Says MacError.text (k.verify t m) "MAC could not be authenticated" ↔
        ¬ (t.nonce ≠ basepoint G ∧ Spec.MacValid k t m)) ∧
    (∀ (checks : Bool) (b b' : Bytes) (i : SignalIssuer G) (p : SignalCredentialPresentation G),
      SignalIssuer.fromBytes checks b = .ok i → SignalCredentialPresentation.fromBytes b' = .ok p →
        (Spec.Says CredentialError.text (i.verify O p) "Could not verify a MAC" ↔ i.verify O p ≠ .ok ⟨p⟩)) ∧
    (∀ (checks : Bool) (b b' : Bytes) (i : SignalIssuer G) (p : SignalCredentialPresentation G),
      SignalIssuer.fromBytes checks b = .ok i → SignalCredentialPresentation.fromBytes b' = .ok p →
        (Spec.Says CredentialError.text (i.verifyRosterMembership O ⟨p⟩) "The proof could not be verified" ↔
          i.verifyRosterMembership O ⟨p⟩ ≠ .ok p.rosterEntryCommitment)) := by
  refine ⟨fun k t m => ?_, fun checks b b' i p hi hp => ?_, fun checks b b' i p hi hp => ?_⟩
  · rw [← C22_verify_iff]
    rcases C22_verify_total k t m with h | h
    · exact iff_of_false (Texts.ok h _) (not_not.2 h)
    · exact iff_of_true ((Texts.mac _ h .authenticationError).2 rfl) (by rw [h]; nofun)
  · have hv : VerifiedSignalCredential.fromBytes b' = .ok ⟨p⟩ := by rw [VerifiedSignalCredential.fromBytes, hp]; rfl
    rcases (C47_signal O hi hp hv).1 with h | h
    · exact iff_of_false (Texts.ok h _) (not_not.2 h)
    · exact iff_of_true ((Texts.cred _ h .macVerification).2 rfl) (by rw [h]; nofun)
  · have hv : VerifiedSignalCredential.fromBytes b' = .ok ⟨p⟩ := by rw [VerifiedSignalCredential.fromBytes, hp]; rfl
    rcases (C47_signal O hi hp hv).2 with h | h
    · exact iff_of_false (Texts.ok h _) (not_not.2 h)
    · exact iff_of_true ((Texts.cred _ h .verificationFailure).2 rfl) (by rw [h]; nofun)

/-- Both cases of the first statement occur. -/
example : SecretKey.verify ⟨1, [1 + 1]⟩ (⟨2, 6⟩ : Tag F) [1] = .ok () ∧
    SecretKey.verify ⟨1, [1 + 1]⟩ (⟨2, 5⟩ : Tag F) [1] = .err .authenticationError := by
  constructor <;> decide +kernel

/-- **C106.** What errors about MACs become when they are converted (aeonflux/src/errors.rs:120-135), for whoever uses `?`:
`Could not verify a MAC` again if and only if that is so, and each other text for one kind of error only. -/
theorem C106_converted [DecidableEq G] :
    (∀ (k : SecretKey) (t : Tag G) (m : List Scalar),
      Spec.Says CredentialError.text ((k.verify t m).mapErr CredentialError.ofMac) "Could not verify a MAC" ↔
        ¬ (t.nonce ≠ basepoint G ∧ Spec.MacValid k t m)) ∧
    ∀ e : MacError,
      ((CredentialError.ofMac e).text = "Could not verify a MAC" ↔ e.text = "MAC could not be authenticated") ∧
      ((CredentialError.ofMac e).text = "Could not create a MAC" ↔ ∃ n, e = .messageLengthError n) ∧
      ((CredentialError.ofMac e).text = "The issuer was not initialised properly and has no secret key" ↔
        e.text = "Cannot deserialise keypair") ∧
      ((CredentialError.ofMac e).text = "The issuer was not initialised properly and has no parameters" ↔
        e.text = "Cannot decompress Ristretto point") ∧
      ((CredentialError.ofMac e).text = "Cannot use scalar with high-bit set" ↔
        e.text = "Cannot use scalar with high-bit set") := by
  have hc : ∀ (e : MacError) (c : CredentialError), (CredentialError.ofMac e).text = c.text ↔ CredentialError.ofMac e = c :=
    fun _ _ => C74_distinct.2.1.eq_iff
  have hm : ∀ e e' : MacError, e.text = e'.text ↔ e = e' := fun _ _ => C74_distinct.1.eq_iff
  refine ⟨fun k t m => ?_, fun e => ⟨(hc e .macVerification).trans (.trans ?_ (hm e .authenticationError).symm),
    (hc e .macCreation).trans ?_, (hc e .noIssuerKey).trans (.trans ?_ (hm e .keypairDeserialisation).symm),
    (hc e .noIssuerParameters).trans (.trans ?_ (hm e .pointDecompressionError).symm),
    (hc e .scalarFormatError).trans (.trans ?_ (hm e .scalarFormatError).symm)⟩⟩
  · rw [← C22_verify_iff]
    rcases C22_verify_total k t m with h | h
    · exact iff_of_false (Texts.ok (a := ()) (by rw [h]; rfl) _) (not_not.2 h)
    · exact iff_of_true ((Texts.cred .macVerification (by rw [h]; rfl) .macVerification).2 rfl) (by rw [h]; nofun)
  all_goals cases e <;> simp [CredentialError.ofMac]

/-- **C106.** What a user says about an issuance. -/
theorem C106_issuance (O : Oracle) (u : User G) (iss : Option (CredentialIssuance G)) :
    (Spec.Says CredentialError.text (u.obtainFinish O iss).1
      "The issuer was not initialised properly and has no parameters" ↔ iss ≠ none ∧ u.issuerParameters.Xn = []) ∧
    (Spec.Says CredentialError.text (u.obtainFinish O iss).1 "Failed to get a credential issued" ↔
      iss = none ∨ (∃ X Xs c, u.issuerParameters.Xn = X :: Xs ∧ iss = some c ∧
        IssuanceRevealed.verify O [.init "AEONFLUX ISSUANCE"] c.proof
          ⟨c.credential.mac.nonce, c.credential.mac.mac, c.secretKeyCommitment, u.systemParameters.g,
            u.systemParameters.h, X⟩ = false)) := by
  obtain ⟨h1, h2⟩ := C34_outcomes O u iss
  cases iss with
  | none =>
    have h : (u.obtainFinish O none).1 = .err .credentialIssuance := rfl
    exact ⟨(Texts.cred _ h .noIssuerParameters).trans (by simp), (Texts.cred _ h .credentialIssuance).trans (by simp)⟩
  | some c =>
    cases hX : u.issuerParameters.Xn with
    | nil =>
      have h := h2.2 ⟨by simp, hX⟩
      exact ⟨(Texts.cred _ h .noIssuerParameters).trans (by simp), (Texts.cred _ h .credentialIssuance).trans (by simp)⟩
    | cons X Xs =>
      cases hv : IssuanceRevealed.verify O [.init "AEONFLUX ISSUANCE"] c.proof
          ⟨c.credential.mac.nonce, c.credential.mac.mac, c.secretKeyCommitment, u.systemParameters.g,
            u.systemParameters.h, X⟩ with
      | true =>
        have h := h1.2 ⟨c, X, rfl, by rw [hX]; rfl, hv⟩
        refine ⟨iff_of_false (Texts.ok h _) (by simp), iff_of_false (Texts.ok h _) ?_⟩
        rintro (h | ⟨Y, Ys, d, hY, hd, hf⟩)
        · cases h
        · cases hY
          cases hd
          rw [hv] at hf
          cases hf
      | false =>
        have h : (u.obtainFinish O (some c)).1 = .err .credentialIssuance := by
          simp [User.obtainFinish, hX, Issuer.issuanceTranscript, hv]
        exact ⟨(Texts.cred _ h .noIssuerParameters).trans (by simp),
          (Texts.cred _ h .credentialIssuance).trans (iff_of_true rfl (.inr ⟨X, Xs, c, rfl, rfl, hv⟩))⟩

end Verif
