import Verif.Props.CodecBasic
import Verif.Lemmas.Bincode

/-!
# C08–C11: codecs of issuances, presentations and users
-/

namespace Verif

open Amacs

variable {G : Type} [AddCommGroup G] [Module F G] [Ristretto G]

theorem take_left {x y : Bytes} {n : ℕ} (h : x.length = n) : (x ++ y).take n = x := by
  rw [List.take_append_of_le_length (by omega), List.take_of_length_le (by omega)]

theorem drop_left {x y : Bytes} {n : ℕ} (h : x.length = n) : (x ++ y).drop n = y := by
  rw [List.drop_append_of_le_length (by omega), List.drop_of_length_le (by omega)]; simp

/-! ## C08 issuances -/

/-- Layout of a serialised issuance of one attribute `a`. -/
def Spec.issuance (C P Q : G) (a c x0 x1 x0t m1x1 : Scalar) : Bytes :=
  enc C ++ (enc P ++ enc Q ++ a.toBytes) ++ (Spec.field c ++ Spec.field x0 ++ Spec.field x1 ++
    Spec.field x0t ++ Spec.field m1x1)

theorem Spec.issuance_length (C P Q : G) (a c x0 x1 x0t m1x1 : Scalar) :
    (Spec.issuance C P Q a c x0 x1 x0t m1x1).length = 328 := by
  simp [Spec.issuance]

/-- An issuance the codec can represent: one canonical attribute and canonical proof scalars. -/
def Spec.IssuanceOK (i : CredentialIssuance G) (a : Scalar) : Prop :=
  i.credential.attributes = [a] ∧ a.Reduced ∧ i.proof.challenge.Reduced ∧
    i.proof.responses.x0.Reduced ∧ i.proof.responses.x1.Reduced ∧
    i.proof.responses.x0_tilde.Reduced ∧ i.proof.responses.m1x1.Reduced

/-- `Ok` exactly on inputs beginning with a serialisation; what follows is ignored. -/
theorem C08_ok_iff (b : Bytes) (i : CredentialIssuance G) :
    CredentialIssuance.fromBytes b = .ok i ↔ ∃ (a : Scalar) (rest : Bytes), Spec.IssuanceOK i a ∧
      b = Spec.issuance i.secretKeyCommitment i.credential.mac.nonce i.credential.mac.mac a
        i.proof.challenge i.proof.responses.x0 i.proof.responses.x1 i.proof.responses.x0_tilde
        i.proof.responses.m1x1 ++ rest := by
  have hs : SIZEOF_CREDENTIAL = 96 := rfl
  rw [CredentialIssuance.fromBytes, hs]
  by_cases hl : 128 ≤ b.length
  · obtain ⟨x, y, rfl, hx⟩ := exists_split (b := b) (n := 32) (by omega)
    obtain ⟨u, v, rfl, hu⟩ := exists_split (b := y) (n := 96) (by simp at hl; omega)
    rw [slice_left hx, slice_mid hx (by omega), ← List.append_assoc, sliceFrom_right (by simp; omega)]
    simp only [Res.ok_bind, Res.bind_eq_ok, C12_commitment_ok_iff, C07_credential_ok_iff,
      Res.ofOption_eq_ok, IssuanceRevealed.deserialize_eq_some]
    constructor
    · rintro ⟨C, ⟨r, hr⟩, cr, ⟨a, ha, h1, rfl⟩, p, ⟨h2, rest, rfl⟩, h3⟩
      cases h3
      have : r = [] := by
        apply List.length_eq_zero_iff.1
        have := congrArg List.length hr
        simp [hx] at this
        exact List.length_eq_zero_iff.2 this
      subst this
      refine ⟨a, rest, ⟨h1, ha, h2⟩, ?_⟩
      simp [Spec.issuance, hr]
    · rintro ⟨a, rest, ⟨h1, ha, h2⟩, h3⟩
      have e : Spec.issuance i.secretKeyCommitment i.credential.mac.nonce i.credential.mac.mac a
          i.proof.challenge i.proof.responses.x0 i.proof.responses.x1 i.proof.responses.x0_tilde
          i.proof.responses.m1x1 ++ rest =
          (enc i.secretKeyCommitment ++
            (enc i.credential.mac.nonce ++ enc i.credential.mac.mac ++ a.toBytes)) ++
          (Spec.field i.proof.challenge ++ Spec.field i.proof.responses.x0 ++
            Spec.field i.proof.responses.x1 ++ Spec.field i.proof.responses.x0_tilde ++
            Spec.field i.proof.responses.m1x1 ++ rest) := by
        simp [Spec.issuance]
      rw [e, append_eq_iff (by simp; omega), append_eq_iff (by simp [hx])] at h3
      obtain ⟨⟨rfl, rfl⟩, rfl⟩ := h3
      exact ⟨_, ⟨[], by simp⟩, _, ⟨a, ha, h1, rfl⟩, _, ⟨h2, rest, rfl⟩, rfl⟩
  · constructor
    · intro h
      exfalso
      rw [Res.bind_eq_ok] at h
      obtain ⟨s1, _, h⟩ := h
      rw [Res.bind_eq_ok] at h
      obtain ⟨C, _, h⟩ := h
      rw [slice_panic (by omega)] at h
      cases h
    · rintro ⟨a, rest, _, rfl⟩
      rw [List.length_append, Spec.issuance_length] at hl
      omega

theorem C08_toBytes (i : CredentialIssuance G) (a : Scalar) (h : Spec.IssuanceOK i a) :
    i.toBytes = Spec.issuance i.secretKeyCommitment i.credential.mac.nonce i.credential.mac.mac a
        i.proof.challenge i.proof.responses.x0 i.proof.responses.x1 i.proof.responses.x0_tilde
        i.proof.responses.m1x1 := by
  obtain ⟨h1, ha, h2, h3, h4, h5, h6⟩ := h
  rw [CredentialIssuance.toBytes, Credential.toBytes, h1, IssuanceRevealed.Proof.serialize,
    encScalars_of_reduced (by simp [h2, h3, h4, h5, h6])]
  simp [Spec.issuance, Pedersen.toBytes, Tag.toBytes]

theorem C08_roundtrip (i : CredentialIssuance G) (a : Scalar) (h : Spec.IssuanceOK i a) :
    CredentialIssuance.fromBytes i.toBytes = .ok i ∧ i.toBytes.length = 328 := by
  rw [C08_toBytes i a h]
  exact ⟨(C08_ok_iff _ _).2 ⟨a, [], h, by simp⟩, Spec.issuance_length ..⟩

example : let i : CredentialIssuance F := ⟨3, ⟨⟨4, 5⟩, [1]⟩, ⟨1, ⟨1, 0, 1, 0⟩⟩⟩
    CredentialIssuance.fromBytes i.toBytes = .ok i :=
  (C08_roundtrip _ 1 ⟨rfl, by decide, by decide, by decide, by decide, by decide, by decide⟩).1

/-- Decoding panics exactly on inputs shorter than 32 bytes and on inputs shorter than 128 bytes
that begin with a valid point. -/
theorem C08_panic_iff (b : Bytes) :
    (CredentialIssuance.fromBytes b : Res _ (CredentialIssuance G)) = .panic ↔
      b.length < 32 ∨ (b.length < 128 ∧ ∃ C : G, b.take 32 = enc C) := by
  have hs : SIZEOF_CREDENTIAL = 96 := rfl
  rw [CredentialIssuance.fromBytes, hs]
  by_cases h32 : 32 ≤ b.length
  · obtain ⟨x, y, rfl, hx⟩ := exists_split (b := b) (n := 32) h32
    rw [slice_left hx, take_left hx]
    simp only [Res.ok_bind]
    rw [Res.bind_eq_panic, C12_commitment_panic_iff]
    constructor
    · rintro (h | ⟨C, hC, h⟩)
      · omega
      right
      obtain ⟨r, hr⟩ := (C12_commitment_ok_iff _ _).1 hC
      have : r = [] := by
        apply List.length_eq_zero_iff.1
        have := congrArg List.length hr
        simp [hx] at this
        exact List.length_eq_zero_iff.2 this
      subst this
      refine ⟨?_, C, by simpa using hr⟩
      by_contra hl
      obtain ⟨u, v, rfl, hu⟩ := exists_split (b := y) (n := 96) (by simp at hl; omega)
      rw [slice_mid hx (by omega), ← List.append_assoc, sliceFrom_right (by simp; omega)] at h
      simp only [Res.ok_bind] at h
      rw [Res.bind_eq_panic] at h
      rcases h with h | ⟨c, _, h⟩
      · exact C07_credential_no_panic _ h
      rw [Res.bind_eq_panic] at h
      rcases h with h | ⟨p, _, h⟩
      · exact Res.ofOption_ne_panic h
      · cases h
    · rintro (h | ⟨h, C, rfl⟩)
      · omega
      right
      refine ⟨C, (C12_commitment_ok_iff _ _).2 ⟨[], by simp⟩, ?_⟩
      rw [slice_panic (by omega)]
      rfl
  · rw [slice_panic (by omega)]
    simp; omega

/-- The claim "short inputs are rejected with an error rather than a panic" is false. -/
theorem C08_short_panics : (CredentialIssuance.fromBytes [] : Res _ (CredentialIssuance G)) = .panic :=
  (C08_panic_iff []).2 (Or.inl (by simp))

/-- Full claim: no input panics. Missing: inputs shorter than 128 bytes (`C08_panic_iff`). -/
theorem C08_no_panic_partial {b : Bytes} (h : 128 ≤ b.length) :
    (CredentialIssuance.fromBytes b : Res _ (CredentialIssuance G)) ≠ .panic := by
  intro hp
  rcases (C08_panic_iff b).1 hp with h1 | ⟨h1, _⟩ <;> omega

example : (CredentialIssuance.fromBytes (List.replicate 130 7) : Res _ (CredentialIssuance F)) ≠ .panic :=
  C08_no_panic_partial (by simp)

/-- The errors, in order of precedence, for inputs long enough not to panic. -/
theorem C08_errors {b : Bytes} (h : 128 ≤ b.length) {e : CredentialError}
    (he : (CredentialIssuance.fromBytes b : Res _ (CredentialIssuance G)) = .err e) :
    ((∀ C : G, b.take 32 ≠ enc C) ∧ e = .missingData) ∨
    ((∃ C : G, b.take 32 = enc C) ∧
      (Credential.fromBytes ((b.drop 32).take 96) : Res _ (Credential G)) = .err e) ∨
    ((∃ C : G, b.take 32 = enc C) ∧
      (∃ c : Credential G, Credential.fromBytes ((b.drop 32).take 96) = .ok c) ∧
      e = .missingData) := by
  have hs : SIZEOF_CREDENTIAL = 96 := rfl
  rw [CredentialIssuance.fromBytes, hs] at he
  obtain ⟨x, y, rfl, hx⟩ := exists_split (b := b) (n := 32) (by omega)
  obtain ⟨u, v, rfl, hu⟩ := exists_split (b := y) (n := 96) (by simp at h; omega)
  rw [slice_left hx, slice_mid hx (by omega), ← List.append_assoc,
    sliceFrom_right (by simp; omega)] at he
  rw [take_left hx, drop_left hx, take_left hu]
  simp only [Res.ok_bind] at he
  rw [pedersen_of_length hx, Res.bind_eq_err, Res.ofOption_eq_err] at he
  rcases he with ⟨h1, rfl⟩ | ⟨C, hC, he⟩
  · left
    refine ⟨?_, rfl⟩
    rintro C rfl
    rw [dec_enc] at h1
    cases h1
  right
  rw [Res.ofOption_eq_ok, dec_eq_some] at hC
  rw [Res.bind_eq_err] at he
  rcases he with he | ⟨c, hc, he⟩
  · exact Or.inl ⟨⟨C, hC.symm⟩, he⟩
  right
  refine ⟨⟨C, hC.symm⟩, ⟨c, hc⟩, ?_⟩
  rw [Res.bind_eq_err, Res.ofOption_eq_err] at he
  rcases he with ⟨_, rfl⟩ | ⟨_, _, he⟩
  · rfl
  · cases he

/-- A concrete issuance that meets `IssuanceOK`, and a 128-byte input. -/
example : Spec.IssuanceOK (⟨3, ⟨⟨4, 5⟩, [1]⟩, ⟨1, ⟨1, 0, 1, 0⟩⟩⟩ : CredentialIssuance F) 1 :=
  ⟨rfl, by decide, by decide, by decide, by decide, by decide, by decide⟩

example : (CredentialIssuance.fromBytes (enc (3 : F) ++ enc (3 : F) ++ enc (3 : F) ++ enc (3 : F)) :
    Res _ (CredentialIssuance F)) = .err .missingData := by decide +kernel

/-! ## C09 presentations -/

/-- Layout of a serialised presentation with one blinded attribute `Cm`. -/
def Spec.presentation (CQ P Cm : G) (c m0 z0 mzQ : Scalar) : Bytes :=
  enc CQ ++ enc P ++ enc Cm ++ (Spec.field c ++ Spec.field m0 ++ Spec.field z0 ++ Spec.field mzQ)

theorem Spec.presentation_length (CQ P Cm : G) (c m0 z0 mzQ : Scalar) :
    (Spec.presentation CQ P Cm c m0 z0 mzQ).length = 256 := by
  simp [Spec.presentation]

/-- A presentation the codec can represent. -/
def Spec.PresentationOK (p : CredentialPresentation G) (Cm : G) : Prop :=
  p.attributesRevealed = [] ∧ p.attributesBlinded = [Cm] ∧ p.proof.challenge.Reduced ∧
    p.proof.responses.m0.Reduced ∧ p.proof.responses.z0.Reduced ∧
    p.proof.responses.minus_zQ.Reduced

theorem attributeLoop_one {z : Bytes} (hz : z.length = 32) :
    (CredentialPresentation.attributeLoop 0 (chunks32 z) : Res _ (List Scalar × List G)) =
      (match (dec z : Option G) with
        | none => .err .pointDecompressionError
        | some C => .ok ([], [C])) := by
  rw [chunks32_one hz, CredentialPresentation.attributeLoop,
    if_neg (by simp [PRESENTATION_NUMBER_OF_REVEALED_ATTRIBUTES]), pedersen_of_length hz,
    CredentialPresentation.attributeLoop]
  cases (dec z : Option G) <;> rfl

theorem C09_ok_iff (b : Bytes) (p : CredentialPresentation G) :
    CredentialPresentation.fromBytes b = .ok p ↔ b.length % 32 = 0 ∧
      ∃ (Cm : G) (rest : Bytes), Spec.PresentationOK p Cm ∧
        b = Spec.presentation p.rerandomizedMacCommitment p.rerandomizedNonce Cm p.proof.challenge
          p.proof.responses.m0 p.proof.responses.z0 p.proof.responses.minus_zQ ++ rest := by
  rw [CredentialPresentation.fromBytes]
  split
  · rename_i hl
    simp only [reduceCtorEq, false_iff, not_and]
    intro h; exact absurd h hl
  rename_i hl
  have ho : 32 * (PRESENTATION_NUMBER_OF_REVEALED_ATTRIBUTES +
    PRESENTATION_NUMBER_OF_BLINDED_ATTRIBUTES) = 32 := rfl
  rw [ho]
  dsimp only [Nat.reduceAdd]
  have hl : b.length % 32 = 0 := by omega
  by_cases h96 : 96 ≤ b.length
  · obtain ⟨x, w, rfl, hx⟩ := exists_split (b := b) (n := 32) (by omega)
    obtain ⟨y, w, rfl, hy⟩ := exists_split (b := w) (n := 32) (by simp at h96; omega)
    obtain ⟨z, w, rfl, hz⟩ := exists_split (b := w) (n := 32) (by simp at h96; omega)
    have e1 : (slice (x ++ (y ++ (z ++ w))) 64 96 : Res CredentialError Bytes) = .ok z := by
      rw [← List.append_assoc]
      exact slice_mid (by simp; omega) (by omega)
    have e2 : (sliceFrom (x ++ (y ++ (z ++ w))) 96 : Res CredentialError Bytes) = .ok w := by
      rw [← List.append_assoc, ← List.append_assoc]
      exact sliceFrom_right (by simp; omega)
    rw [slice_left hx, slice_mid hx (by omega), e1, e2]
    simp only [Res.ok_bind, copyFromSlice_ok hy, attributeLoop_one hz, pedersen_of_length hx,
      Res.bind_eq_ok, Res.ofOption_eq_ok, dec_eq_some, ValidCredential.deserialize_eq_some]
    constructor
    · rintro ⟨CQ, rfl, P, rfl, ⟨rv, bl⟩, h1, pr, ⟨h2, rest, rfl⟩, h3⟩
      cases hd : (dec z : Option G) with
      | none => rw [hd] at h1; cases h1
      | some C =>
        rw [hd] at h1
        cases h1; cases h3
        rw [dec_eq_some] at hd
        subst hd
        exact ⟨hl, C, rest, ⟨rfl, rfl, h2⟩, by simp [Spec.presentation]⟩
    · rintro ⟨_, Cm, rest, ⟨h1, h2, h3⟩, h4⟩
      have e : Spec.presentation p.rerandomizedMacCommitment p.rerandomizedNonce Cm
          p.proof.challenge p.proof.responses.m0 p.proof.responses.z0 p.proof.responses.minus_zQ ++
          rest = enc p.rerandomizedMacCommitment ++ (enc p.rerandomizedNonce ++ (enc Cm ++
            (Spec.field p.proof.challenge ++ Spec.field p.proof.responses.m0 ++
              Spec.field p.proof.responses.z0 ++ Spec.field p.proof.responses.minus_zQ ++ rest))) := by
        simp [Spec.presentation]
      rw [e, append_eq_iff (by simp [hx]), append_eq_iff (by simp [hy]),
        append_eq_iff (by simp [hz])] at h4
      obtain ⟨rfl, rfl, rfl, rfl⟩ := h4
      refine ⟨_, rfl, _, rfl, ([], [Cm]), by rw [dec_enc], p.proof, ⟨h3, rest, rfl⟩, ?_⟩
      exact congrArg Res.ok (CredentialPresentation.ext rfl rfl h1.symm h2.symm rfl)
  · constructor
    · intro h
      exfalso
      rw [Res.bind_eq_ok] at h
      obtain ⟨s1, _, h⟩ := h
      rw [Res.bind_eq_ok] at h
      obtain ⟨C, _, h⟩ := h
      rw [Res.bind_eq_ok] at h
      obtain ⟨s2, _, h⟩ := h
      rw [Res.bind_eq_ok] at h
      obtain ⟨t, _, h⟩ := h
      rw [Res.bind_eq_ok] at h
      obtain ⟨P, _, h⟩ := h
      rw [slice_panic (by omega)] at h
      cases h
    · rintro ⟨_, a, rest, _, rfl⟩
      rw [List.length_append, Spec.presentation_length] at h96
      omega

theorem C09_toBytes (p : CredentialPresentation G) (Cm : G) (h : Spec.PresentationOK p Cm) :
    p.toBytes = Spec.presentation p.rerandomizedMacCommitment p.rerandomizedNonce Cm
      p.proof.challenge p.proof.responses.m0 p.proof.responses.z0 p.proof.responses.minus_zQ := by
  obtain ⟨h1, h2, h3, h4, h5, h6⟩ := h
  rw [CredentialPresentation.toBytes, h1, h2, ValidCredential.Proof.serialize,
    encScalars_of_reduced (by simp [h3, h4, h5, h6])]
  simp [Spec.presentation, Pedersen.toBytes]

theorem C09_roundtrip (p : CredentialPresentation G) (Cm : G) (h : Spec.PresentationOK p Cm) :
    CredentialPresentation.fromBytes p.toBytes = .ok p ∧ p.toBytes.length = 256 := by
  rw [C09_toBytes p Cm h]
  refine ⟨(C09_ok_iff _ _).2 ⟨?_, Cm, [], h, by simp⟩, Spec.presentation_length ..⟩
  rw [Spec.presentation_length]

example : let p : CredentialPresentation F := ⟨3, 4, [], [5], ⟨1, ⟨1, 0, 1⟩⟩⟩
    CredentialPresentation.fromBytes p.toBytes = .ok p :=
  (C09_roundtrip _ 5 ⟨rfl, rfl, by decide, by decide, by decide, by decide⟩).1

/-- `VerifiedCredential` is the same codec. -/
theorem C09_verified (b : Bytes) :
    (VerifiedCredential.fromBytes b : Res _ (VerifiedCredential G)) =
      (CredentialPresentation.fromBytes b).map VerifiedCredential.mk ∧
    ∀ v : VerifiedCredential G, v.toBytes = v.presentation.toBytes := by
  refine ⟨?_, fun _ => rfl⟩
  rw [VerifiedCredential.fromBytes]
  cases (CredentialPresentation.fromBytes b : Res _ (CredentialPresentation G)) <;> rfl

/-- Decoding a multiple of 32 bytes when at least 96 bytes are present: the exact outcome. -/
theorem C09_long {x y z w : Bytes} (hx : x.length = 32) (hy : y.length = 32) (hz : z.length = 32)
    (hw : w.length % 32 = 0) :
    (CredentialPresentation.fromBytes (x ++ (y ++ (z ++ w))) : Res _ (CredentialPresentation G)) =
      (match (dec x : Option G), (dec y : Option G), (dec z : Option G),
          ValidCredential.Proof.deserialize w with
        | none, _, _, _ => .err .missingData
        | some _, none, _, _ => .err .missingData
        | some _, some _, none, _ => .err .pointDecompressionError
        | some _, some _, some _, none => .err .missingData
        | some CQ, some P, some C, some pr => .ok ⟨CQ, P, [], [C], pr⟩) := by
  rw [CredentialPresentation.fromBytes, if_neg (by simp; omega)]
  have ho : 32 * (PRESENTATION_NUMBER_OF_REVEALED_ATTRIBUTES +
    PRESENTATION_NUMBER_OF_BLINDED_ATTRIBUTES) = 32 := rfl
  rw [ho]
  dsimp only [Nat.reduceAdd]
  have e1 : (slice (x ++ (y ++ (z ++ w))) 64 96 : Res CredentialError Bytes) = .ok z := by
    rw [← List.append_assoc]
    exact slice_mid (by simp; omega) (by omega)
  have e2 : (sliceFrom (x ++ (y ++ (z ++ w))) 96 : Res CredentialError Bytes) = .ok w := by
    rw [← List.append_assoc, ← List.append_assoc]
    exact sliceFrom_right (by simp; omega)
  rw [slice_left hx, slice_mid hx (by omega), e1, e2]
  simp only [Res.ok_bind, copyFromSlice_ok hy, attributeLoop_one hz, pedersen_of_length hx]
  cases (dec x : Option G) with
  | none => rfl
  | some CQ =>
    cases (dec y : Option G) with
    | none => rfl
    | some P =>
      cases (dec z : Option G) with
      | none => rfl
      | some C => cases ValidCredential.Proof.deserialize w <;> rfl

/-- The first point decodes, the second does not. -/
example : (CredentialPresentation.fromBytes (enc (3 : F) ++ (List.replicate 32 255 ++ (enc (5 : F) ++ List.replicate 64 0))) :
    Res _ (CredentialPresentation F)) = .err .missingData := by
  rw [C09_long (by simp) (by simp) (by simp) (by simp), dec_enc]
  rw [show (dec (List.replicate 32 255) : Option F) = none by decide +kernel]

/-- Decoding panics exactly on the empty input, on 32 bytes that are a point, and on 64 bytes that
are two points. -/
theorem C09_panic_iff (b : Bytes) :
    (CredentialPresentation.fromBytes b : Res _ (CredentialPresentation G)) = .panic ↔
      b = [] ∨ (∃ C : G, b = enc C) ∨ ∃ C P : G, b = enc C ++ enc P := by
  by_cases hl : b.length % 32 = 0
  swap
  · rw [CredentialPresentation.fromBytes, if_pos hl]
    simp only [reduceCtorEq, false_iff]
    rintro (rfl | ⟨C, rfl⟩ | ⟨C, P, rfl⟩) <;> simp at hl
  by_cases h96 : 96 ≤ b.length
  · have hno : ¬ (b = [] ∨ (∃ C : G, b = enc C) ∨ ∃ C P : G, b = enc C ++ enc P) := by
      rintro (rfl | ⟨C, rfl⟩ | ⟨C, P, rfl⟩) <;> simp at h96
    simp only [hno, iff_false]
    obtain ⟨x, w, rfl, hx⟩ := exists_split (b := b) (n := 32) (by omega)
    obtain ⟨y, w, rfl, hy⟩ := exists_split (b := w) (n := 32) (by simp at h96; omega)
    obtain ⟨z, w, rfl, hz⟩ := exists_split (b := w) (n := 32) (by simp at h96; omega)
    rw [C09_long hx hy hz (by simp at hl; omega)]
    cases (dec x : Option G) with
    | none => simp
    | some CQ =>
      cases (dec y : Option G) with
      | none => simp
      | some P =>
        cases (dec z : Option G) with
        | none => simp
        | some C => cases ValidCredential.Proof.deserialize w <;> simp
  rw [CredentialPresentation.fromBytes, if_neg (by omega)]
  have hcase : b.length = 0 ∨ b.length = 32 ∨ b.length = 64 := by omega
  rcases hcase with h | h | h
  · rw [List.length_eq_zero_iff] at h
    subst h
    rw [slice_panic (by simp)]
    simp
  · rw [slice_all h, Res.ok_bind, pedersen_of_length h]
    cases hd : (dec b : Option G) with
    | none =>
      simp only [Res.ofOption_none, Res.err_bind, reduceCtorEq, false_iff]
      rintro (rfl | ⟨C, rfl⟩ | ⟨C, P, rfl⟩)
      · simp at h
      · simp at hd
      · simp at h
    | some C =>
      rw [Res.ofOption_some, Res.ok_bind, slice_panic (by omega)]
      simp only [Res.panic_bind, true_iff]
      exact Or.inr (Or.inl ⟨C, (dec_eq_some.1 hd).symm⟩)
  · obtain ⟨x, y, rfl, hx⟩ := exists_split (b := b) (n := 32) (by omega)
    have hy : y.length = 32 := by simp at h; omega
    rw [slice_left hx, slice_right hx (by omega), Res.ok_bind, pedersen_of_length hx]
    cases hd : (dec x : Option G) with
    | none =>
      simp only [Res.ofOption_none, Res.err_bind, reduceCtorEq, false_iff]
      rintro (h1 | ⟨C, h1⟩ | ⟨C, P, h1⟩)
      · simp [h1] at h
      · rw [h1] at h; simp at h
      · rw [append_eq_iff (by simp [hx])] at h1
        rw [h1.1] at hd; simp at hd
    | some C =>
      simp only [Res.ofOption_some, Res.ok_bind, copyFromSlice_ok hy]
      cases hd2 : (dec y : Option G) with
      | none =>
        simp only [Res.ofOption_none, Res.err_bind, reduceCtorEq, false_iff]
        rintro (h1 | ⟨C, h1⟩ | ⟨C, P, h1⟩)
        · simp [h1] at h
        · rw [h1] at h; simp at h
        · rw [append_eq_iff (by simp [hx])] at h1
          rw [h1.2] at hd2; simp at hd2
      | some P =>
        simp only [Res.ofOption_some, Res.ok_bind]
        rw [slice_panic (by rw [h]; decide)]
        simp only [Res.panic_bind, true_iff]
        exact Or.inr (Or.inr ⟨C, P, by rw [dec_eq_some.1 hd, dec_eq_some.1 hd2]⟩)

theorem C09_wrong_length {b : Bytes} (h : b.length % 32 ≠ 0) :
    (CredentialPresentation.fromBytes b : Res _ (CredentialPresentation G)) =
      .err .wrongNumberOfBytes := by
  rw [CredentialPresentation.fromBytes, if_pos h]

example : (CredentialPresentation.fromBytes (List.replicate 257 0) : Res _ (CredentialPresentation F)) =
    .err .wrongNumberOfBytes := C09_wrong_length (by rw [List.length_replicate]; decide)

/-- The claim "rejected with an error rather than a panic" is false. -/
theorem C09_short_panics :
    (CredentialPresentation.fromBytes [] : Res _ (CredentialPresentation G)) = .panic :=
  (C09_panic_iff []).2 (Or.inl rfl)

/-- Full claim: no input panics. Missing: inputs of 0, 32 or 64 bytes (`C09_panic_iff`). -/
theorem C09_no_panic_partial {b : Bytes} (h : 65 ≤ b.length) :
    (CredentialPresentation.fromBytes b : Res _ (CredentialPresentation G)) ≠ .panic := by
  intro hp
  rcases (C09_panic_iff b).1 hp with rfl | ⟨C, rfl⟩ | ⟨C, P, rfl⟩ <;> simp at h

example : Spec.PresentationOK (⟨3, 4, [], [5], ⟨1, ⟨1, 0, 1⟩⟩⟩ : CredentialPresentation F) 5 :=
  ⟨rfl, rfl, by decide, by decide, by decide, by decide⟩

example : (CredentialPresentation.fromBytes (List.replicate 96 0) : Res _ (CredentialPresentation F)) =
    .err .missingData := by decide +kernel

/-! ## C10 Signal presentations -/

/-- Layout of a serialised Signal presentation. -/
def Spec.signalPresentation (R CQ P Cm : G) (c m0 z0 mzQ c' m0' z0' z1' : Scalar) : Bytes :=
  enc R ++ Spec.presentation CQ P Cm c m0 z0 mzQ ++
    (Spec.field c' ++ Spec.field m0' ++ Spec.field z0' ++ Spec.field z1')

theorem Spec.signalPresentation_length (R CQ P Cm : G) (c m0 z0 mzQ c' m0' z0' z1' : Scalar) :
    (Spec.signalPresentation R CQ P Cm c m0 z0 mzQ c' m0' z0' z1').length = 448 := by
  simp [Spec.signalPresentation, Spec.presentation_length]

/-- A Signal presentation the codec can represent. -/
def Spec.SignalPresentationOK (p : SignalCredentialPresentation G) (Cm : G) : Prop :=
  Spec.PresentationOK p.presentation Cm ∧ p.rosterMembershipProof.challenge.Reduced ∧
    p.rosterMembershipProof.responses.m0.Reduced ∧ p.rosterMembershipProof.responses.z0.Reduced ∧
    p.rosterMembershipProof.responses.z1.Reduced

/-- The serialisation of `p`, spelled out. -/
def Spec.signalBytes (p : SignalCredentialPresentation G) (Cm : G) : Bytes :=
  Spec.signalPresentation p.rosterEntryCommitment p.presentation.rerandomizedMacCommitment
    p.presentation.rerandomizedNonce Cm p.presentation.proof.challenge
    p.presentation.proof.responses.m0 p.presentation.proof.responses.z0
    p.presentation.proof.responses.minus_zQ p.rosterMembershipProof.challenge
    p.rosterMembershipProof.responses.m0 p.rosterMembershipProof.responses.z0
    p.rosterMembershipProof.responses.z1

theorem committed_of_length {b : Bytes} (h : b.length = 32) :
    (CommittedPhoneNumber.fromBytes b : Res _ G) = Res.ofOption .invalidPhoneNumber (dec b) := by
  rw [CommittedPhoneNumber.fromBytes, pedersen_of_length h]
  cases (dec b : Option G) <;> rfl

theorem C10_ok_iff (b : Bytes) (p : SignalCredentialPresentation G) :
    SignalCredentialPresentation.fromBytes b = .ok p ↔
      ∃ (Cm : G) (rest : Bytes), Spec.SignalPresentationOK p Cm ∧ b = Spec.signalBytes p Cm ++ rest := by
  have hs : SIZEOF_CREDENTIAL_PRESENTATION = 256 := rfl
  rw [SignalCredentialPresentation.fromBytes, hs]
  split
  · rename_i hl
    simp only [reduceCtorEq, false_iff, not_exists]
    rintro Cm rest ⟨_, rfl⟩
    rw [List.length_append, Spec.signalBytes, Spec.signalPresentation_length] at hl
    omega
  rename_i hl
  obtain ⟨x, w, rfl, hx⟩ := exists_split (b := b) (n := 32) (by omega)
  obtain ⟨y, w, rfl, hy⟩ := exists_split (b := w) (n := 256) (by simp at hl; omega)
  rw [slice_left hx, slice_mid hx (by omega), ← List.append_assoc, sliceFrom_right (by simp; omega)]
  simp only [Res.ok_bind, committed_of_length hx, Res.bind_eq_ok, Res.mapErr_eq_ok,
    Res.ofOption_eq_ok, dec_eq_some, C09_ok_iff, CommittedValuesEqual.deserialize_eq_some]
  constructor
  · rintro ⟨R, rfl, pr, ⟨_, Cm, r, h1, rfl⟩, q, ⟨h2, rest, rfl⟩, h3⟩
    cases h3
    have : r = [] := by
      rw [List.length_append, Spec.presentation_length] at hy
      exact List.length_eq_zero_iff.1 (by omega)
    subst this
    exact ⟨Cm, rest, ⟨h1, h2⟩, by simp [Spec.signalBytes, Spec.signalPresentation]⟩
  · rintro ⟨Cm, rest, ⟨h1, h2⟩, h3⟩
    simp only [Spec.signalBytes, Spec.signalPresentation, List.append_assoc] at h3
    rw [append_eq_iff (by simp [hx]), append_eq_iff (by rw [hy, Spec.presentation_length])] at h3
    obtain ⟨rfl, rfl, rfl⟩ := h3
    refine ⟨_, rfl, p.presentation, ⟨?_, Cm, [], h1, by simp⟩, p.rosterMembershipProof,
      ⟨h2, rest, by simp⟩, rfl⟩
    rw [Spec.presentation_length]

theorem C10_toBytes (p : SignalCredentialPresentation G) (Cm : G)
    (h : Spec.SignalPresentationOK p Cm) : p.toBytes = Spec.signalBytes p Cm := by
  obtain ⟨h1, h2, h3, h4, h5⟩ := h
  rw [SignalCredentialPresentation.toBytes, C09_toBytes _ _ h1,
    CommittedValuesEqual.Proof.serialize, encScalars_of_reduced (by simp [h2, h3, h4, h5])]
  simp [Spec.signalBytes, Spec.signalPresentation, CommittedPhoneNumber.toBytes, Pedersen.toBytes]

theorem C10_roundtrip (p : SignalCredentialPresentation G) (Cm : G)
    (h : Spec.SignalPresentationOK p Cm) :
    SignalCredentialPresentation.fromBytes p.toBytes = .ok p ∧
    VerifiedSignalCredential.fromBytes (VerifiedSignalCredential.toBytes ⟨p⟩) = .ok ⟨p⟩ ∧
    p.toBytes.length = 448 := by
  have h1 : SignalCredentialPresentation.fromBytes p.toBytes = .ok p := by
    rw [C10_toBytes p Cm h]
    exact (C10_ok_iff _ _).2 ⟨Cm, [], h, by simp⟩
  refine ⟨h1, ?_, ?_⟩
  · rw [VerifiedSignalCredential.fromBytes, VerifiedSignalCredential.toBytes, h1]; rfl
  · rw [C10_toBytes p Cm h, Spec.signalBytes, Spec.signalPresentation_length]

example : let p : SignalCredentialPresentation F := ⟨2, ⟨3, 4, [], [5], ⟨1, ⟨1, 0, 1⟩⟩⟩, ⟨1, ⟨0, 1, 1⟩⟩⟩
    SignalCredentialPresentation.fromBytes p.toBytes = .ok p :=
  (C10_roundtrip _ 5 ⟨⟨rfl, rfl, by decide, by decide, by decide, by decide⟩, by decide, by decide, by decide,
    by decide⟩).1

theorem C10_no_panic (b : Bytes) :
    (SignalCredentialPresentation.fromBytes b : Res _ (SignalCredentialPresentation G)) ≠ .panic := by
  have hs : SIZEOF_CREDENTIAL_PRESENTATION = 256 := rfl
  rw [SignalCredentialPresentation.fromBytes, hs]
  split
  · simp
  rename_i hl
  obtain ⟨x, w, rfl, hx⟩ := exists_split (b := b) (n := 32) (by omega)
  obtain ⟨y, w, rfl, hy⟩ := exists_split (b := w) (n := 256) (by simp at hl; omega)
  rw [slice_left hx, slice_mid hx (by omega), ← List.append_assoc, sliceFrom_right (by simp; omega)]
  simp only [Res.ok_bind, committed_of_length hx]
  intro h
  rw [Res.bind_eq_panic, Res.mapErr_eq_panic] at h
  rcases h with h | ⟨R, _, h⟩
  · exact Res.ofOption_ne_panic h
  rw [Res.bind_eq_panic] at h
  rcases h with h | ⟨pr, _, h⟩
  · exact C09_no_panic_partial (by omega) h
  rw [Res.bind_eq_panic] at h
  rcases h with h | ⟨_, _, h⟩
  · exact Res.ofOption_ne_panic h
  · cases h

theorem C10_verified (b : Bytes) :
    (VerifiedSignalCredential.fromBytes b : Res _ (VerifiedSignalCredential G)) =
      (SignalCredentialPresentation.fromBytes b).map VerifiedSignalCredential.mk := by
  rw [VerifiedSignalCredential.fromBytes]
  cases (SignalCredentialPresentation.fromBytes b : Res _ (SignalCredentialPresentation G)) <;> rfl

/-- Every failure of a long-enough input is `MissingData` or the inner presentation's error; a short
input is `MissingData`. -/
theorem C10_errors {b : Bytes} {e : CredentialError}
    (h : (SignalCredentialPresentation.fromBytes b : Res _ (SignalCredentialPresentation G)) =
      .err e) : e = .missingData ∨ e = .pointDecompressionError := by
  have hs : SIZEOF_CREDENTIAL_PRESENTATION = 256 := rfl
  rw [SignalCredentialPresentation.fromBytes, hs] at h
  split at h
  · cases h; exact Or.inl rfl
  rename_i hl
  obtain ⟨x, w, rfl, hx⟩ := exists_split (b := b) (n := 32) (by omega)
  obtain ⟨u, w, rfl, hu⟩ := exists_split (b := w) (n := 256) (by simp at hl; omega)
  rw [slice_left hx, slice_mid hx (by omega), ← List.append_assoc,
    sliceFrom_right (by simp; omega)] at h
  simp only [Res.ok_bind, committed_of_length hx] at h
  rw [Res.bind_eq_err] at h
  rcases h with h | ⟨R, _, h⟩
  · obtain ⟨e0, h1, rfl⟩ := Res.mapErr_eq_err.1 h
    cases e0 <;> exact Or.inl rfl
  rw [Res.bind_eq_err] at h
  rcases h with h | ⟨pr, _, h⟩
  · obtain ⟨y, v, rfl, hy⟩ := exists_split (b := u) (n := 32) (by omega)
    obtain ⟨z, v, rfl, hz⟩ := exists_split (b := v) (n := 32) (by simp at hu; omega)
    obtain ⟨q, v, rfl, hq⟩ := exists_split (b := v) (n := 32) (by simp at hu; omega)
    rw [C09_long hy hz hq (by simp at hu; omega)] at h
    revert h
    cases (dec y : Option G) with
    | none => rintro ⟨⟩; exact Or.inl rfl
    | some CQ =>
      cases (dec z : Option G) with
      | none => rintro ⟨⟩; exact Or.inl rfl
      | some P =>
        cases (dec q : Option G) with
        | none => rintro ⟨⟩; exact Or.inr rfl
        | some C =>
          cases ValidCredential.Proof.deserialize v
          · rintro ⟨⟩; exact Or.inl rfl
          · rintro ⟨⟩
  rw [Res.bind_eq_err, Res.ofOption_eq_err] at h
  rcases h with ⟨_, rfl⟩ | ⟨_, _, h⟩
  · exact Or.inl rfl
  · cases h

example : Spec.SignalPresentationOK
    (⟨2, ⟨3, 4, [], [5], ⟨1, ⟨1, 0, 1⟩⟩⟩, ⟨1, ⟨0, 1, 1⟩⟩⟩ : SignalCredentialPresentation F) 5 :=
  ⟨⟨rfl, rfl, by decide, by decide, by decide, by decide⟩, by decide, by decide, by decide,
    by decide⟩

/-! ## C11 users -/

/-- The 64-byte key block: zeros for "no key". -/
def Spec.KeyBlock : Option (Elgamal.Keypair G) → Bytes → Prop
  | none, b => b = List.replicate 64 0
  | some k, b => k.secretKey.Reduced ∧ b = k.secretKey.toBytes ++ enc k.publicKey ∧
      b ≠ List.replicate 64 0

/-- The 96-byte credential block: zeros for "no credential". -/
def Spec.CredentialBlock : Option (Credential G) → Bytes → Prop
  | none, b => b = List.replicate 96 0
  | some c, b => ∃ a : Scalar, a.Reduced ∧ c.attributes = [a] ∧
      b = enc c.mac.nonce ++ enc c.mac.mac ++ a.toBytes ∧ b ≠ List.replicate 96 0

theorem C11_ok_iff (b : Bytes) (u : User G) :
    User.fromBytes b = .ok u ↔ ∃ (X : G) (kb cb : Bytes), u.issuerParameters.Xn = [X] ∧
      Spec.KeyBlock u.key kb ∧ Spec.CredentialBlock u.credential cb ∧
      b = enc u.systemParameters.g ++ enc u.systemParameters.h ++ enc X ++ kb ++ cb := by
  have hkl : ∀ {k : Option (Elgamal.Keypair G)} {kb}, Spec.KeyBlock k kb → kb.length = 64 := by
    intro k kb h
    cases k with
    | none => rw [Spec.KeyBlock] at h; simp [h]
    | some k => obtain ⟨_, rfl, _⟩ := h; simp
  have hcl : ∀ {c : Option (Credential G)} {cb}, Spec.CredentialBlock c cb → cb.length = 96 := by
    intro c cb h
    cases c with
    | none => rw [Spec.CredentialBlock] at h; simp [h]
    | some c => obtain ⟨a, _, _, rfl, _⟩ := h; simp
  rw [User.fromBytes]
  split
  · rename_i hl
    simp only [reduceCtorEq, false_iff, not_exists]
    rintro X kb cb ⟨_, h1, h2, rfl⟩
    have := hkl h1
    have := hcl h2
    simp at hl
    omega
  rename_i hl
  obtain ⟨p, w, rfl, hp⟩ := exists_split (b := b) (n := 64) (by omega)
  obtain ⟨q, w, rfl, hq⟩ := exists_split (b := w) (n := 32) (by simp at hl; omega)
  obtain ⟨k, c, rfl, hk⟩ := exists_split (b := w) (n := 64) (by simp at hl; omega)
  have hc : c.length = 96 := by simp at hl; omega
  have e1 : (slice (p ++ (q ++ (k ++ c))) 96 160 : Res CredentialError Bytes) = .ok k := by
    rw [← List.append_assoc]
    exact slice_mid (by simp; omega) (by omega)
  have e2 : (slice (p ++ (q ++ (k ++ c))) 160 256 : Res CredentialError Bytes) = .ok c := by
    rw [← List.append_assoc, ← List.append_assoc]
    exact slice_right (by simp; omega) (by omega)
  have e3 : (sliceFrom (p ++ (q ++ (k ++ c))) 160 : Res CredentialError Bytes) = .ok c := by
    rw [← List.append_assoc, ← List.append_assoc]
    exact sliceFrom_right (by simp; omega)
  rw [slice_left hp, slice_mid hp (by omega), e1, e2, e3]
  have hkey : ∀ key : Option (Elgamal.Keypair G),
      User.decodeKey k = .ok key ↔ Spec.KeyBlock key k := by
    intro key
    rw [User.decodeKey]
    by_cases hz : k = List.replicate 64 0
    · rw [if_pos hz]
      cases key with
      | none => simp [Spec.KeyBlock, hz]
      | some kp => simp [Spec.KeyBlock, hz]
    · rw [if_neg hz]
      cases key with
      | none =>
        simp only [Res.bind_eq_ok, Spec.KeyBlock]
        constructor
        · rintro ⟨_, _, h⟩; cases h
        · intro h; exact absurd h hz
      | some kp =>
        simp only [Res.bind_eq_ok, C13_keypair_ok_iff, Res.ok.injEq, Option.some.injEq,
          Spec.KeyBlock]
        constructor
        · rintro ⟨kp', ⟨h1, h2⟩, rfl⟩
          exact ⟨h1, h2, hz⟩
        · rintro ⟨h1, h2, _⟩
          exact ⟨kp, ⟨h1, h2⟩, rfl⟩
  have hcred : ∀ cred : Option (Credential G),
      User.decodeCredential c c = .ok cred ↔ Spec.CredentialBlock cred c := by
    intro cred
    rw [User.decodeCredential]
    by_cases hz : c = List.replicate 96 0
    · rw [if_pos hz]
      cases cred with
      | none => simp [Spec.CredentialBlock, hz]
      | some c =>
        simp only [Res.ok.injEq, reduceCtorEq, Spec.CredentialBlock, false_iff, not_exists]
        rintro a ⟨_, _, _, h⟩
        exact h hz
    · rw [if_neg hz]
      cases cred with
      | none =>
        simp only [Res.bind_eq_ok, Spec.CredentialBlock]
        constructor
        · rintro ⟨_, _, h⟩; cases h
        · intro h; exact absurd h hz
      | some cr =>
        simp only [Res.bind_eq_ok, C07_credential_ok_iff, Res.ok.injEq, Option.some.injEq,
          Spec.CredentialBlock]
        constructor
        · rintro ⟨cr', ⟨a, h1, h2, h3⟩, rfl⟩
          exact ⟨a, h1, h2, h3, hz⟩
        · rintro ⟨a, h1, h2, h3, _⟩
          exact ⟨cr, ⟨a, h1, h2, h3⟩, rfl⟩
  simp only [Res.ok_bind]
  rw [Res.bind_eq_ok]
  constructor
  · rintro ⟨sp, h1, h⟩
    rw [Res.bind_eq_ok] at h
    obtain ⟨ip, h2, h⟩ := h
    rw [Res.bind_eq_ok] at h
    obtain ⟨key, h3, h⟩ := h
    rw [Res.bind_eq_ok] at h
    obtain ⟨cred, h4, h⟩ := h
    cases h
    rw [C01_ok_iff] at h1
    rw [Res.mapErr_eq_ok, C03_ok_iff] at h2
    rw [hkey] at h3
    rw [hcred] at h4
    have hlen : ip.Xn.length = 1 := by
      have := congrArg List.length h2
      rw [flatten_map_length (fun a => enc_length a)] at this
      omega
    obtain ⟨X, hX⟩ := List.length_eq_one_iff.1 hlen
    refine ⟨X, k, c, hX, h3, h4, ?_⟩
    rw [h1, h2, hX]
    simp
  · rintro ⟨X, kb, cb, hX, h1, h2, h3⟩
    have hkb := hkl h1
    rw [List.append_assoc (_ ++ _ ++ _), List.append_assoc (_ ++ _) (enc X),
      append_eq_iff (by simp [hp]), append_eq_iff (by simp [hq]),
      append_eq_iff (by simp [hk, hkb])] at h3
    obtain ⟨rfl, rfl, rfl, rfl⟩ := h3
    refine ⟨u.systemParameters, (C01_ok_iff _ _).2 rfl, ?_⟩
    rw [Res.bind_eq_ok]
    refine ⟨u.issuerParameters, Res.mapErr_eq_ok.2 ((C03_ok_iff _ _).2 (by simp [hX])), ?_⟩
    rw [Res.bind_eq_ok]
    refine ⟨u.key, (hkey _).2 h1, ?_⟩
    rw [Res.bind_eq_ok]
    exact ⟨u.credential, (hcred _).2 h2, rfl⟩

/-- A key survives saving: canonical secret, not the all-zero keypair. -/
def Spec.KeySaves (k : Elgamal.Keypair G) : Prop :=
  k.secretKey.Reduced ∧ ¬ (k.secretKey = 0 ∧ k.publicKey = 0)

/-- A credential survives saving: one canonical attribute, and not everything zero. -/
def Spec.CredentialSaves (c : Credential G) : Prop :=
  ∃ a : Scalar, c.attributes = [a] ∧ a.Reduced ∧ ¬ (c.mac.nonce = 0 ∧ c.mac.mac = 0 ∧ a = 0)

theorem toBytes_eq_zero {s : Scalar} : s.toBytes = List.replicate 32 0 ↔ s = 0 := by
  constructor
  · intro h
    apply Scalar.toBytes_inj
    rw [h]; decide
  · rintro rfl; decide

theorem enc_eq_zero {P : G} : enc P = List.replicate 32 0 ↔ P = 0 := by
  rw [← Ristretto.enc_zero (G := G), enc_inj_iff]

theorem keyBlock_zero {k : Elgamal.Keypair G} :
    k.secretKey.toBytes ++ enc k.publicKey = List.replicate 64 0 ↔
      k.secretKey = 0 ∧ k.publicKey = 0 := by
  have e : List.replicate 64 (0 : UInt8) = List.replicate 32 0 ++ List.replicate 32 0 := by
    rw [← List.replicate_add]
  rw [e, append_eq_iff (by simp), toBytes_eq_zero, enc_eq_zero]

theorem credBlock_zero {P Q : G} {a : Scalar} :
    enc P ++ enc Q ++ a.toBytes = List.replicate 96 0 ↔ P = 0 ∧ Q = 0 ∧ a = 0 := by
  have e : List.replicate 96 (0 : UInt8) =
      List.replicate 32 0 ++ List.replicate 32 0 ++ List.replicate 32 0 := by
    rw [← List.replicate_add, ← List.replicate_add]
  rw [e, append_eq_iff (by simp), append_eq_iff (by simp), toBytes_eq_zero, enc_eq_zero, enc_eq_zero,
    and_assoc]

/-- Exactly which users survive a save/load cycle. -/
theorem C11_roundtrip_iff (u : User G) :
    User.fromBytes u.toBytes = .ok u ↔ u.issuerParameters.Xn.length = 1 ∧
      (∀ k, u.key = some k → Spec.KeySaves k) ∧
      (∀ c, u.credential = some c → Spec.CredentialSaves c) := by
  rw [C11_ok_iff]
  constructor
  · rintro ⟨X, kb, cb, hX, h1, h2, h3⟩
    refine ⟨by simp [hX], ?_, ?_⟩
    · intro k hk
      rw [hk] at h1
      obtain ⟨h4, rfl, h5⟩ := h1
      exact ⟨h4, fun h => h5 (keyBlock_zero.2 h)⟩
    · intro c hc
      rw [hc] at h2
      obtain ⟨a, h4, h5, rfl, h6⟩ := h2
      exact ⟨a, h5, h4, fun h => h6 (credBlock_zero.2 h)⟩
  · rintro ⟨hX, hk, hc⟩
    obtain ⟨X, hX⟩ := List.length_eq_one_iff.1 hX
    refine ⟨X, (match u.key with
      | none => List.replicate 64 0
      | some k => k.toBytes), (match u.credential with
      | none => List.replicate 96 0
      | some c => c.toBytes), hX, ?_, ?_, ?_⟩
    · cases hkk : u.key with
      | none => rfl
      | some k =>
        obtain ⟨h1, h2⟩ := hk k hkk
        exact ⟨h1, rfl, fun h => h2 (keyBlock_zero.1 h)⟩
    · cases hcc : u.credential with
      | none => rfl
      | some c =>
        obtain ⟨a, h1, h2, h3⟩ := hc c hcc
        have e : c.toBytes = enc c.mac.nonce ++ enc c.mac.mac ++ a.toBytes := by
          simp [Credential.toBytes, Tag.toBytes, h1]
        exact ⟨a, h2, h1, e, fun h => h3 (credBlock_zero.1 (e ▸ h))⟩
    · have e : PublicKey.toBytes u.issuerParameters = enc X := by
        rw [PublicKey.toBytes, hX]; simp
      rw [User.toBytes, SystemParameters.toBytes, e]
      cases u.key <;> cases u.credential <;> rfl

/-- Signal users: the number is stored without reduction, so it always survives. -/
theorem C11_signal_roundtrip_iff (u : SignalUser G) :
    SignalUser.fromBytes u.toBytes = .ok u ↔ User.fromBytes u.user.toBytes = .ok u.user := by
  have e : PhoneNumber.fromBytes u.phoneNumber.toBytes = .ok u.phoneNumber := by
    rw [PhoneNumber.fromBytes, if_neg (by simp), slice_all (by simp)]
    simp [copyFromSlice]
  rw [SignalUser.fromBytes, SignalUser.toBytes, PhoneNumber.toBytes, slice_left (by simp),
    sliceFrom_right (by simp)]
  simp only [Res.ok_bind, e, Res.mapErr_ok]
  rw [Res.bind_eq_ok]
  constructor
  · rintro ⟨v, h1, h2⟩
    have h3 := congrArg SignalUser.user (Res.ok.inj h2)
    rw [h1, ← h3]
  · intro h
    exact ⟨_, h, rfl⟩

/-- The bytes of a new user: parameters, issuer parameters, key and no credential, preceded by the number
for a phone-number user. -/
theorem C11_new (sp : SystemParameters G) (X : G) (k : Elgamal.Keypair G) :
    (User.new sp ⟨[X]⟩ (some k)).toBytes =
      enc sp.g ++ enc sp.h ++ enc X ++ k.secretKey.toBytes ++ enc k.publicKey ++
        List.replicate 96 0 ∧
    (User.new sp ⟨[X]⟩ none).toBytes = enc sp.g ++ enc sp.h ++ enc X ++ List.replicate 160 0 ∧
    ∀ (number : Bytes) (key : Option (Elgamal.Keypair G)) (u : SignalUser G),
      SignalUser.new sp ⟨[X]⟩ key number = .ok u →
      ∃ s, PhoneNumber.tryFromBytes number = .ok s ∧
        u.toBytes = s.toBytes ++ (User.new sp ⟨[X]⟩ key).toBytes := by
  refine ⟨?_, ?_, fun number key u h => ?_⟩
  · simp [User.toBytes, User.new, SystemParameters.toBytes, PublicKey.toBytes, Elgamal.Keypair.toBytes,
      Elgamal.SecretKey.toBytes, Elgamal.PublicKey.toBytes]
  · simp only [User.toBytes, User.new, SystemParameters.toBytes, PublicKey.toBytes, List.append_assoc,
      List.replicate_append_replicate]
    simp
  · simp only [SignalUser.new, Res.bind_eq_ok, Res.mapErr_eq_ok] at h
    obtain ⟨s, h1, h2⟩ := h
    cases h2
    exact ⟨s, h1, rfl⟩

/-- The full claim is false: a user whose generated ElGamal secret happens to be zero loses its key
(every RNG whose next 64 bytes reduce to zero). -/
theorem C11_zero_key_lost {R : Type} [RngCore R] (r : R) (params : SystemParameters G) (X : G)
    (hr : (leVal (RngCore.fill r 64).1 : F) = 0) :
    User.fromBytes (User.new params ⟨[X]⟩ (some (Elgamal.Keypair.generate r).1)).toBytes =
      .ok (User.new params ⟨[X]⟩ none) := by
  have h0 : (Elgamal.Keypair.generate r).1 = (⟨0, 0⟩ : Elgamal.Keypair G) := by
    have : (Scalar.random r).1 = 0 := by
      simp only [Scalar.random, Scalar.fromWide, hr]
      exact Scalar.ofF_eq_zero_iff.2 rfl
    simp [Elgamal.Keypair.generate, Elgamal.publicOfSecret, this, Scalar.smul_def]
  rw [h0, C11_ok_iff]
  refine ⟨X, List.replicate 64 0, List.replicate 96 0, rfl, rfl, rfl, ?_⟩
  have e : (⟨0, 0⟩ : Elgamal.Keypair G).toBytes = List.replicate 64 0 :=
    keyBlock_zero.2 ⟨rfl, rfl⟩
  simp only [User.toBytes, User.new, SystemParameters.toBytes, PublicKey.toBytes, e]
  simp

/-- A loaded user has a credential exactly when the block was not all zero. -/
theorem C11_loaded_credential {b : Bytes} {u : User G} (h : User.fromBytes b = .ok u) :
    u.credential = none ↔ b.drop 160 = List.replicate 96 0 := by
  obtain ⟨X, kb, cb, hX, h1, h2, rfl⟩ := (C11_ok_iff _ _).1 h
  have hkb : kb.length = 64 := by
    cases hk : u.key with
    | none => rw [hk] at h1; rw [Spec.KeyBlock] at h1; simp [h1]
    | some k => rw [hk] at h1; obtain ⟨_, rfl, _⟩ := h1; simp
  rw [drop_left (by simp; omega)]
  cases hc : u.credential with
  | none => rw [hc] at h2; exact ⟨fun _ => h2, fun _ => rfl⟩
  | some c =>
    rw [hc] at h2
    obtain ⟨a, _, _, _, h6⟩ := h2
    exact ⟨nofun, fun h => absurd h h6⟩

/-- A user with a credential is loaded with it. -/
example : let u : User F := ⟨⟨1, 5⟩, ⟨[5]⟩, none, some ⟨⟨3, 7⟩, [1]⟩⟩
    User.fromBytes u.toBytes = .ok u ∧ u.toBytes.drop 160 ≠ List.replicate 96 0 := by
  have h : let u : User F := ⟨⟨1, 5⟩, ⟨[5]⟩, none, some ⟨⟨3, 7⟩, [1]⟩⟩
      User.fromBytes u.toBytes = .ok u := by decide +kernel
  exact ⟨h, fun e => by cases (C11_loaded_credential h).2 e⟩

theorem C11_no_panic (b : Bytes) : (User.fromBytes b : Res _ (User G)) ≠ .panic := by
  rw [User.fromBytes]
  split
  · simp
  rename_i hl
  have hl : b.length = 256 := by omega
  have hs := fun (a c : ℕ) (h1 : a ≤ c) (h2 : c ≤ 256) =>
    slice_ok (ε := CredentialError) (bytes := b) h1 (by omega)
  rw [hs 0 64 (by omega) (by omega), hs 64 96 (by omega) (by omega), hs 96 160 (by omega) (by omega),
    hs 160 256 (by omega) (by omega), sliceFrom_ok (by omega)]
  simp only [Res.ok_bind]
  intro h
  rw [Res.bind_eq_panic] at h
  rcases h with h | ⟨sp, _, h⟩
  · exact C01_no_panic _ h
  rw [Res.bind_eq_panic, Res.mapErr_eq_panic] at h
  rcases h with h | ⟨ip, _, h⟩
  · exact C03_no_panic _ h
  rw [Res.bind_eq_panic] at h
  rcases h with h | ⟨ip, _, h⟩
  · rw [User.decodeKey] at h
    split at h
    · cases h
    · rw [Res.bind_eq_panic] at h
      rcases h with h | ⟨_, _, h⟩
      · rw [(C13_panic_iff (G := G) _).2.2] at h
        simp [hl] at h
      · cases h
  rw [Res.bind_eq_panic] at h
  rcases h with h | ⟨ip, _, h⟩
  · rw [User.decodeCredential] at h
    split at h
    · cases h
    · rw [Res.bind_eq_panic] at h
      rcases h with h | ⟨_, _, h⟩
      · exact C07_credential_no_panic _ h
      · cases h
  · cases h

/-- `SignalUser::from_bytes` panics exactly on inputs shorter than a phone number. -/
theorem C11_signal_panic_iff (b : Bytes) :
    (SignalUser.fromBytes b : Res _ (SignalUser G)) = .panic ↔ b.length < 32 := by
  by_cases h32 : 32 ≤ b.length
  · obtain ⟨x, y, rfl, hx⟩ := exists_split (b := b) (n := 32) h32
    have e : PhoneNumber.fromBytes x = .ok (Scalar.fromBits x) := by
      rw [PhoneNumber.fromBytes, if_neg (by simp [hx]), slice_all hx]
      simp [copyFromSlice, hx]
    rw [SignalUser.fromBytes, slice_left hx, sliceFrom_right hx]
    simp only [Res.ok_bind, e, Res.mapErr_ok]
    rw [Res.bind_eq_panic]
    constructor
    · rintro (h | ⟨_, _, h⟩)
      · exact absurd h (C11_no_panic _)
      · cases h
    · intro h; omega
  · rw [SignalUser.fromBytes, slice_panic (by omega)]
    simp; omega

/-- A user with key and credential that survives. -/
example : ∃ u : User F, u.key ≠ none ∧ u.credential ≠ none ∧ User.fromBytes u.toBytes = .ok u :=
  ⟨⟨⟨1, 5⟩, ⟨[5]⟩, some ⟨1, 1⟩, some ⟨⟨0, 0⟩, [1]⟩⟩, by decide, by decide,
    (C11_roundtrip_iff _).2 ⟨rfl, by
      rintro k ⟨⟩; exact ⟨by decide, by decide⟩, by
      rintro c ⟨⟩; exact ⟨1, rfl, by decide, by decide⟩⟩⟩

-- the hypothesis in C11_new
example : ∃ u, SignalUser.new (⟨1, 5⟩ : SystemParameters F) ⟨[5]⟩ none [49] = .ok u := ⟨_, rfl⟩

/-- An RNG that makes `C11_zero_key_lost` fire. -/
structure ZeroRng where

instance : RngCore ZeroRng where
  fill r n := (List.replicate n 0, r)
  fill_length _ _ := by simp

example : (leVal (RngCore.fill ZeroRng.mk 64).1 : F) = 0 := by
  have : leVal (RngCore.fill ZeroRng.mk 64).1 = 0 := leVal_replicate_zero 64
  rw [this]; rfl

end Verif
