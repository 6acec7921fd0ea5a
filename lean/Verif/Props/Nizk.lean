import Verif.Lemmas.Uniform
import Verif.Model.Proofs
import Verif.Toy
import Mathlib.Tactic.Module
import Mathlib.Tactic.LinearCombination

/-!
# The five proof systems (C29–C31)

Each `Spec.…` relation is copied by hand from the `create_nipk!` declarations in `proofs_macros.rs`,
independently of the expanded code in the model.
-/

set_option maxRecDepth 100000

namespace Verif

variable {G : Type} [AddCommGroup G] [Module F G] [Ristretto G]

/-- A second toy hash, different from `toyOracle` everywhere. -/
def toyOracle2 : Oracle where
  chal t _ n := leBytes n (t.length + 2)
  chal_length _ _ _ := leBytes_length _ _
  rng t w e d n := toyOracle.rng t w e d n
  rng_length := toyOracle.rng_length

omit [Ristretto G] in
/-- Two linear equations with different challenges yield the quotient. -/
theorem extract_smul (c c' r r' : F) (P : G) :
    ((r - r') / (c - c')) • P = (c - c')⁻¹ • (r • P - r' • P) := by
  rw [div_eq_inv_mul, mul_smul, sub_smul]

omit [Ristretto G] in
theorem extract_point {c c' : F} (hc : c - c' ≠ 0) {P X : G} (h : X = c • P - c' • P) :
    P = (c - c')⁻¹ • X := by
  rw [h, ← sub_smul, smul_smul, inv_mul_cancel₀ hc, one_smul]

/-! ## IssuanceRevealed (proofs_macros.rs:43-50) -/

/-- The declared statement. -/
def Spec.IssuanceRevealed (p : IssuanceRevealed.Publics G) (s : IssuanceRevealed.Secrets) : Prop :=
  p.Q = s.x0.val • p.P + s.m1x1.val • p.P ∧
  p.Cx0 = s.x0.val • p.B + s.x0_tilde.val • p.A ∧
  p.X1 = s.x1.val • p.A

namespace IssuanceRevealed

omit [Ristretto G] in
/-- The commitments recomputed from an honest proof are the original ones. -/
theorem recommit_respond {p : Publics G} {s : Secrets} (h : Spec.IssuanceRevealed p s) (rand : Randomnesses)
    (c : Scalar) : recommit p ⟨c, respond c s rand⟩ = commitmentsOf p rand := by
  obtain ⟨h0, h1, h2⟩ := h
  simp only [recommit, respond, commitmentsOf, msm, List.zipWith_cons_cons, List.zipWith_nil_right,
    List.sum_cons, List.sum_nil, Scalar.smul_def, Scalar.val_add, Scalar.val_mul, Scalar.val_neg]
  apply Commitments.ext
  · dsimp only; rw [h0]; module
  · dsimp only; rw [h1]; module
  · dsimp only; rw [h2]; module

/-- C29: proofs of true statements verify, for every random tape. -/
theorem C29_complete_any (O : Oracle) (t : Transcript) {p : Publics G} {s : Secrets}
    (h : Spec.IssuanceRevealed p s) (rand : Randomnesses) :
    verify O t (createWith O t p s rand) p = true := by
  have key := recommit_respond h rand
  have e : ∀ c, commitCommitments (commitPublics t p) c = verifyTranscript t p c := by
    intro c
    simp only [commitCommitments, commitPublics, verifyTranscript, List.append_assoc,
      List.cons_append, List.nil_append]
  simp only [verify, createWith, key, e, decide_true]

/-- C29: the proof made by `create` verifies. -/
theorem C29_complete (O : Oracle) (t : Transcript) (entropy : Bytes) {p : Publics G} {s : Secrets}
    (h : Spec.IssuanceRevealed p s) : verify O t (create O t entropy p s) p = true :=
  C29_complete_any O t h _

/-- A true statement. -/
example : Spec.IssuanceRevealed (⟨2, 76, 11, 1, 4, 20⟩ : Publics F)
    ⟨⟨3, by decide⟩, ⟨5, by decide⟩, ⟨2, by decide⟩, ⟨35, by decide⟩⟩ := by
  simp only [Spec.IssuanceRevealed]
  decide +kernel

/-- The extractor: `(r₁ - r₂)/(c₁ - c₂)` for each response. -/
def extract (r₁ r₂ : Proof) : Secrets where
  x0 := Scalar.ofF
    ((r₁.responses.x0.val - r₂.responses.x0.val) / (r₁.challenge.val - r₂.challenge.val))
  x1 := Scalar.ofF
    ((r₁.responses.x1.val - r₂.responses.x1.val) / (r₁.challenge.val - r₂.challenge.val))
  x0_tilde := Scalar.ofF
    ((r₁.responses.x0_tilde.val - r₂.responses.x0_tilde.val) / (r₁.challenge.val - r₂.challenge.val))
  m1x1 := Scalar.ofF
    ((r₁.responses.m1x1.val - r₂.responses.m1x1.val) / (r₁.challenge.val - r₂.challenge.val))

/-- C30: two accepting proofs for the same publics that made the same hash query, the hash answering
differently (`O₁`, `O₂`), give secrets satisfying the statement. -/
theorem C30_special_sound {O₁ O₂ : Oracle} {t : Transcript} {p : Publics G} {r₁ r₂ : Proof}
    (h₁ : verify O₁ t r₁ p = true) (h₂ : verify O₂ t r₂ p = true)
    (hq : verifyTranscript t p (recommit p r₁) = verifyTranscript t p (recommit p r₂))
    (hc : (leVal (O₁.chal (verifyTranscript t p (recommit p r₁)) "chal" 64) : F) ≠
      leVal (O₂.chal (verifyTranscript t p (recommit p r₁)) "chal" 64)) :
    Spec.IssuanceRevealed p (extract r₁ r₂) := by
  have h₁ := of_decide_eq_true h₁
  have h₂ := of_decide_eq_true h₂
  simp only [getChallenge] at h₁ h₂
  rw [← hq] at h₂
  have hne : r₁.challenge.val - r₂.challenge.val ≠ 0 := by
    rw [← h₁, ← h₂, sub_ne_zero]
    simpa only [Scalar.fromWide, Scalar.val_ofF] using hc
  clear h₁ h₂ hc
  simp only [verifyTranscript, List.append_cancel_left_eq, List.cons.injEq, Op.commit.injEq, true_and,
    enc_inj_iff, and_true, recommit, msm, List.zipWith_cons_cons, List.zipWith_nil_right,
    List.sum_cons, List.sum_nil, Scalar.smul_def, Scalar.val_neg] at hq
  obtain ⟨h0, h1, h2⟩ := hq
  simp only [Spec.IssuanceRevealed, extract, Scalar.val_ofF, extract_smul, ← smul_add]
  refine ⟨?_, ?_, ?_⟩
  · apply extract_point hne
    linear_combination (norm := module) h0
  · apply extract_point hne
    linear_combination (norm := module) h1
  · apply extract_point hne
    linear_combination (norm := module) h2

/-- Such pairs of proofs exist. -/
example : ∃ (p : Publics F) (r₁ r₂ : Proof), verify toyOracle [] r₁ p = true ∧
    verify toyOracle2 [] r₂ p = true ∧
    verifyTranscript [] p (recommit p r₁) = verifyTranscript [] p (recommit p r₂) ∧
    (leVal (toyOracle.chal (verifyTranscript [] p (recommit p r₁)) "chal" 64) : F) ≠
      leVal (toyOracle2.chal (verifyTranscript [] p (recommit p r₁)) "chal" 64) :=
  let p : Publics F := ⟨2, 76, 11, 1, 4, 20⟩
  let s : Secrets := ⟨⟨3, by decide⟩, ⟨5, by decide⟩, ⟨2, by decide⟩, ⟨35, by decide⟩⟩
  let rand : Randomnesses := ⟨⟨23, by decide⟩, ⟨25, by decide⟩, ⟨22, by decide⟩, ⟨55, by decide⟩⟩
  ⟨p, createWith toyOracle [] p s rand, createWith toyOracle2 [] p s rand, by decide +kernel,
    by decide +kernel, by decide +kernel, by decide +kernel⟩

/-- Field elements as the prover's randomness. -/
def randOf (u : F × F × F × F) : Randomnesses := ⟨Scalar.ofF u.1, Scalar.ofF u.2.1, Scalar.ofF u.2.2.1, Scalar.ofF u.2.2.2⟩

/-- Field elements as responses. -/
def respOf (u : F × F × F × F) : Responses := ⟨Scalar.ofF u.1, Scalar.ofF u.2.1, Scalar.ofF u.2.2.1, Scalar.ofF u.2.2.2⟩

omit [Ristretto G] in
/-- C31: for every challenge, an honest execution with uniform randomness has the same distribution of
(commitments, responses) as choosing uniform responses and computing the commitments from the
publics alone. -/
theorem C31_simulatable {p : Publics G} {s : Secrets} (h : Spec.IssuanceRevealed p s) (c : Scalar) :
    (PMF.uniformOfFintype (F × F × F × F)).map
        (fun u => (commitmentsOf p (randOf u), respond c s (randOf u))) =
      (PMF.uniformOfFintype (F × F × F × F)).map (fun u => (recommit p ⟨c, respOf u⟩, respOf u)) := by
  obtain ⟨h0, h1, h2⟩ := h
  apply uniform_map_eq (((Equiv.addLeft (c.val * s.x0.val)).prodCongr ((Equiv.addLeft (c.val * s.x1.val)).prodCongr ((Equiv.addLeft (c.val * s.x0_tilde.val)).prodCongr (Equiv.addLeft (c.val * s.m1x1.val))))))
  intro u
  apply Prod.ext
  · simp only [recommit, respOf, randOf, commitmentsOf, msm, List.zipWith_cons_cons,
      List.zipWith_nil_right, List.sum_cons, List.sum_nil, Scalar.smul_def, Scalar.val_neg,
      Scalar.val_ofF, Equiv.prodCongr_apply, Prod.map, Equiv.coe_addLeft]
    apply Commitments.ext
    · dsimp only; rw [h0]; module
    · dsimp only; rw [h1]; module
    · dsimp only; rw [h2]; module
  · simp only [respond, respOf, randOf, Scalar.add_def, Scalar.val_mul, Scalar.val_ofF,
      Equiv.prodCongr_apply, Prod.map, Equiv.coe_addLeft]

/-- C31: a simulated execution is accepted when the hash answers its query with the chosen challenge. -/
theorem C31_simulated_accepted (O : Oracle) (t : Transcript) (p : Publics G) (b : Bytes) (z : Responses)
    (h : O.chal (verifyTranscript t p (recommit p ⟨Scalar.fromWide b, z⟩)) "chal" 64 = b) :
    verify O t ⟨Scalar.fromWide b, z⟩ p = true := by
  simp only [verify, getChallenge, h, decide_true]

example : ∃ (p : Publics F) (b : Bytes) (z : Responses),
    toyOracle.chal (verifyTranscript [] p (recommit p ⟨Scalar.fromWide b, z⟩)) "chal" 64 = b :=
  let p : Publics F := ⟨2, 76, 11, 1, 4, 20⟩
  let r : Proof := createWith toyOracle [] p
    ⟨⟨3, by decide⟩, ⟨5, by decide⟩, ⟨2, by decide⟩, ⟨35, by decide⟩⟩
    ⟨⟨23, by decide⟩, ⟨25, by decide⟩, ⟨22, by decide⟩, ⟨55, by decide⟩⟩
  ⟨p, toyOracle.chal (verifyTranscript [] p (recommit p r)) "chal" 64, r.responses, by decide +kernel⟩

end IssuanceRevealed

/-! ## AttributesBlinded (proofs_macros.rs:72-79) -/

/-- The declared statement. -/
def Spec.AttributesBlinded (p : AttributesBlinded.Publics G) (s : AttributesBlinded.Secrets) : Prop :=
  p.D = s.d.val • p.B ∧
  p.encrypted_attribute_0_0 = s.e0.val • p.B ∧
  p.encrypted_attribute_0_1 = s.m0.val • p.B + s.e0.val • p.D

namespace AttributesBlinded

omit [Ristretto G] in
/-- The commitments recomputed from an honest proof are the original ones. -/
theorem recommit_respond {p : Publics G} {s : Secrets} (h : Spec.AttributesBlinded p s) (rand : Randomnesses)
    (c : Scalar) : recommit p ⟨c, respond c s rand⟩ = commitmentsOf p rand := by
  obtain ⟨h0, h1, h2⟩ := h
  simp only [recommit, respond, commitmentsOf, msm, List.zipWith_cons_cons, List.zipWith_nil_right,
    List.sum_cons, List.sum_nil, Scalar.smul_def, Scalar.val_add, Scalar.val_mul, Scalar.val_neg]
  apply Commitments.ext
  · dsimp only; rw [h0]; module
  · dsimp only; rw [h1]; module
  · dsimp only; rw [h2]; module

/-- C29: proofs of true statements verify, for every random tape. -/
theorem C29_complete_any (O : Oracle) (t : Transcript) {p : Publics G} {s : Secrets}
    (h : Spec.AttributesBlinded p s) (rand : Randomnesses) :
    verify O t (createWith O t p s rand) p = true := by
  have key := recommit_respond h rand
  have e : ∀ c, commitCommitments (commitPublics t p) c = verifyTranscript t p c := by
    intro c
    simp only [commitCommitments, commitPublics, verifyTranscript, List.append_assoc,
      List.cons_append, List.nil_append]
  simp only [verify, createWith, key, e, decide_true]

/-- C29: the proof made by `create` verifies. -/
theorem C29_complete (O : Oracle) (t : Transcript) (entropy : Bytes) {p : Publics G} {s : Secrets}
    (h : Spec.AttributesBlinded p s) : verify O t (create O t entropy p s) p = true :=
  C29_complete_any O t h _

/-- A true statement. -/
example : Spec.AttributesBlinded (⟨1, 4, 3, 5, 17⟩ : Publics F)
    ⟨⟨3, by decide⟩, ⟨5, by decide⟩, ⟨2, by decide⟩, ⟨9, by decide⟩⟩ := by
  simp only [Spec.AttributesBlinded]
  decide +kernel

/-- The extractor: `(r₁ - r₂)/(c₁ - c₂)` for each response. -/
def extract (r₁ r₂ : Proof) : Secrets where
  d := Scalar.ofF
    ((r₁.responses.d.val - r₂.responses.d.val) / (r₁.challenge.val - r₂.challenge.val))
  e0 := Scalar.ofF
    ((r₁.responses.e0.val - r₂.responses.e0.val) / (r₁.challenge.val - r₂.challenge.val))
  m0 := Scalar.ofF
    ((r₁.responses.m0.val - r₂.responses.m0.val) / (r₁.challenge.val - r₂.challenge.val))
  nonce := Scalar.ofF
    ((r₁.responses.nonce.val - r₂.responses.nonce.val) / (r₁.challenge.val - r₂.challenge.val))

/-- C30: two accepting proofs for the same publics that made the same hash query, the hash answering
differently (`O₁`, `O₂`), give secrets satisfying the statement. -/
theorem C30_special_sound {O₁ O₂ : Oracle} {t : Transcript} {p : Publics G} {r₁ r₂ : Proof}
    (h₁ : verify O₁ t r₁ p = true) (h₂ : verify O₂ t r₂ p = true)
    (hq : verifyTranscript t p (recommit p r₁) = verifyTranscript t p (recommit p r₂))
    (hc : (leVal (O₁.chal (verifyTranscript t p (recommit p r₁)) "chal" 64) : F) ≠
      leVal (O₂.chal (verifyTranscript t p (recommit p r₁)) "chal" 64)) :
    Spec.AttributesBlinded p (extract r₁ r₂) := by
  have h₁ := of_decide_eq_true h₁
  have h₂ := of_decide_eq_true h₂
  simp only [getChallenge] at h₁ h₂
  rw [← hq] at h₂
  have hne : r₁.challenge.val - r₂.challenge.val ≠ 0 := by
    rw [← h₁, ← h₂, sub_ne_zero]
    simpa only [Scalar.fromWide, Scalar.val_ofF] using hc
  clear h₁ h₂ hc
  simp only [verifyTranscript, List.append_cancel_left_eq, List.cons.injEq, Op.commit.injEq, true_and,
    enc_inj_iff, and_true, recommit, msm, List.zipWith_cons_cons, List.zipWith_nil_right,
    List.sum_cons, List.sum_nil, Scalar.smul_def, Scalar.val_neg] at hq
  obtain ⟨h0, h1, h2⟩ := hq
  simp only [Spec.AttributesBlinded, extract, Scalar.val_ofF, extract_smul, ← smul_add]
  refine ⟨?_, ?_, ?_⟩
  · apply extract_point hne
    linear_combination (norm := module) h0
  · apply extract_point hne
    linear_combination (norm := module) h1
  · apply extract_point hne
    linear_combination (norm := module) h2

/-- Such pairs of proofs exist. -/
example : ∃ (p : Publics F) (r₁ r₂ : Proof), verify toyOracle [] r₁ p = true ∧
    verify toyOracle2 [] r₂ p = true ∧
    verifyTranscript [] p (recommit p r₁) = verifyTranscript [] p (recommit p r₂) ∧
    (leVal (toyOracle.chal (verifyTranscript [] p (recommit p r₁)) "chal" 64) : F) ≠
      leVal (toyOracle2.chal (verifyTranscript [] p (recommit p r₁)) "chal" 64) :=
  let p : Publics F := ⟨1, 4, 3, 5, 17⟩
  let s : Secrets := ⟨⟨3, by decide⟩, ⟨5, by decide⟩, ⟨2, by decide⟩, ⟨9, by decide⟩⟩
  let rand : Randomnesses := ⟨⟨23, by decide⟩, ⟨25, by decide⟩, ⟨22, by decide⟩, ⟨29, by decide⟩⟩
  ⟨p, createWith toyOracle [] p s rand, createWith toyOracle2 [] p s rand, by decide +kernel,
    by decide +kernel, by decide +kernel, by decide +kernel⟩

/-- The `nonce` response is never used: it can be replaced freely, so nothing about `nonce` is
proved and accepted proofs can be modified. -/
theorem C30_nonce_unused (O : Oracle) (t : Transcript) (p : Publics G) (r : Proof) (n : Scalar) :
    verify O t ⟨r.challenge, { r.responses with nonce := n }⟩ p = verify O t r p := rfl

/-- Field elements as the prover's randomness. -/
def randOf (u : F × F × F × F) : Randomnesses := ⟨Scalar.ofF u.1, Scalar.ofF u.2.1, Scalar.ofF u.2.2.1, Scalar.ofF u.2.2.2⟩

/-- Field elements as responses. -/
def respOf (u : F × F × F × F) : Responses := ⟨Scalar.ofF u.1, Scalar.ofF u.2.1, Scalar.ofF u.2.2.1, Scalar.ofF u.2.2.2⟩

omit [Ristretto G] in
/-- C31: for every challenge, an honest execution with uniform randomness has the same distribution of
(commitments, responses) as choosing uniform responses and computing the commitments from the
publics alone. -/
theorem C31_simulatable {p : Publics G} {s : Secrets} (h : Spec.AttributesBlinded p s) (c : Scalar) :
    (PMF.uniformOfFintype (F × F × F × F)).map
        (fun u => (commitmentsOf p (randOf u), respond c s (randOf u))) =
      (PMF.uniformOfFintype (F × F × F × F)).map (fun u => (recommit p ⟨c, respOf u⟩, respOf u)) := by
  obtain ⟨h0, h1, h2⟩ := h
  apply uniform_map_eq (((Equiv.addLeft (c.val * s.d.val)).prodCongr ((Equiv.addLeft (c.val * s.e0.val)).prodCongr ((Equiv.addLeft (c.val * s.m0.val)).prodCongr (Equiv.addLeft (c.val * s.nonce.val))))))
  intro u
  apply Prod.ext
  · simp only [recommit, respOf, randOf, commitmentsOf, msm, List.zipWith_cons_cons,
      List.zipWith_nil_right, List.sum_cons, List.sum_nil, Scalar.smul_def, Scalar.val_neg,
      Scalar.val_ofF, Equiv.prodCongr_apply, Prod.map, Equiv.coe_addLeft]
    apply Commitments.ext
    · dsimp only; rw [h0]; module
    · dsimp only; rw [h1]; module
    · dsimp only; rw [h2]; module
  · simp only [respond, respOf, randOf, Scalar.add_def, Scalar.val_mul, Scalar.val_ofF,
      Equiv.prodCongr_apply, Prod.map, Equiv.coe_addLeft]

/-- C31: a simulated execution is accepted when the hash answers its query with the chosen challenge. -/
theorem C31_simulated_accepted (O : Oracle) (t : Transcript) (p : Publics G) (b : Bytes) (z : Responses)
    (h : O.chal (verifyTranscript t p (recommit p ⟨Scalar.fromWide b, z⟩)) "chal" 64 = b) :
    verify O t ⟨Scalar.fromWide b, z⟩ p = true := by
  simp only [verify, getChallenge, h, decide_true]

example : ∃ (p : Publics F) (b : Bytes) (z : Responses),
    toyOracle.chal (verifyTranscript [] p (recommit p ⟨Scalar.fromWide b, z⟩)) "chal" 64 = b :=
  let p : Publics F := ⟨1, 4, 3, 5, 17⟩
  let r : Proof := createWith toyOracle [] p
    ⟨⟨3, by decide⟩, ⟨5, by decide⟩, ⟨2, by decide⟩, ⟨9, by decide⟩⟩
    ⟨⟨23, by decide⟩, ⟨25, by decide⟩, ⟨22, by decide⟩, ⟨29, by decide⟩⟩
  ⟨p, toyOracle.chal (verifyTranscript [] p (recommit p r)) "chal" 64, r.responses, by decide +kernel⟩

end AttributesBlinded

/-! ## IssuanceBlinded (proofs_macros.rs:87-102) -/

/-- The declared statement. -/
def Spec.IssuanceBlinded (p : IssuanceBlinded.Publics G) (s : IssuanceBlinded.Secrets) : Prop :=
  p.X0 = s.x0.val • p.B + s.x0_tilde.val • p.A ∧
  p.X1 = s.x1.val • p.A ∧
  p.P = s.b.val • p.B ∧
  p.T0_0 = s.b.val • p.X0 ∧
  p.T0_1 = s.t0.val • p.A ∧
  p.EQ_commitment = s.s.val • p.B + s.t0.val • p.encrypted_attribute_0_0 ∧
  p.EQ_encryption = s.s.val • p.D + s.t0.val • p.encrypted_attribute_0_1

namespace IssuanceBlinded

omit [Ristretto G] in
/-- The commitments recomputed from an honest proof are the original ones. -/
theorem recommit_respond {p : Publics G} {s : Secrets} (h : Spec.IssuanceBlinded p s) (rand : Randomnesses)
    (c : Scalar) : recommit p ⟨c, respond c s rand⟩ = commitmentsOf p rand := by
  obtain ⟨h0, h1, h2, h3, h4, h5, h6⟩ := h
  simp only [recommit, respond, commitmentsOf, msm, List.zipWith_cons_cons, List.zipWith_nil_right,
    List.sum_cons, List.sum_nil, Scalar.smul_def, Scalar.val_add, Scalar.val_mul, Scalar.val_neg]
  apply Commitments.ext
  · dsimp only; rw [h0]; module
  · dsimp only; rw [h1]; module
  · dsimp only; rw [h2]; module
  · dsimp only; rw [h3]; module
  · dsimp only; rw [h4]; module
  · dsimp only; rw [h5]; module
  · dsimp only; rw [h6]; module

/-- C29: proofs of true statements verify, for every random tape. -/
theorem C29_complete_any (O : Oracle) (t : Transcript) {p : Publics G} {s : Secrets}
    (h : Spec.IssuanceBlinded p s) (rand : Randomnesses) :
    verify O t (createWith O t p s rand) p = true := by
  have key := recommit_respond h rand
  have e : ∀ c, commitCommitments (commitPublics t p) c = verifyTranscript t p c := by
    intro c
    simp only [commitCommitments, commitPublics, verifyTranscript, List.append_assoc,
      List.cons_append, List.nil_append]
  simp only [verify, createWith, key, e, decide_true]

/-- C29: the proof made by `create` verifies. -/
theorem C29_complete (O : Oracle) (t : Transcript) (entropy : Bytes) {p : Publics G} {s : Secrets}
    (h : Spec.IssuanceBlinded p s) : verify O t (create O t entropy p s) p = true :=
  C29_complete_any O t h _

/-- A true statement. -/
example : Spec.IssuanceBlinded (⟨1, 4, 17, 8, 7, 6, 102, 32, 89, 151, 10, 11⟩ : Publics F)
    ⟨⟨3, by decide⟩, ⟨5, by decide⟩, ⟨2, by decide⟩, ⟨9, by decide⟩, ⟨6, by decide⟩, ⟨8, by decide⟩⟩ := by
  simp only [Spec.IssuanceBlinded]
  decide +kernel

/-- The extractor: `(r₁ - r₂)/(c₁ - c₂)` for each response. -/
def extract (r₁ r₂ : Proof) : Secrets where
  x0_tilde := Scalar.ofF
    ((r₁.responses.x0_tilde.val - r₂.responses.x0_tilde.val) / (r₁.challenge.val - r₂.challenge.val))
  x0 := Scalar.ofF
    ((r₁.responses.x0.val - r₂.responses.x0.val) / (r₁.challenge.val - r₂.challenge.val))
  x1 := Scalar.ofF
    ((r₁.responses.x1.val - r₂.responses.x1.val) / (r₁.challenge.val - r₂.challenge.val))
  s := Scalar.ofF
    ((r₁.responses.s.val - r₂.responses.s.val) / (r₁.challenge.val - r₂.challenge.val))
  b := Scalar.ofF
    ((r₁.responses.b.val - r₂.responses.b.val) / (r₁.challenge.val - r₂.challenge.val))
  t0 := Scalar.ofF
    ((r₁.responses.t0.val - r₂.responses.t0.val) / (r₁.challenge.val - r₂.challenge.val))

/-- C30: two accepting proofs for the same publics that made the same hash query, the hash answering
differently (`O₁`, `O₂`), give secrets satisfying the statement. -/
theorem C30_special_sound {O₁ O₂ : Oracle} {t : Transcript} {p : Publics G} {r₁ r₂ : Proof}
    (h₁ : verify O₁ t r₁ p = true) (h₂ : verify O₂ t r₂ p = true)
    (hq : verifyTranscript t p (recommit p r₁) = verifyTranscript t p (recommit p r₂))
    (hc : (leVal (O₁.chal (verifyTranscript t p (recommit p r₁)) "chal" 64) : F) ≠
      leVal (O₂.chal (verifyTranscript t p (recommit p r₁)) "chal" 64)) :
    Spec.IssuanceBlinded p (extract r₁ r₂) := by
  have h₁ := of_decide_eq_true h₁
  have h₂ := of_decide_eq_true h₂
  simp only [getChallenge] at h₁ h₂
  rw [← hq] at h₂
  have hne : r₁.challenge.val - r₂.challenge.val ≠ 0 := by
    rw [← h₁, ← h₂, sub_ne_zero]
    simpa only [Scalar.fromWide, Scalar.val_ofF] using hc
  clear h₁ h₂ hc
  simp only [verifyTranscript, List.append_cancel_left_eq, List.cons.injEq, Op.commit.injEq, true_and,
    enc_inj_iff, and_true, recommit, msm, List.zipWith_cons_cons, List.zipWith_nil_right,
    List.sum_cons, List.sum_nil, Scalar.smul_def, Scalar.val_neg] at hq
  obtain ⟨h0, h1, h2, h3, h4, h5, h6⟩ := hq
  simp only [Spec.IssuanceBlinded, extract, Scalar.val_ofF, extract_smul, ← smul_add]
  refine ⟨?_, ?_, ?_, ?_, ?_, ?_, ?_⟩
  · apply extract_point hne
    linear_combination (norm := module) h0
  · apply extract_point hne
    linear_combination (norm := module) h1
  · apply extract_point hne
    linear_combination (norm := module) h2
  · apply extract_point hne
    linear_combination (norm := module) h3
  · apply extract_point hne
    linear_combination (norm := module) h4
  · apply extract_point hne
    linear_combination (norm := module) h5
  · apply extract_point hne
    linear_combination (norm := module) h6

/-- Such pairs of proofs exist. -/
example : ∃ (p : Publics F) (r₁ r₂ : Proof), verify toyOracle [] r₁ p = true ∧
    verify toyOracle2 [] r₂ p = true ∧
    verifyTranscript [] p (recommit p r₁) = verifyTranscript [] p (recommit p r₂) ∧
    (leVal (toyOracle.chal (verifyTranscript [] p (recommit p r₁)) "chal" 64) : F) ≠
      leVal (toyOracle2.chal (verifyTranscript [] p (recommit p r₁)) "chal" 64) :=
  let p : Publics F := ⟨1, 4, 17, 8, 7, 6, 102, 32, 89, 151, 10, 11⟩
  let s : Secrets := ⟨⟨3, by decide⟩, ⟨5, by decide⟩, ⟨2, by decide⟩, ⟨9, by decide⟩, ⟨6, by decide⟩, ⟨8, by decide⟩⟩
  let rand : Randomnesses := ⟨⟨23, by decide⟩, ⟨25, by decide⟩, ⟨22, by decide⟩, ⟨29, by decide⟩, ⟨26, by decide⟩, ⟨28, by decide⟩⟩
  ⟨p, createWith toyOracle [] p s rand, createWith toyOracle2 [] p s rand, by decide +kernel,
    by decide +kernel, by decide +kernel, by decide +kernel⟩

/-- Field elements as the prover's randomness. -/
def randOf (u : F × F × F × F × F × F) : Randomnesses := ⟨Scalar.ofF u.1, Scalar.ofF u.2.1, Scalar.ofF u.2.2.1, Scalar.ofF u.2.2.2.1, Scalar.ofF u.2.2.2.2.1, Scalar.ofF u.2.2.2.2.2⟩

/-- Field elements as responses. -/
def respOf (u : F × F × F × F × F × F) : Responses := ⟨Scalar.ofF u.1, Scalar.ofF u.2.1, Scalar.ofF u.2.2.1, Scalar.ofF u.2.2.2.1, Scalar.ofF u.2.2.2.2.1, Scalar.ofF u.2.2.2.2.2⟩

omit [Ristretto G] in
/-- C31: for every challenge, an honest execution with uniform randomness has the same distribution of
(commitments, responses) as choosing uniform responses and computing the commitments from the
publics alone. -/
theorem C31_simulatable {p : Publics G} {s : Secrets} (h : Spec.IssuanceBlinded p s) (c : Scalar) :
    (PMF.uniformOfFintype (F × F × F × F × F × F)).map
        (fun u => (commitmentsOf p (randOf u), respond c s (randOf u))) =
      (PMF.uniformOfFintype (F × F × F × F × F × F)).map (fun u => (recommit p ⟨c, respOf u⟩, respOf u)) := by
  obtain ⟨h0, h1, h2, h3, h4, h5, h6⟩ := h
  apply uniform_map_eq (((Equiv.addLeft (c.val * s.x0_tilde.val)).prodCongr ((Equiv.addLeft (c.val * s.x0.val)).prodCongr ((Equiv.addLeft (c.val * s.x1.val)).prodCongr ((Equiv.addLeft (c.val * s.s.val)).prodCongr ((Equiv.addLeft (c.val * s.b.val)).prodCongr (Equiv.addLeft (c.val * s.t0.val))))))))
  intro u
  apply Prod.ext
  · simp only [recommit, respOf, randOf, commitmentsOf, msm, List.zipWith_cons_cons,
      List.zipWith_nil_right, List.sum_cons, List.sum_nil, Scalar.smul_def, Scalar.val_neg,
      Scalar.val_ofF, Equiv.prodCongr_apply, Prod.map, Equiv.coe_addLeft]
    apply Commitments.ext
    · dsimp only; rw [h0]; module
    · dsimp only; rw [h1]; module
    · dsimp only; rw [h2]; module
    · dsimp only; rw [h3]; module
    · dsimp only; rw [h4]; module
    · dsimp only; rw [h5]; module
    · dsimp only; rw [h6]; module
  · simp only [respond, respOf, randOf, Scalar.add_def, Scalar.val_mul, Scalar.val_ofF,
      Equiv.prodCongr_apply, Prod.map, Equiv.coe_addLeft]

/-- C31: a simulated execution is accepted when the hash answers its query with the chosen challenge. -/
theorem C31_simulated_accepted (O : Oracle) (t : Transcript) (p : Publics G) (b : Bytes) (z : Responses)
    (h : O.chal (verifyTranscript t p (recommit p ⟨Scalar.fromWide b, z⟩)) "chal" 64 = b) :
    verify O t ⟨Scalar.fromWide b, z⟩ p = true := by
  simp only [verify, getChallenge, h, decide_true]

example : ∃ (p : Publics F) (b : Bytes) (z : Responses),
    toyOracle.chal (verifyTranscript [] p (recommit p ⟨Scalar.fromWide b, z⟩)) "chal" 64 = b :=
  let p : Publics F := ⟨1, 4, 17, 8, 7, 6, 102, 32, 89, 151, 10, 11⟩
  let r : Proof := createWith toyOracle [] p
    ⟨⟨3, by decide⟩, ⟨5, by decide⟩, ⟨2, by decide⟩, ⟨9, by decide⟩, ⟨6, by decide⟩, ⟨8, by decide⟩⟩
    ⟨⟨23, by decide⟩, ⟨25, by decide⟩, ⟨22, by decide⟩, ⟨29, by decide⟩, ⟨26, by decide⟩, ⟨28, by decide⟩⟩
  ⟨p, toyOracle.chal (verifyTranscript [] p (recommit p r)) "chal" 64, r.responses, by decide +kernel⟩

end IssuanceBlinded

/-! ## ValidCredential (proofs_macros.rs:104-110) -/

/-- The declared statement. -/
def Spec.ValidCredential (p : ValidCredential.Publics G) (s : ValidCredential.Secrets) : Prop :=
  p.Cm0 = s.m0.val • p.P + s.z0.val • p.A ∧
  p.V = s.z0.val • p.X0 + s.minus_zQ.val • p.A

namespace ValidCredential

omit [Ristretto G] in
/-- The commitments recomputed from an honest proof are the original ones. -/
theorem recommit_respond {p : Publics G} {s : Secrets} (h : Spec.ValidCredential p s) (rand : Randomnesses)
    (c : Scalar) : recommit p ⟨c, respond c s rand⟩ = commitmentsOf p rand := by
  obtain ⟨h0, h1⟩ := h
  simp only [recommit, respond, commitmentsOf, msm, List.zipWith_cons_cons, List.zipWith_nil_right,
    List.sum_cons, List.sum_nil, Scalar.smul_def, Scalar.val_add, Scalar.val_mul, Scalar.val_neg]
  apply Commitments.ext
  · dsimp only; rw [h0]; module
  · dsimp only; rw [h1]; module

/-- C29: proofs of true statements verify, for every random tape. -/
theorem C29_complete_any (O : Oracle) (t : Transcript) {p : Publics G} {s : Secrets}
    (h : Spec.ValidCredential p s) (rand : Randomnesses) :
    verify O t (createWith O t p s rand) p = true := by
  have key := recommit_respond h rand
  have e : ∀ c, commitCommitments (commitPublics t p) c = verifyTranscript t p c := by
    intro c
    simp only [commitCommitments, commitPublics, verifyTranscript, List.append_assoc,
      List.cons_append, List.nil_append]
  simp only [verify, createWith, key, e, decide_true]

/-- C29: the proof made by `create` verifies. -/
theorem C29_complete (O : Oracle) (t : Transcript) (entropy : Bytes) {p : Publics G} {s : Secrets}
    (h : Spec.ValidCredential p s) : verify O t (create O t entropy p s) p = true :=
  C29_complete_any O t h _

/-- A true statement. -/
example : Spec.ValidCredential (⟨1, 4, 6, 7, 38, 41⟩ : Publics F)
    ⟨⟨3, by decide⟩, ⟨5, by decide⟩, ⟨2, by decide⟩⟩ := by
  simp only [Spec.ValidCredential]
  decide +kernel

/-- The extractor: `(r₁ - r₂)/(c₁ - c₂)` for each response. -/
def extract (r₁ r₂ : Proof) : Secrets where
  m0 := Scalar.ofF
    ((r₁.responses.m0.val - r₂.responses.m0.val) / (r₁.challenge.val - r₂.challenge.val))
  z0 := Scalar.ofF
    ((r₁.responses.z0.val - r₂.responses.z0.val) / (r₁.challenge.val - r₂.challenge.val))
  minus_zQ := Scalar.ofF
    ((r₁.responses.minus_zQ.val - r₂.responses.minus_zQ.val) / (r₁.challenge.val - r₂.challenge.val))

/-- C30: two accepting proofs for the same publics that made the same hash query, the hash answering
differently (`O₁`, `O₂`), give secrets satisfying the statement. -/
theorem C30_special_sound {O₁ O₂ : Oracle} {t : Transcript} {p : Publics G} {r₁ r₂ : Proof}
    (h₁ : verify O₁ t r₁ p = true) (h₂ : verify O₂ t r₂ p = true)
    (hq : verifyTranscript t p (recommit p r₁) = verifyTranscript t p (recommit p r₂))
    (hc : (leVal (O₁.chal (verifyTranscript t p (recommit p r₁)) "chal" 64) : F) ≠
      leVal (O₂.chal (verifyTranscript t p (recommit p r₁)) "chal" 64)) :
    Spec.ValidCredential p (extract r₁ r₂) := by
  have h₁ := of_decide_eq_true h₁
  have h₂ := of_decide_eq_true h₂
  simp only [getChallenge] at h₁ h₂
  rw [← hq] at h₂
  have hne : r₁.challenge.val - r₂.challenge.val ≠ 0 := by
    rw [← h₁, ← h₂, sub_ne_zero]
    simpa only [Scalar.fromWide, Scalar.val_ofF] using hc
  clear h₁ h₂ hc
  simp only [verifyTranscript, List.append_cancel_left_eq, List.cons.injEq, Op.commit.injEq, true_and,
    enc_inj_iff, and_true, recommit, msm, List.zipWith_cons_cons, List.zipWith_nil_right,
    List.sum_cons, List.sum_nil, Scalar.smul_def, Scalar.val_neg] at hq
  obtain ⟨h0, h1⟩ := hq
  simp only [Spec.ValidCredential, extract, Scalar.val_ofF, extract_smul, ← smul_add]
  refine ⟨?_, ?_⟩
  · apply extract_point hne
    linear_combination (norm := module) h0
  · apply extract_point hne
    linear_combination (norm := module) h1

/-- Such pairs of proofs exist. -/
example : ∃ (p : Publics F) (r₁ r₂ : Proof), verify toyOracle [] r₁ p = true ∧
    verify toyOracle2 [] r₂ p = true ∧
    verifyTranscript [] p (recommit p r₁) = verifyTranscript [] p (recommit p r₂) ∧
    (leVal (toyOracle.chal (verifyTranscript [] p (recommit p r₁)) "chal" 64) : F) ≠
      leVal (toyOracle2.chal (verifyTranscript [] p (recommit p r₁)) "chal" 64) :=
  let p : Publics F := ⟨1, 4, 6, 7, 38, 41⟩
  let s : Secrets := ⟨⟨3, by decide⟩, ⟨5, by decide⟩, ⟨2, by decide⟩⟩
  let rand : Randomnesses := ⟨⟨23, by decide⟩, ⟨25, by decide⟩, ⟨22, by decide⟩⟩
  ⟨p, createWith toyOracle [] p s rand, createWith toyOracle2 [] p s rand, by decide +kernel,
    by decide +kernel, by decide +kernel, by decide +kernel⟩

/-- Field elements as the prover's randomness. -/
def randOf (u : F × F × F) : Randomnesses := ⟨Scalar.ofF u.1, Scalar.ofF u.2.1, Scalar.ofF u.2.2⟩

/-- Field elements as responses. -/
def respOf (u : F × F × F) : Responses := ⟨Scalar.ofF u.1, Scalar.ofF u.2.1, Scalar.ofF u.2.2⟩

omit [Ristretto G] in
/-- C31: for every challenge, an honest execution with uniform randomness has the same distribution of
(commitments, responses) as choosing uniform responses and computing the commitments from the
publics alone. -/
theorem C31_simulatable {p : Publics G} {s : Secrets} (h : Spec.ValidCredential p s) (c : Scalar) :
    (PMF.uniformOfFintype (F × F × F)).map
        (fun u => (commitmentsOf p (randOf u), respond c s (randOf u))) =
      (PMF.uniformOfFintype (F × F × F)).map (fun u => (recommit p ⟨c, respOf u⟩, respOf u)) := by
  obtain ⟨h0, h1⟩ := h
  apply uniform_map_eq (((Equiv.addLeft (c.val * s.m0.val)).prodCongr ((Equiv.addLeft (c.val * s.z0.val)).prodCongr (Equiv.addLeft (c.val * s.minus_zQ.val)))))
  intro u
  apply Prod.ext
  · simp only [recommit, respOf, randOf, commitmentsOf, msm, List.zipWith_cons_cons,
      List.zipWith_nil_right, List.sum_cons, List.sum_nil, Scalar.smul_def, Scalar.val_neg,
      Scalar.val_ofF, Equiv.prodCongr_apply, Prod.map, Equiv.coe_addLeft]
    apply Commitments.ext
    · dsimp only; rw [h0]; module
    · dsimp only; rw [h1]; module
  · simp only [respond, respOf, randOf, Scalar.add_def, Scalar.val_mul, Scalar.val_ofF,
      Equiv.prodCongr_apply, Prod.map, Equiv.coe_addLeft]

/-- C31: a simulated execution is accepted when the hash answers its query with the chosen challenge. -/
theorem C31_simulated_accepted (O : Oracle) (t : Transcript) (p : Publics G) (b : Bytes) (z : Responses)
    (h : O.chal (verifyTranscript t p (recommit p ⟨Scalar.fromWide b, z⟩)) "chal" 64 = b) :
    verify O t ⟨Scalar.fromWide b, z⟩ p = true := by
  simp only [verify, getChallenge, h, decide_true]

example : ∃ (p : Publics F) (b : Bytes) (z : Responses),
    toyOracle.chal (verifyTranscript [] p (recommit p ⟨Scalar.fromWide b, z⟩)) "chal" 64 = b :=
  let p : Publics F := ⟨1, 4, 6, 7, 38, 41⟩
  let r : Proof := createWith toyOracle [] p
    ⟨⟨3, by decide⟩, ⟨5, by decide⟩, ⟨2, by decide⟩⟩
    ⟨⟨23, by decide⟩, ⟨25, by decide⟩, ⟨22, by decide⟩⟩
  ⟨p, toyOracle.chal (verifyTranscript [] p (recommit p r)) "chal" 64, r.responses, by decide +kernel⟩

end ValidCredential

/-! ## CommittedValuesEqual (proofs_macros.rs:114-121) -/

/-- The declared statement. -/
def Spec.CommittedValuesEqual (p : CommittedValuesEqual.Publics G) (s : CommittedValuesEqual.Secrets) : Prop :=
  p.Cm0 = s.m0.val • p.P + s.z0.val • p.A ∧
  p.Cm1 = s.m0.val • p.A + s.z1.val • p.B

namespace CommittedValuesEqual

omit [Ristretto G] in
/-- The commitments recomputed from an honest proof are the original ones. -/
theorem recommit_respond {p : Publics G} {s : Secrets} (h : Spec.CommittedValuesEqual p s) (rand : Randomnesses)
    (c : Scalar) : recommit p ⟨c, respond c s rand⟩ = commitmentsOf p rand := by
  obtain ⟨h0, h1⟩ := h
  simp only [recommit, respond, commitmentsOf, msm, List.zipWith_cons_cons, List.zipWith_nil_right,
    List.sum_cons, List.sum_nil, Scalar.smul_def, Scalar.val_add, Scalar.val_mul, Scalar.val_neg]
  apply Commitments.ext
  · dsimp only; rw [h0]; module
  · dsimp only; rw [h1]; module

/-- C29: proofs of true statements verify, for every random tape. -/
theorem C29_complete_any (O : Oracle) (t : Transcript) {p : Publics G} {s : Secrets}
    (h : Spec.CommittedValuesEqual p s) (rand : Randomnesses) :
    verify O t (createWith O t p s rand) p = true := by
  have key := recommit_respond h rand
  have e : ∀ c, commitCommitments (commitPublics t p) c = verifyTranscript t p c := by
    intro c
    simp only [commitCommitments, commitPublics, verifyTranscript, List.append_assoc,
      List.cons_append, List.nil_append]
  simp only [verify, createWith, key, e, decide_true]

/-- C29: the proof made by `create` verifies. -/
theorem C29_complete (O : Oracle) (t : Transcript) (entropy : Bytes) {p : Publics G} {s : Secrets}
    (h : Spec.CommittedValuesEqual p s) : verify O t (create O t entropy p s) p = true :=
  C29_complete_any O t h _

/-- A true statement. -/
example : Spec.CommittedValuesEqual (⟨1, 4, 7, 41, 14⟩ : Publics F)
    ⟨⟨3, by decide⟩, ⟨5, by decide⟩, ⟨2, by decide⟩⟩ := by
  simp only [Spec.CommittedValuesEqual]
  decide +kernel

/-- The extractor: `(r₁ - r₂)/(c₁ - c₂)` for each response. -/
def extract (r₁ r₂ : Proof) : Secrets where
  m0 := Scalar.ofF
    ((r₁.responses.m0.val - r₂.responses.m0.val) / (r₁.challenge.val - r₂.challenge.val))
  z0 := Scalar.ofF
    ((r₁.responses.z0.val - r₂.responses.z0.val) / (r₁.challenge.val - r₂.challenge.val))
  z1 := Scalar.ofF
    ((r₁.responses.z1.val - r₂.responses.z1.val) / (r₁.challenge.val - r₂.challenge.val))

/-- C30: two accepting proofs for the same publics that made the same hash query, the hash answering
differently (`O₁`, `O₂`), give secrets satisfying the statement. -/
theorem C30_special_sound {O₁ O₂ : Oracle} {t : Transcript} {p : Publics G} {r₁ r₂ : Proof}
    (h₁ : verify O₁ t r₁ p = true) (h₂ : verify O₂ t r₂ p = true)
    (hq : verifyTranscript t p (recommit p r₁) = verifyTranscript t p (recommit p r₂))
    (hc : (leVal (O₁.chal (verifyTranscript t p (recommit p r₁)) "chal" 64) : F) ≠
      leVal (O₂.chal (verifyTranscript t p (recommit p r₁)) "chal" 64)) :
    Spec.CommittedValuesEqual p (extract r₁ r₂) := by
  have h₁ := of_decide_eq_true h₁
  have h₂ := of_decide_eq_true h₂
  simp only [getChallenge] at h₁ h₂
  rw [← hq] at h₂
  have hne : r₁.challenge.val - r₂.challenge.val ≠ 0 := by
    rw [← h₁, ← h₂, sub_ne_zero]
    simpa only [Scalar.fromWide, Scalar.val_ofF] using hc
  clear h₁ h₂ hc
  simp only [verifyTranscript, List.append_cancel_left_eq, List.cons.injEq, Op.commit.injEq, true_and,
    enc_inj_iff, and_true, recommit, msm, List.zipWith_cons_cons, List.zipWith_nil_right,
    List.sum_cons, List.sum_nil, Scalar.smul_def, Scalar.val_neg] at hq
  obtain ⟨h0, h1⟩ := hq
  simp only [Spec.CommittedValuesEqual, extract, Scalar.val_ofF, extract_smul, ← smul_add]
  refine ⟨?_, ?_⟩
  · apply extract_point hne
    linear_combination (norm := module) h0
  · apply extract_point hne
    linear_combination (norm := module) h1

/-- Such pairs of proofs exist. -/
example : ∃ (p : Publics F) (r₁ r₂ : Proof), verify toyOracle [] r₁ p = true ∧
    verify toyOracle2 [] r₂ p = true ∧
    verifyTranscript [] p (recommit p r₁) = verifyTranscript [] p (recommit p r₂) ∧
    (leVal (toyOracle.chal (verifyTranscript [] p (recommit p r₁)) "chal" 64) : F) ≠
      leVal (toyOracle2.chal (verifyTranscript [] p (recommit p r₁)) "chal" 64) :=
  let p : Publics F := ⟨1, 4, 7, 41, 14⟩
  let s : Secrets := ⟨⟨3, by decide⟩, ⟨5, by decide⟩, ⟨2, by decide⟩⟩
  let rand : Randomnesses := ⟨⟨23, by decide⟩, ⟨25, by decide⟩, ⟨22, by decide⟩⟩
  ⟨p, createWith toyOracle [] p s rand, createWith toyOracle2 [] p s rand, by decide +kernel,
    by decide +kernel, by decide +kernel, by decide +kernel⟩

/-- Field elements as the prover's randomness. -/
def randOf (u : F × F × F) : Randomnesses := ⟨Scalar.ofF u.1, Scalar.ofF u.2.1, Scalar.ofF u.2.2⟩

/-- Field elements as responses. -/
def respOf (u : F × F × F) : Responses := ⟨Scalar.ofF u.1, Scalar.ofF u.2.1, Scalar.ofF u.2.2⟩

omit [Ristretto G] in
/-- C31: for every challenge, an honest execution with uniform randomness has the same distribution of
(commitments, responses) as choosing uniform responses and computing the commitments from the
publics alone. -/
theorem C31_simulatable {p : Publics G} {s : Secrets} (h : Spec.CommittedValuesEqual p s) (c : Scalar) :
    (PMF.uniformOfFintype (F × F × F)).map
        (fun u => (commitmentsOf p (randOf u), respond c s (randOf u))) =
      (PMF.uniformOfFintype (F × F × F)).map (fun u => (recommit p ⟨c, respOf u⟩, respOf u)) := by
  obtain ⟨h0, h1⟩ := h
  apply uniform_map_eq (((Equiv.addLeft (c.val * s.m0.val)).prodCongr ((Equiv.addLeft (c.val * s.z0.val)).prodCongr (Equiv.addLeft (c.val * s.z1.val)))))
  intro u
  apply Prod.ext
  · simp only [recommit, respOf, randOf, commitmentsOf, msm, List.zipWith_cons_cons,
      List.zipWith_nil_right, List.sum_cons, List.sum_nil, Scalar.smul_def, Scalar.val_neg,
      Scalar.val_ofF, Equiv.prodCongr_apply, Prod.map, Equiv.coe_addLeft]
    apply Commitments.ext
    · dsimp only; rw [h0]; module
    · dsimp only; rw [h1]; module
  · simp only [respond, respOf, randOf, Scalar.add_def, Scalar.val_mul, Scalar.val_ofF,
      Equiv.prodCongr_apply, Prod.map, Equiv.coe_addLeft]

/-- C31: a simulated execution is accepted when the hash answers its query with the chosen challenge. -/
theorem C31_simulated_accepted (O : Oracle) (t : Transcript) (p : Publics G) (b : Bytes) (z : Responses)
    (h : O.chal (verifyTranscript t p (recommit p ⟨Scalar.fromWide b, z⟩)) "chal" 64 = b) :
    verify O t ⟨Scalar.fromWide b, z⟩ p = true := by
  simp only [verify, getChallenge, h, decide_true]

example : ∃ (p : Publics F) (b : Bytes) (z : Responses),
    toyOracle.chal (verifyTranscript [] p (recommit p ⟨Scalar.fromWide b, z⟩)) "chal" 64 = b :=
  let p : Publics F := ⟨1, 4, 7, 41, 14⟩
  let r : Proof := createWith toyOracle [] p
    ⟨⟨3, by decide⟩, ⟨5, by decide⟩, ⟨2, by decide⟩⟩
    ⟨⟨23, by decide⟩, ⟨25, by decide⟩, ⟨22, by decide⟩⟩
  ⟨p, toyOracle.chal (verifyTranscript [] p (recommit p r)) "chal" 64, r.responses, by decide +kernel⟩

end CommittedValuesEqual

end Verif
