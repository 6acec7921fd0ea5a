import Verif.Lemmas.Simulation

/-!
# Zero knowledge in the random oracle model (C81)

An observer asks the hash, and asks for proofs of statements of its choice, adaptively. It cannot tell
honest proofs from proofs made without the secrets, by choosing the answer of the hash first, except with
probability `n(q+n)/ℓ`, for `q` queries and `n` proofs.
-/

set_option maxRecDepth 100000

namespace Verif

variable {G : Type} [AddCommGroup G] [Module F G] [Ristretto G]

/-! ## The two ways of proving -/

/-- An honest `IssuanceRevealed` proof with uniform randomness: the prover asks the hash once. -/
noncomputable def Spec.IssuanceRevealed.honest (O : Oracle) (t : Transcript) (p : IssuanceRevealed.Publics G)
    (s : IssuanceRevealed.Secrets) (l : Spec.HashLog)
    (k : Spec.HashLog → IssuanceRevealed.Proof → ℚ) : ℚ :=
  Spec.mean fun u : F × F × F × F => Spec.mean fun a : Spec.Answer =>
    let l' := l.asked (IssuanceRevealed.commitCommitments (IssuanceRevealed.commitPublics t p)
      (IssuanceRevealed.commitmentsOf p (IssuanceRevealed.randOf u))) a
    k l' (IssuanceRevealed.createWith (l'.oracle O) t p s (IssuanceRevealed.randOf u))

/-- A simulated `IssuanceRevealed` proof: an answer `a` and responses `z` are chosen uniformly, and `a` becomes the
answer to the query that the verifier will make (unless it was asked before). There are no secrets here. -/
noncomputable def Spec.IssuanceRevealed.simulated (t : Transcript) (p : IssuanceRevealed.Publics G)
    (l : Spec.HashLog) (k : Spec.HashLog → IssuanceRevealed.Proof → ℚ) : ℚ :=
  Spec.mean fun a : Spec.Answer => Spec.mean fun z : F × F × F × F =>
    let proof : IssuanceRevealed.Proof := ⟨Scalar.fromWide a.1, IssuanceRevealed.respOf z⟩
    k (l ++ [(IssuanceRevealed.verifyTranscript t p (IssuanceRevealed.recommit p proof), a)]) proof

/-- An honest `AttributesBlinded` proof with uniform randomness: the prover asks the hash once. -/
noncomputable def Spec.AttributesBlinded.honest (O : Oracle) (t : Transcript) (p : AttributesBlinded.Publics G)
    (s : AttributesBlinded.Secrets) (l : Spec.HashLog)
    (k : Spec.HashLog → AttributesBlinded.Proof → ℚ) : ℚ :=
  Spec.mean fun u : F × F × F × F => Spec.mean fun a : Spec.Answer =>
    let l' := l.asked (AttributesBlinded.commitCommitments (AttributesBlinded.commitPublics t p)
      (AttributesBlinded.commitmentsOf p (AttributesBlinded.randOf u))) a
    k l' (AttributesBlinded.createWith (l'.oracle O) t p s (AttributesBlinded.randOf u))

/-- A simulated `AttributesBlinded` proof: an answer `a` and responses `z` are chosen uniformly, and `a` becomes the
answer to the query that the verifier will make (unless it was asked before). There are no secrets here. -/
noncomputable def Spec.AttributesBlinded.simulated (t : Transcript) (p : AttributesBlinded.Publics G)
    (l : Spec.HashLog) (k : Spec.HashLog → AttributesBlinded.Proof → ℚ) : ℚ :=
  Spec.mean fun a : Spec.Answer => Spec.mean fun z : F × F × F × F =>
    let proof : AttributesBlinded.Proof := ⟨Scalar.fromWide a.1, AttributesBlinded.respOf z⟩
    k (l ++ [(AttributesBlinded.verifyTranscript t p (AttributesBlinded.recommit p proof), a)]) proof

/-- An honest `IssuanceBlinded` proof with uniform randomness: the prover asks the hash once. -/
noncomputable def Spec.IssuanceBlinded.honest (O : Oracle) (t : Transcript) (p : IssuanceBlinded.Publics G)
    (s : IssuanceBlinded.Secrets) (l : Spec.HashLog)
    (k : Spec.HashLog → IssuanceBlinded.Proof → ℚ) : ℚ :=
  Spec.mean fun u : F × F × F × F × F × F => Spec.mean fun a : Spec.Answer =>
    let l' := l.asked (IssuanceBlinded.commitCommitments (IssuanceBlinded.commitPublics t p)
      (IssuanceBlinded.commitmentsOf p (IssuanceBlinded.randOf u))) a
    k l' (IssuanceBlinded.createWith (l'.oracle O) t p s (IssuanceBlinded.randOf u))

/-- A simulated `IssuanceBlinded` proof: an answer `a` and responses `z` are chosen uniformly, and `a` becomes the
answer to the query that the verifier will make (unless it was asked before). There are no secrets here. -/
noncomputable def Spec.IssuanceBlinded.simulated (t : Transcript) (p : IssuanceBlinded.Publics G)
    (l : Spec.HashLog) (k : Spec.HashLog → IssuanceBlinded.Proof → ℚ) : ℚ :=
  Spec.mean fun a : Spec.Answer => Spec.mean fun z : F × F × F × F × F × F =>
    let proof : IssuanceBlinded.Proof := ⟨Scalar.fromWide a.1, IssuanceBlinded.respOf z⟩
    k (l ++ [(IssuanceBlinded.verifyTranscript t p (IssuanceBlinded.recommit p proof), a)]) proof

/-- An honest `ValidCredential` proof with uniform randomness: the prover asks the hash once. -/
noncomputable def Spec.ValidCredential.honest (O : Oracle) (t : Transcript) (p : ValidCredential.Publics G)
    (s : ValidCredential.Secrets) (l : Spec.HashLog)
    (k : Spec.HashLog → ValidCredential.Proof → ℚ) : ℚ :=
  Spec.mean fun u : F × F × F => Spec.mean fun a : Spec.Answer =>
    let l' := l.asked (ValidCredential.commitCommitments (ValidCredential.commitPublics t p)
      (ValidCredential.commitmentsOf p (ValidCredential.randOf u))) a
    k l' (ValidCredential.createWith (l'.oracle O) t p s (ValidCredential.randOf u))

/-- A simulated `ValidCredential` proof: an answer `a` and responses `z` are chosen uniformly, and `a` becomes the
answer to the query that the verifier will make (unless it was asked before). There are no secrets here. -/
noncomputable def Spec.ValidCredential.simulated (t : Transcript) (p : ValidCredential.Publics G)
    (l : Spec.HashLog) (k : Spec.HashLog → ValidCredential.Proof → ℚ) : ℚ :=
  Spec.mean fun a : Spec.Answer => Spec.mean fun z : F × F × F =>
    let proof : ValidCredential.Proof := ⟨Scalar.fromWide a.1, ValidCredential.respOf z⟩
    k (l ++ [(ValidCredential.verifyTranscript t p (ValidCredential.recommit p proof), a)]) proof

/-- An honest `CommittedValuesEqual` proof with uniform randomness: the prover asks the hash once. -/
noncomputable def Spec.CommittedValuesEqual.honest (O : Oracle) (t : Transcript) (p : CommittedValuesEqual.Publics G)
    (s : CommittedValuesEqual.Secrets) (l : Spec.HashLog)
    (k : Spec.HashLog → CommittedValuesEqual.Proof → ℚ) : ℚ :=
  Spec.mean fun u : F × F × F => Spec.mean fun a : Spec.Answer =>
    let l' := l.asked (CommittedValuesEqual.commitCommitments (CommittedValuesEqual.commitPublics t p)
      (CommittedValuesEqual.commitmentsOf p (CommittedValuesEqual.randOf u))) a
    k l' (CommittedValuesEqual.createWith (l'.oracle O) t p s (CommittedValuesEqual.randOf u))

/-- A simulated `CommittedValuesEqual` proof: an answer `a` and responses `z` are chosen uniformly, and `a` becomes the
answer to the query that the verifier will make (unless it was asked before). There are no secrets here. -/
noncomputable def Spec.CommittedValuesEqual.simulated (t : Transcript) (p : CommittedValuesEqual.Publics G)
    (l : Spec.HashLog) (k : Spec.HashLog → CommittedValuesEqual.Proof → ℚ) : ℚ :=
  Spec.mean fun a : Spec.Answer => Spec.mean fun z : F × F × F =>
    let proof : CommittedValuesEqual.Proof := ⟨Scalar.fromWide a.1, CommittedValuesEqual.respOf z⟩
    k (l ++ [(CommittedValuesEqual.verifyTranscript t p (CommittedValuesEqual.recommit p proof), a)]) proof

/-- What the observer may ask for: a proof of a true statement, with the secrets to be used. Not all
points that the prover multiplies with randomness are zero. -/
inductive Spec.Claim (G : Type) [AddCommGroup G] [Module F G] where
  | issuanceRevealed (t : Transcript) (p : IssuanceRevealed.Publics G) (s : IssuanceRevealed.Secrets)
    (h : Spec.IssuanceRevealed p s) (nd : p.P ≠ 0 ∨ p.B ≠ 0 ∨ p.A ≠ 0)
  | attributesBlinded (t : Transcript) (p : AttributesBlinded.Publics G) (s : AttributesBlinded.Secrets)
    (h : Spec.AttributesBlinded p s) (nd : p.B ≠ 0)
  | issuanceBlinded (t : Transcript) (p : IssuanceBlinded.Publics G) (s : IssuanceBlinded.Secrets)
    (h : Spec.IssuanceBlinded p s) (nd : p.B ≠ 0 ∨ p.A ≠ 0)
  | validCredential (t : Transcript) (p : ValidCredential.Publics G) (s : ValidCredential.Secrets)
    (h : Spec.ValidCredential p s) (nd : p.P ≠ 0 ∨ p.A ≠ 0 ∨ p.X0 ≠ 0)
  | committedValuesEqual (t : Transcript) (p : CommittedValuesEqual.Publics G) (s : CommittedValuesEqual.Secrets)
    (h : Spec.CommittedValuesEqual p s) (nd : p.P ≠ 0 ∨ p.A ≠ 0 ∨ p.B ≠ 0)

/-- The type of proof. -/
def Spec.Claim.Proof : Spec.Claim G → Type
  | .issuanceRevealed .. => IssuanceRevealed.Proof
  | .attributesBlinded .. => AttributesBlinded.Proof
  | .issuanceBlinded .. => IssuanceBlinded.Proof
  | .validCredential .. => ValidCredential.Proof
  | .committedValuesEqual .. => CommittedValuesEqual.Proof

/-- Honest proofs. -/
noncomputable def Spec.honest (O : Oracle) : Spec.Server (Spec.Claim G) Spec.Claim.Proof
  | .issuanceRevealed t p s _ _, l, k => Spec.IssuanceRevealed.honest O t p s l k
  | .attributesBlinded t p s _ _, l, k => Spec.AttributesBlinded.honest O t p s l k
  | .issuanceBlinded t p s _ _, l, k => Spec.IssuanceBlinded.honest O t p s l k
  | .validCredential t p s _ _, l, k => Spec.ValidCredential.honest O t p s l k
  | .committedValuesEqual t p s _ _, l, k => Spec.CommittedValuesEqual.honest O t p s l k

/-- Simulated proofs. -/
noncomputable def Spec.simulated : Spec.Server (Spec.Claim G) Spec.Claim.Proof
  | .issuanceRevealed t p _ _ _, l, k => Spec.IssuanceRevealed.simulated t p l k
  | .attributesBlinded t p _ _ _, l, k => Spec.AttributesBlinded.simulated t p l k
  | .issuanceBlinded t p _ _ _, l, k => Spec.IssuanceBlinded.simulated t p l k
  | .validCredential t p _ _ _, l, k => Spec.ValidCredential.simulated t p l k
  | .committedValuesEqual t p _ _ _, l, k => Spec.CommittedValuesEqual.simulated t p l k

namespace Sim

theorem lookup_asked (l : Spec.HashLog) (t : Transcript) (a : Spec.Answer) :
    (l.asked t a).lookup t = some ((l.lookup t).getD a) := by
  rw [Spec.HashLog.asked, List.lookup_append]
  cases h : l.lookup t <;> simp

theorem getChallenge_oracle {O : Oracle} {l : Spec.HashLog} {t : Transcript} {a : Spec.Answer}
    (h : l.lookup t = some a) : getChallenge (l.oracle O) t = Scalar.fromWide a.1 := by
  simp only [getChallenge, Spec.HashLog.oracle, h, and_self, if_true]

end Sim

namespace IssuanceRevealed

/-- The honest query. -/
def zkQuery (t : Transcript) (p : Publics G) (u : F × F × F × F) : Transcript :=
  commitCommitments (commitPublics t p) (commitmentsOf p (randOf u))

theorem zkQuery_eq (t : Transcript) (p : Publics G) (u : F × F × F × F) :
    zkQuery t p u = verifyTranscript t p (commitmentsOf p (randOf u)) := by
  simp only [zkQuery, commitCommitments, commitPublics, verifyTranscript, List.append_assoc,
    List.cons_append, List.nil_append]

theorem zk_shift (s : Secrets) (c : Scalar) :
    ∃ e : (F × F × F × F) ≃ (F × F × F × F), ∀ u, respond c s (randOf u) = respOf (e u) := by
  generalize ha : c.val = a
  refine ⟨((Equiv.addLeft (a * s.x0.val)).prodCongr ((Equiv.addLeft (a * s.x1.val)).prodCongr ((Equiv.addLeft (a * s.x0_tilde.val)).prodCongr (Equiv.addLeft (a * s.m1x1.val))))), fun u => ?_⟩
  simp only [respond, respOf, randOf, Scalar.add_def, Scalar.val_mul, Scalar.val_ofF,
    Equiv.prodCongr_apply, Prod.map, Equiv.coe_addLeft, ha]

theorem zk_moves {t : Transcript} {p : Publics G} {u v : F × F × F × F}
    (h : zkQuery t p v = zkQuery t p u) : commitmentsOf p (randOf v) = commitmentsOf p (randOf u) := by
  rw [zkQuery_eq, zkQuery_eq] at h
  simp only [verifyTranscript, List.append_cancel_left_eq, List.cons.injEq, Op.commit.injEq, true_and,
    enc_inj_iff, and_true] at h
  exact Commitments.ext h.1 h.2.1 h.2.2

theorem zk_unlikely {p : Publics G} (nd : p.P ≠ 0 ∨ p.B ≠ 0 ∨ p.A ≠ 0) (t t' : Transcript) :
    Spec.prob (fun u => zkQuery t p u = t') ≤ 1 / ell := by
  obtain nd | nd | nd := nd
  · refine Sim.unlikely ((0, 0, 0, 1) : F × F × F × F) (fun u k h => ?_) t'
    have := congrArg Commitments.Q (zk_moves h)
    simp only [commitmentsOf, randOf, msm, List.zipWith_cons_cons, List.zipWith_nil_right, List.sum_cons,
      List.sum_nil, Scalar.smul_def, Scalar.val_ofF, Prod.fst_add, Prod.snd_add, Prod.smul_fst,
      Prod.smul_snd, smul_eq_mul, mul_one, mul_zero, add_zero] at this
    have : k • p.P = 0 := by linear_combination (norm := module) this
    exact (smul_eq_zero.1 this).resolve_right nd
  · refine Sim.unlikely ((1, 0, 0, 0) : F × F × F × F) (fun u k h => ?_) t'
    have := congrArg Commitments.Cx0 (zk_moves h)
    simp only [commitmentsOf, randOf, msm, List.zipWith_cons_cons, List.zipWith_nil_right, List.sum_cons,
      List.sum_nil, Scalar.smul_def, Scalar.val_ofF, Prod.fst_add, Prod.snd_add, Prod.smul_fst,
      Prod.smul_snd, smul_eq_mul, mul_one, mul_zero, add_zero] at this
    have : k • p.B = 0 := by linear_combination (norm := module) this
    exact (smul_eq_zero.1 this).resolve_right nd
  · refine Sim.unlikely ((0, 1, 0, 0) : F × F × F × F) (fun u k h => ?_) t'
    have := congrArg Commitments.X1 (zk_moves h)
    simp only [commitmentsOf, randOf, msm, List.zipWith_cons_cons, List.zipWith_nil_right, List.sum_cons,
      List.sum_nil, Scalar.smul_def, Scalar.val_ofF, Prod.fst_add, Prod.snd_add, Prod.smul_fst,
      Prod.smul_snd, smul_eq_mul, mul_one, mul_zero, add_zero] at this
    have : k • p.A = 0 := by linear_combination (norm := module) this
    exact (smul_eq_zero.1 this).resolve_right nd

/-- The honest proof as a step of the game. -/
theorem honest_step (O : Oracle) (t : Transcript) (p : Publics G) (s : Secrets) (l : Spec.HashLog)
    (k : Spec.HashLog → Proof → ℚ) :
    Spec.IssuanceRevealed.honest O t p s l k = Sim.realStep (zkQuery t p)
      (fun a u => (⟨Scalar.fromWide a.1, respond (Scalar.fromWide a.1) s (randOf u)⟩ : Proof)) l k := by
  unfold Spec.IssuanceRevealed.honest Sim.realStep
  congr 1
  funext u
  congr 1
  funext a
  have := Sim.getChallenge_oracle (O := O) (Sim.lookup_asked l (zkQuery t p u) a)
  simp only [createWith]
  unfold zkQuery at this ⊢
  rw [this]

theorem honest01 (O : Oracle) (t : Transcript) (p : Publics G) (s : Secrets) (l : Spec.HashLog)
    {f : Spec.HashLog → Proof → ℚ} (hf : Sim.Unit01 f) :
    0 ≤ Spec.IssuanceRevealed.honest O t p s l f ∧ Spec.IssuanceRevealed.honest O t p s l f ≤ 1 := by
  rw [honest_step]
  exact Sim.realStep01 l hf

/-- The simulated proof as a step of the game. -/
theorem simulated_step (t : Transcript) (p : Publics G) (l : Spec.HashLog)
    (k : Spec.HashLog → Proof → ℚ) :
    Spec.IssuanceRevealed.simulated t p l k = Sim.simStep
      (fun a (z : F × F × F × F) => verifyTranscript t p (recommit p ⟨Scalar.fromWide a.1, respOf z⟩))
      (fun a z => (⟨Scalar.fromWide a.1, respOf z⟩ : Proof)) l k := by
  unfold Spec.IssuanceRevealed.simulated Sim.simStep
  rfl

theorem simulated01 (t : Transcript) (p : Publics G) (l : Spec.HashLog)
    {f : Spec.HashLog → Proof → ℚ} (hf : Sim.Unit01 f) :
    0 ≤ Spec.IssuanceRevealed.simulated t p l f ∧ Spec.IssuanceRevealed.simulated t p l f ≤ 1 := by
  rw [simulated_step]
  exact Sim.simStep01 l hf

theorem zk_close (O : Oracle) (t : Transcript) {p : Publics G} {s : Secrets}
    (hs : Spec.IssuanceRevealed p s) (nd : p.P ≠ 0 ∨ p.B ≠ 0 ∨ p.A ≠ 0)
    (l : Spec.HashLog) (f g : Spec.HashLog → Proof → ℚ) (ε : ℚ) (hf : Sim.Unit01 f)
    (hfg : ∀ l' π, l'.length = l.length + 1 → |f l' π - g l' π| ≤ ε) :
    |Spec.IssuanceRevealed.honest O t p s l f - Spec.IssuanceRevealed.simulated t p l g| ≤
      ε + l.length / ell := by
  rw [honest_step, simulated_step]
  refine Sim.step_close (zk_unlikely nd t) (fun a => ?_) l f g ε hf hfg
  obtain ⟨e, he⟩ := zk_shift s (Scalar.fromWide a.1)
  exact ⟨e, fun u => ⟨by rw [zkQuery_eq, ← he, recommit_respond hs], by rw [he]⟩⟩

end IssuanceRevealed

namespace AttributesBlinded

/-- The honest query. -/
def zkQuery (t : Transcript) (p : Publics G) (u : F × F × F × F) : Transcript :=
  commitCommitments (commitPublics t p) (commitmentsOf p (randOf u))

theorem zkQuery_eq (t : Transcript) (p : Publics G) (u : F × F × F × F) :
    zkQuery t p u = verifyTranscript t p (commitmentsOf p (randOf u)) := by
  simp only [zkQuery, commitCommitments, commitPublics, verifyTranscript, List.append_assoc,
    List.cons_append, List.nil_append]

theorem zk_shift (s : Secrets) (c : Scalar) :
    ∃ e : (F × F × F × F) ≃ (F × F × F × F), ∀ u, respond c s (randOf u) = respOf (e u) := by
  generalize ha : c.val = a
  refine ⟨((Equiv.addLeft (a * s.d.val)).prodCongr ((Equiv.addLeft (a * s.e0.val)).prodCongr ((Equiv.addLeft (a * s.m0.val)).prodCongr (Equiv.addLeft (a * s.nonce.val))))), fun u => ?_⟩
  simp only [respond, respOf, randOf, Scalar.add_def, Scalar.val_mul, Scalar.val_ofF,
    Equiv.prodCongr_apply, Prod.map, Equiv.coe_addLeft, ha]

theorem zk_moves {t : Transcript} {p : Publics G} {u v : F × F × F × F}
    (h : zkQuery t p v = zkQuery t p u) : commitmentsOf p (randOf v) = commitmentsOf p (randOf u) := by
  rw [zkQuery_eq, zkQuery_eq] at h
  simp only [verifyTranscript, List.append_cancel_left_eq, List.cons.injEq, Op.commit.injEq, true_and,
    enc_inj_iff, and_true] at h
  exact Commitments.ext h.1 h.2.1 h.2.2

theorem zk_unlikely {p : Publics G} (nd : p.B ≠ 0) (t t' : Transcript) :
    Spec.prob (fun u => zkQuery t p u = t') ≤ 1 / ell := by
  refine Sim.unlikely ((1, 0, 0, 0) : F × F × F × F) (fun u k h => ?_) t'
  have := congrArg Commitments.D (zk_moves h)
  simp only [commitmentsOf, randOf, msm, List.zipWith_cons_cons, List.zipWith_nil_right, List.sum_cons,
    List.sum_nil, Scalar.smul_def, Scalar.val_ofF, Prod.fst_add, Prod.snd_add, Prod.smul_fst,
    Prod.smul_snd, smul_eq_mul, mul_one, mul_zero, add_zero] at this
  have : k • p.B = 0 := by linear_combination (norm := module) this
  exact (smul_eq_zero.1 this).resolve_right nd

/-- The honest proof as a step of the game. -/
theorem honest_step (O : Oracle) (t : Transcript) (p : Publics G) (s : Secrets) (l : Spec.HashLog)
    (k : Spec.HashLog → Proof → ℚ) :
    Spec.AttributesBlinded.honest O t p s l k = Sim.realStep (zkQuery t p)
      (fun a u => (⟨Scalar.fromWide a.1, respond (Scalar.fromWide a.1) s (randOf u)⟩ : Proof)) l k := by
  unfold Spec.AttributesBlinded.honest Sim.realStep
  congr 1
  funext u
  congr 1
  funext a
  have := Sim.getChallenge_oracle (O := O) (Sim.lookup_asked l (zkQuery t p u) a)
  simp only [createWith]
  unfold zkQuery at this ⊢
  rw [this]

theorem honest01 (O : Oracle) (t : Transcript) (p : Publics G) (s : Secrets) (l : Spec.HashLog)
    {f : Spec.HashLog → Proof → ℚ} (hf : Sim.Unit01 f) :
    0 ≤ Spec.AttributesBlinded.honest O t p s l f ∧ Spec.AttributesBlinded.honest O t p s l f ≤ 1 := by
  rw [honest_step]
  exact Sim.realStep01 l hf

/-- The simulated proof as a step of the game. -/
theorem simulated_step (t : Transcript) (p : Publics G) (l : Spec.HashLog)
    (k : Spec.HashLog → Proof → ℚ) :
    Spec.AttributesBlinded.simulated t p l k = Sim.simStep
      (fun a (z : F × F × F × F) => verifyTranscript t p (recommit p ⟨Scalar.fromWide a.1, respOf z⟩))
      (fun a z => (⟨Scalar.fromWide a.1, respOf z⟩ : Proof)) l k := by
  unfold Spec.AttributesBlinded.simulated Sim.simStep
  rfl

theorem simulated01 (t : Transcript) (p : Publics G) (l : Spec.HashLog)
    {f : Spec.HashLog → Proof → ℚ} (hf : Sim.Unit01 f) :
    0 ≤ Spec.AttributesBlinded.simulated t p l f ∧ Spec.AttributesBlinded.simulated t p l f ≤ 1 := by
  rw [simulated_step]
  exact Sim.simStep01 l hf

theorem zk_close (O : Oracle) (t : Transcript) {p : Publics G} {s : Secrets}
    (hs : Spec.AttributesBlinded p s) (nd : p.B ≠ 0)
    (l : Spec.HashLog) (f g : Spec.HashLog → Proof → ℚ) (ε : ℚ) (hf : Sim.Unit01 f)
    (hfg : ∀ l' π, l'.length = l.length + 1 → |f l' π - g l' π| ≤ ε) :
    |Spec.AttributesBlinded.honest O t p s l f - Spec.AttributesBlinded.simulated t p l g| ≤
      ε + l.length / ell := by
  rw [honest_step, simulated_step]
  refine Sim.step_close (zk_unlikely nd t) (fun a => ?_) l f g ε hf hfg
  obtain ⟨e, he⟩ := zk_shift s (Scalar.fromWide a.1)
  exact ⟨e, fun u => ⟨by rw [zkQuery_eq, ← he, recommit_respond hs], by rw [he]⟩⟩

end AttributesBlinded

namespace IssuanceBlinded

/-- The honest query. -/
def zkQuery (t : Transcript) (p : Publics G) (u : F × F × F × F × F × F) : Transcript :=
  commitCommitments (commitPublics t p) (commitmentsOf p (randOf u))

theorem zkQuery_eq (t : Transcript) (p : Publics G) (u : F × F × F × F × F × F) :
    zkQuery t p u = verifyTranscript t p (commitmentsOf p (randOf u)) := by
  simp only [zkQuery, commitCommitments, commitPublics, verifyTranscript, List.append_assoc,
    List.cons_append, List.nil_append]

theorem zk_shift (s : Secrets) (c : Scalar) :
    ∃ e : (F × F × F × F × F × F) ≃ (F × F × F × F × F × F), ∀ u, respond c s (randOf u) = respOf (e u) := by
  generalize ha : c.val = a
  refine ⟨((Equiv.addLeft (a * s.x0_tilde.val)).prodCongr ((Equiv.addLeft (a * s.x0.val)).prodCongr ((Equiv.addLeft (a * s.x1.val)).prodCongr ((Equiv.addLeft (a * s.s.val)).prodCongr ((Equiv.addLeft (a * s.b.val)).prodCongr (Equiv.addLeft (a * s.t0.val))))))), fun u => ?_⟩
  simp only [respond, respOf, randOf, Scalar.add_def, Scalar.val_mul, Scalar.val_ofF,
    Equiv.prodCongr_apply, Prod.map, Equiv.coe_addLeft, ha]

theorem zk_moves {t : Transcript} {p : Publics G} {u v : F × F × F × F × F × F}
    (h : zkQuery t p v = zkQuery t p u) : commitmentsOf p (randOf v) = commitmentsOf p (randOf u) := by
  rw [zkQuery_eq, zkQuery_eq] at h
  simp only [verifyTranscript, List.append_cancel_left_eq, List.cons.injEq, Op.commit.injEq, true_and,
    enc_inj_iff, and_true] at h
  exact Commitments.ext h.1 h.2.1 h.2.2.1 h.2.2.2.1 h.2.2.2.2.1 h.2.2.2.2.2.1 h.2.2.2.2.2.2

theorem zk_unlikely {p : Publics G} (nd : p.B ≠ 0 ∨ p.A ≠ 0) (t t' : Transcript) :
    Spec.prob (fun u => zkQuery t p u = t') ≤ 1 / ell := by
  obtain nd | nd := nd
  · refine Sim.unlikely ((0, 0, 0, 0, 1, 0) : F × F × F × F × F × F) (fun u k h => ?_) t'
    have := congrArg Commitments.P (zk_moves h)
    simp only [commitmentsOf, randOf, msm, List.zipWith_cons_cons, List.zipWith_nil_right, List.sum_cons,
      List.sum_nil, Scalar.smul_def, Scalar.val_ofF, Prod.fst_add, Prod.snd_add, Prod.smul_fst,
      Prod.smul_snd, smul_eq_mul, mul_one, mul_zero, add_zero] at this
    have : k • p.B = 0 := by linear_combination (norm := module) this
    exact (smul_eq_zero.1 this).resolve_right nd
  · refine Sim.unlikely ((0, 0, 0, 0, 0, 1) : F × F × F × F × F × F) (fun u k h => ?_) t'
    have := congrArg Commitments.T0_1 (zk_moves h)
    simp only [commitmentsOf, randOf, msm, List.zipWith_cons_cons, List.zipWith_nil_right, List.sum_cons,
      List.sum_nil, Scalar.smul_def, Scalar.val_ofF, Prod.fst_add, Prod.snd_add, Prod.smul_fst,
      Prod.smul_snd, smul_eq_mul, mul_one, mul_zero, add_zero] at this
    have : k • p.A = 0 := by linear_combination (norm := module) this
    exact (smul_eq_zero.1 this).resolve_right nd

/-- The honest proof as a step of the game. -/
theorem honest_step (O : Oracle) (t : Transcript) (p : Publics G) (s : Secrets) (l : Spec.HashLog)
    (k : Spec.HashLog → Proof → ℚ) :
    Spec.IssuanceBlinded.honest O t p s l k = Sim.realStep (zkQuery t p)
      (fun a u => (⟨Scalar.fromWide a.1, respond (Scalar.fromWide a.1) s (randOf u)⟩ : Proof)) l k := by
  unfold Spec.IssuanceBlinded.honest Sim.realStep
  congr 1
  funext u
  congr 1
  funext a
  have := Sim.getChallenge_oracle (O := O) (Sim.lookup_asked l (zkQuery t p u) a)
  simp only [createWith]
  unfold zkQuery at this ⊢
  rw [this]

theorem honest01 (O : Oracle) (t : Transcript) (p : Publics G) (s : Secrets) (l : Spec.HashLog)
    {f : Spec.HashLog → Proof → ℚ} (hf : Sim.Unit01 f) :
    0 ≤ Spec.IssuanceBlinded.honest O t p s l f ∧ Spec.IssuanceBlinded.honest O t p s l f ≤ 1 := by
  rw [honest_step]
  exact Sim.realStep01 l hf

/-- The simulated proof as a step of the game. -/
theorem simulated_step (t : Transcript) (p : Publics G) (l : Spec.HashLog)
    (k : Spec.HashLog → Proof → ℚ) :
    Spec.IssuanceBlinded.simulated t p l k = Sim.simStep
      (fun a (z : F × F × F × F × F × F) => verifyTranscript t p (recommit p ⟨Scalar.fromWide a.1, respOf z⟩))
      (fun a z => (⟨Scalar.fromWide a.1, respOf z⟩ : Proof)) l k := by
  unfold Spec.IssuanceBlinded.simulated Sim.simStep
  rfl

theorem simulated01 (t : Transcript) (p : Publics G) (l : Spec.HashLog)
    {f : Spec.HashLog → Proof → ℚ} (hf : Sim.Unit01 f) :
    0 ≤ Spec.IssuanceBlinded.simulated t p l f ∧ Spec.IssuanceBlinded.simulated t p l f ≤ 1 := by
  rw [simulated_step]
  exact Sim.simStep01 l hf

theorem zk_close (O : Oracle) (t : Transcript) {p : Publics G} {s : Secrets}
    (hs : Spec.IssuanceBlinded p s) (nd : p.B ≠ 0 ∨ p.A ≠ 0)
    (l : Spec.HashLog) (f g : Spec.HashLog → Proof → ℚ) (ε : ℚ) (hf : Sim.Unit01 f)
    (hfg : ∀ l' π, l'.length = l.length + 1 → |f l' π - g l' π| ≤ ε) :
    |Spec.IssuanceBlinded.honest O t p s l f - Spec.IssuanceBlinded.simulated t p l g| ≤
      ε + l.length / ell := by
  rw [honest_step, simulated_step]
  refine Sim.step_close (zk_unlikely nd t) (fun a => ?_) l f g ε hf hfg
  obtain ⟨e, he⟩ := zk_shift s (Scalar.fromWide a.1)
  exact ⟨e, fun u => ⟨by rw [zkQuery_eq, ← he, recommit_respond hs], by rw [he]⟩⟩

end IssuanceBlinded

namespace ValidCredential

/-- The honest query. -/
def zkQuery (t : Transcript) (p : Publics G) (u : F × F × F) : Transcript :=
  commitCommitments (commitPublics t p) (commitmentsOf p (randOf u))

theorem zkQuery_eq (t : Transcript) (p : Publics G) (u : F × F × F) :
    zkQuery t p u = verifyTranscript t p (commitmentsOf p (randOf u)) := by
  simp only [zkQuery, commitCommitments, commitPublics, verifyTranscript, List.append_assoc,
    List.cons_append, List.nil_append]

theorem zk_shift (s : Secrets) (c : Scalar) :
    ∃ e : (F × F × F) ≃ (F × F × F), ∀ u, respond c s (randOf u) = respOf (e u) := by
  generalize ha : c.val = a
  refine ⟨((Equiv.addLeft (a * s.m0.val)).prodCongr ((Equiv.addLeft (a * s.z0.val)).prodCongr (Equiv.addLeft (a * s.minus_zQ.val)))), fun u => ?_⟩
  simp only [respond, respOf, randOf, Scalar.add_def, Scalar.val_mul, Scalar.val_ofF,
    Equiv.prodCongr_apply, Prod.map, Equiv.coe_addLeft, ha]

theorem zk_moves {t : Transcript} {p : Publics G} {u v : F × F × F}
    (h : zkQuery t p v = zkQuery t p u) : commitmentsOf p (randOf v) = commitmentsOf p (randOf u) := by
  rw [zkQuery_eq, zkQuery_eq] at h
  simp only [verifyTranscript, List.append_cancel_left_eq, List.cons.injEq, Op.commit.injEq, true_and,
    enc_inj_iff, and_true] at h
  exact Commitments.ext h.1 h.2

theorem zk_unlikely {p : Publics G} (nd : p.P ≠ 0 ∨ p.A ≠ 0 ∨ p.X0 ≠ 0) (t t' : Transcript) :
    Spec.prob (fun u => zkQuery t p u = t') ≤ 1 / ell := by
  obtain nd | nd | nd := nd
  · refine Sim.unlikely ((1, 0, 0) : F × F × F) (fun u k h => ?_) t'
    have := congrArg Commitments.Cm0 (zk_moves h)
    simp only [commitmentsOf, randOf, msm, List.zipWith_cons_cons, List.zipWith_nil_right, List.sum_cons,
      List.sum_nil, Scalar.smul_def, Scalar.val_ofF, Prod.fst_add, Prod.snd_add, Prod.smul_fst,
      Prod.smul_snd, smul_eq_mul, mul_one, mul_zero, add_zero] at this
    have : k • p.P = 0 := by linear_combination (norm := module) this
    exact (smul_eq_zero.1 this).resolve_right nd
  · refine Sim.unlikely ((0, 0, 1) : F × F × F) (fun u k h => ?_) t'
    have := congrArg Commitments.V (zk_moves h)
    simp only [commitmentsOf, randOf, msm, List.zipWith_cons_cons, List.zipWith_nil_right, List.sum_cons,
      List.sum_nil, Scalar.smul_def, Scalar.val_ofF, Prod.fst_add, Prod.snd_add, Prod.smul_fst,
      Prod.smul_snd, smul_eq_mul, mul_one, mul_zero, add_zero] at this
    have : k • p.A = 0 := by linear_combination (norm := module) this
    exact (smul_eq_zero.1 this).resolve_right nd
  · refine Sim.unlikely ((0, 1, 0) : F × F × F) (fun u k h => ?_) t'
    have := congrArg Commitments.V (zk_moves h)
    simp only [commitmentsOf, randOf, msm, List.zipWith_cons_cons, List.zipWith_nil_right, List.sum_cons,
      List.sum_nil, Scalar.smul_def, Scalar.val_ofF, Prod.fst_add, Prod.snd_add, Prod.smul_fst,
      Prod.smul_snd, smul_eq_mul, mul_one, mul_zero, add_zero] at this
    have : k • p.X0 = 0 := by linear_combination (norm := module) this
    exact (smul_eq_zero.1 this).resolve_right nd

/-- The honest proof as a step of the game. -/
theorem honest_step (O : Oracle) (t : Transcript) (p : Publics G) (s : Secrets) (l : Spec.HashLog)
    (k : Spec.HashLog → Proof → ℚ) :
    Spec.ValidCredential.honest O t p s l k = Sim.realStep (zkQuery t p)
      (fun a u => (⟨Scalar.fromWide a.1, respond (Scalar.fromWide a.1) s (randOf u)⟩ : Proof)) l k := by
  unfold Spec.ValidCredential.honest Sim.realStep
  congr 1
  funext u
  congr 1
  funext a
  have := Sim.getChallenge_oracle (O := O) (Sim.lookup_asked l (zkQuery t p u) a)
  simp only [createWith]
  unfold zkQuery at this ⊢
  rw [this]

theorem honest01 (O : Oracle) (t : Transcript) (p : Publics G) (s : Secrets) (l : Spec.HashLog)
    {f : Spec.HashLog → Proof → ℚ} (hf : Sim.Unit01 f) :
    0 ≤ Spec.ValidCredential.honest O t p s l f ∧ Spec.ValidCredential.honest O t p s l f ≤ 1 := by
  rw [honest_step]
  exact Sim.realStep01 l hf

/-- The simulated proof as a step of the game. -/
theorem simulated_step (t : Transcript) (p : Publics G) (l : Spec.HashLog)
    (k : Spec.HashLog → Proof → ℚ) :
    Spec.ValidCredential.simulated t p l k = Sim.simStep
      (fun a (z : F × F × F) => verifyTranscript t p (recommit p ⟨Scalar.fromWide a.1, respOf z⟩))
      (fun a z => (⟨Scalar.fromWide a.1, respOf z⟩ : Proof)) l k := by
  unfold Spec.ValidCredential.simulated Sim.simStep
  rfl

theorem simulated01 (t : Transcript) (p : Publics G) (l : Spec.HashLog)
    {f : Spec.HashLog → Proof → ℚ} (hf : Sim.Unit01 f) :
    0 ≤ Spec.ValidCredential.simulated t p l f ∧ Spec.ValidCredential.simulated t p l f ≤ 1 := by
  rw [simulated_step]
  exact Sim.simStep01 l hf

theorem zk_close (O : Oracle) (t : Transcript) {p : Publics G} {s : Secrets}
    (hs : Spec.ValidCredential p s) (nd : p.P ≠ 0 ∨ p.A ≠ 0 ∨ p.X0 ≠ 0)
    (l : Spec.HashLog) (f g : Spec.HashLog → Proof → ℚ) (ε : ℚ) (hf : Sim.Unit01 f)
    (hfg : ∀ l' π, l'.length = l.length + 1 → |f l' π - g l' π| ≤ ε) :
    |Spec.ValidCredential.honest O t p s l f - Spec.ValidCredential.simulated t p l g| ≤
      ε + l.length / ell := by
  rw [honest_step, simulated_step]
  refine Sim.step_close (zk_unlikely nd t) (fun a => ?_) l f g ε hf hfg
  obtain ⟨e, he⟩ := zk_shift s (Scalar.fromWide a.1)
  exact ⟨e, fun u => ⟨by rw [zkQuery_eq, ← he, recommit_respond hs], by rw [he]⟩⟩

end ValidCredential

namespace CommittedValuesEqual

/-- The honest query. -/
def zkQuery (t : Transcript) (p : Publics G) (u : F × F × F) : Transcript :=
  commitCommitments (commitPublics t p) (commitmentsOf p (randOf u))

theorem zkQuery_eq (t : Transcript) (p : Publics G) (u : F × F × F) :
    zkQuery t p u = verifyTranscript t p (commitmentsOf p (randOf u)) := by
  simp only [zkQuery, commitCommitments, commitPublics, verifyTranscript, List.append_assoc,
    List.cons_append, List.nil_append]

theorem zk_shift (s : Secrets) (c : Scalar) :
    ∃ e : (F × F × F) ≃ (F × F × F), ∀ u, respond c s (randOf u) = respOf (e u) := by
  generalize ha : c.val = a
  refine ⟨((Equiv.addLeft (a * s.m0.val)).prodCongr ((Equiv.addLeft (a * s.z0.val)).prodCongr (Equiv.addLeft (a * s.z1.val)))), fun u => ?_⟩
  simp only [respond, respOf, randOf, Scalar.add_def, Scalar.val_mul, Scalar.val_ofF,
    Equiv.prodCongr_apply, Prod.map, Equiv.coe_addLeft, ha]

theorem zk_moves {t : Transcript} {p : Publics G} {u v : F × F × F}
    (h : zkQuery t p v = zkQuery t p u) : commitmentsOf p (randOf v) = commitmentsOf p (randOf u) := by
  rw [zkQuery_eq, zkQuery_eq] at h
  simp only [verifyTranscript, List.append_cancel_left_eq, List.cons.injEq, Op.commit.injEq, true_and,
    enc_inj_iff, and_true] at h
  exact Commitments.ext h.1 h.2

theorem zk_unlikely {p : Publics G} (nd : p.P ≠ 0 ∨ p.A ≠ 0 ∨ p.B ≠ 0) (t t' : Transcript) :
    Spec.prob (fun u => zkQuery t p u = t') ≤ 1 / ell := by
  obtain nd | nd | nd := nd
  · refine Sim.unlikely ((1, 0, 0) : F × F × F) (fun u k h => ?_) t'
    have := congrArg Commitments.Cm0 (zk_moves h)
    simp only [commitmentsOf, randOf, msm, List.zipWith_cons_cons, List.zipWith_nil_right, List.sum_cons,
      List.sum_nil, Scalar.smul_def, Scalar.val_ofF, Prod.fst_add, Prod.snd_add, Prod.smul_fst,
      Prod.smul_snd, smul_eq_mul, mul_one, mul_zero, add_zero] at this
    have : k • p.P = 0 := by linear_combination (norm := module) this
    exact (smul_eq_zero.1 this).resolve_right nd
  · refine Sim.unlikely ((0, 1, 0) : F × F × F) (fun u k h => ?_) t'
    have := congrArg Commitments.Cm0 (zk_moves h)
    simp only [commitmentsOf, randOf, msm, List.zipWith_cons_cons, List.zipWith_nil_right, List.sum_cons,
      List.sum_nil, Scalar.smul_def, Scalar.val_ofF, Prod.fst_add, Prod.snd_add, Prod.smul_fst,
      Prod.smul_snd, smul_eq_mul, mul_one, mul_zero, add_zero] at this
    have : k • p.A = 0 := by linear_combination (norm := module) this
    exact (smul_eq_zero.1 this).resolve_right nd
  · refine Sim.unlikely ((0, 0, 1) : F × F × F) (fun u k h => ?_) t'
    have := congrArg Commitments.Cm1 (zk_moves h)
    simp only [commitmentsOf, randOf, msm, List.zipWith_cons_cons, List.zipWith_nil_right, List.sum_cons,
      List.sum_nil, Scalar.smul_def, Scalar.val_ofF, Prod.fst_add, Prod.snd_add, Prod.smul_fst,
      Prod.smul_snd, smul_eq_mul, mul_one, mul_zero, add_zero] at this
    have : k • p.B = 0 := by linear_combination (norm := module) this
    exact (smul_eq_zero.1 this).resolve_right nd

/-- The honest proof as a step of the game. -/
theorem honest_step (O : Oracle) (t : Transcript) (p : Publics G) (s : Secrets) (l : Spec.HashLog)
    (k : Spec.HashLog → Proof → ℚ) :
    Spec.CommittedValuesEqual.honest O t p s l k = Sim.realStep (zkQuery t p)
      (fun a u => (⟨Scalar.fromWide a.1, respond (Scalar.fromWide a.1) s (randOf u)⟩ : Proof)) l k := by
  unfold Spec.CommittedValuesEqual.honest Sim.realStep
  congr 1
  funext u
  congr 1
  funext a
  have := Sim.getChallenge_oracle (O := O) (Sim.lookup_asked l (zkQuery t p u) a)
  simp only [createWith]
  unfold zkQuery at this ⊢
  rw [this]

theorem honest01 (O : Oracle) (t : Transcript) (p : Publics G) (s : Secrets) (l : Spec.HashLog)
    {f : Spec.HashLog → Proof → ℚ} (hf : Sim.Unit01 f) :
    0 ≤ Spec.CommittedValuesEqual.honest O t p s l f ∧ Spec.CommittedValuesEqual.honest O t p s l f ≤ 1 := by
  rw [honest_step]
  exact Sim.realStep01 l hf

/-- The simulated proof as a step of the game. -/
theorem simulated_step (t : Transcript) (p : Publics G) (l : Spec.HashLog)
    (k : Spec.HashLog → Proof → ℚ) :
    Spec.CommittedValuesEqual.simulated t p l k = Sim.simStep
      (fun a (z : F × F × F) => verifyTranscript t p (recommit p ⟨Scalar.fromWide a.1, respOf z⟩))
      (fun a z => (⟨Scalar.fromWide a.1, respOf z⟩ : Proof)) l k := by
  unfold Spec.CommittedValuesEqual.simulated Sim.simStep
  rfl

theorem simulated01 (t : Transcript) (p : Publics G) (l : Spec.HashLog)
    {f : Spec.HashLog → Proof → ℚ} (hf : Sim.Unit01 f) :
    0 ≤ Spec.CommittedValuesEqual.simulated t p l f ∧ Spec.CommittedValuesEqual.simulated t p l f ≤ 1 := by
  rw [simulated_step]
  exact Sim.simStep01 l hf

theorem zk_close (O : Oracle) (t : Transcript) {p : Publics G} {s : Secrets}
    (hs : Spec.CommittedValuesEqual p s) (nd : p.P ≠ 0 ∨ p.A ≠ 0 ∨ p.B ≠ 0)
    (l : Spec.HashLog) (f g : Spec.HashLog → Proof → ℚ) (ε : ℚ) (hf : Sim.Unit01 f)
    (hfg : ∀ l' π, l'.length = l.length + 1 → |f l' π - g l' π| ≤ ε) :
    |Spec.CommittedValuesEqual.honest O t p s l f - Spec.CommittedValuesEqual.simulated t p l g| ≤
      ε + l.length / ell := by
  rw [honest_step, simulated_step]
  refine Sim.step_close (zk_unlikely nd t) (fun a => ?_) l f g ε hf hfg
  obtain ⟨e, he⟩ := zk_shift s (Scalar.fromWide a.1)
  exact ⟨e, fun u => ⟨by rw [zkQuery_eq, ← he, recommit_respond hs], by rw [he]⟩⟩

end CommittedValuesEqual

theorem Sim.le_one_query (l : Spec.HashLog) (ε : ℚ) :
    ε + (l.length : ℚ) / ell ≤ ε + ((1 : ℕ) : ℚ) * (l.length + ((1 : ℕ) : ℚ)) / ell := by
  gcongr
  push_cast
  linarith

theorem Sim.zk (O : Oracle) :
    Sim.Close 1 (Spec.honest (G := G) O) Spec.simulated where
  range x := by
    cases x with
    | issuanceRevealed t p s h nd => exact fun l f hf => IssuanceRevealed.honest01 O t p s l hf
    | attributesBlinded t p s h nd => exact fun l f hf => AttributesBlinded.honest01 O t p s l hf
    | issuanceBlinded t p s h nd => exact fun l f hf => IssuanceBlinded.honest01 O t p s l hf
    | validCredential t p s h nd => exact fun l f hf => ValidCredential.honest01 O t p s l hf
    | committedValuesEqual t p s h nd => exact fun l f hf => CommittedValuesEqual.honest01 O t p s l hf
  range' x := by
    cases x with
    | issuanceRevealed t p s h nd => exact fun l f hf => IssuanceRevealed.simulated01 t p l hf
    | attributesBlinded t p s h nd => exact fun l f hf => AttributesBlinded.simulated01 t p l hf
    | issuanceBlinded t p s h nd => exact fun l f hf => IssuanceBlinded.simulated01 t p l hf
    | validCredential t p s h nd => exact fun l f hf => ValidCredential.simulated01 t p l hf
    | committedValuesEqual t p s h nd => exact fun l f hf => CommittedValuesEqual.simulated01 t p l hf
  close x := by
    cases x with
    | issuanceRevealed t p s h nd =>
      exact fun l f g ε hf _ hfg =>
        (IssuanceRevealed.zk_close O t h nd l f g ε hf hfg).trans (Sim.le_one_query l ε)
    | attributesBlinded t p s h nd =>
      exact fun l f g ε hf _ hfg =>
        (AttributesBlinded.zk_close O t h nd l f g ε hf hfg).trans (Sim.le_one_query l ε)
    | issuanceBlinded t p s h nd =>
      exact fun l f g ε hf _ hfg =>
        (IssuanceBlinded.zk_close O t h nd l f g ε hf hfg).trans (Sim.le_one_query l ε)
    | validCredential t p s h nd =>
      exact fun l f g ε hf _ hfg =>
        (ValidCredential.zk_close O t h nd l f g ε hf hfg).trans (Sim.le_one_query l ε)
    | committedValuesEqual t p s h nd =>
      exact fun l f g ε hf _ hfg =>
        (CommittedValuesEqual.zk_close O t h nd l f g ε hf hfg).trans (Sim.le_one_query l ε)

/-- C81: zero knowledge. An observer that asks the hash at most `q` times and gets at most `n` proofs, of
any of the five kinds, of true statements of its choice, says yes with nearly the same probability if the
proofs are simulated without the secrets. -/
theorem C81_zero_knowledge (O : Oracle) (A : Spec.Observer (Spec.Claim G) Spec.Claim.Proof) (q n : ℕ)
    (hA : A.Within q n) :
    |A.yes (Spec.honest O) [] - A.yes Spec.simulated []| ≤ n * (q + n) / ell := by
  have := Sim.advantage (Sim.zk O) A [] q n hA
  simpa using this

/-- The observer that asks for a proof and checks it. -/
example : ∃ (p : IssuanceRevealed.Publics F) (A : Spec.Observer (Spec.Claim F) Spec.Claim.Proof),
    p.Q ≠ 0 ∧ A.Within 1 1 :=
  let p : IssuanceRevealed.Publics F := ⟨2, 76, 11, 1, 4, 20⟩
  let x : Spec.Claim F := .issuanceRevealed [] p
    ⟨⟨3, by decide⟩, ⟨5, by decide⟩, ⟨2, by decide⟩, ⟨35, by decide⟩⟩
    (by simp only [Spec.IssuanceRevealed, p]; decide +kernel) (by simp only [p]; decide +kernel)
  ⟨p, .request x fun (π : IssuanceRevealed.Proof) =>
      .ask (IssuanceRevealed.verifyTranscript [] p (IssuanceRevealed.recommit p π)) fun a =>
        .done (decide (Scalar.fromWide a.1 = π.challenge)),
    by decide +kernel, 0, rfl, fun _ => ⟨0, rfl, fun _ => trivial⟩⟩

/-- The verifier of the statement, with the hash `O`. -/
def Spec.Claim.verify (O : Oracle) : (x : Spec.Claim G) → x.Proof → Bool
  | .issuanceRevealed t p _ _ _, π => IssuanceRevealed.verify O t π p
  | .attributesBlinded t p _ _ _, π => AttributesBlinded.verify O t π p
  | .issuanceBlinded t p _ _ _, π => IssuanceBlinded.verify O t π p
  | .validCredential t p _ _ _, π => ValidCredential.verify O t π p
  | .committedValuesEqual t p _ _ _, π => CommittedValuesEqual.verify O t π p

theorem Sim.honest_verifies (O : Oracle) (x : Spec.Claim G) (l : Spec.HashLog) :
    Spec.honest O x l (fun l' π => if x.verify (l'.oracle O) π = true then 1 else 0) = 1 := by
  cases x with
  | issuanceRevealed t p s h nd =>
    refine (Sim.mean_congr fun u => ?_).trans (Sim.mean_const (α := F × F × F × F) 1)
    refine (Sim.mean_congr fun a => ?_).trans (Sim.mean_const (α := Spec.Answer) 1)
    exact if_pos (IssuanceRevealed.C29_complete_any _ t h _)
  | attributesBlinded t p s h nd =>
    refine (Sim.mean_congr fun u => ?_).trans (Sim.mean_const (α := F × F × F × F) 1)
    refine (Sim.mean_congr fun a => ?_).trans (Sim.mean_const (α := Spec.Answer) 1)
    exact if_pos (AttributesBlinded.C29_complete_any _ t h _)
  | issuanceBlinded t p s h nd =>
    refine (Sim.mean_congr fun u => ?_).trans (Sim.mean_const (α := F × F × F × F × F × F) 1)
    refine (Sim.mean_congr fun a => ?_).trans (Sim.mean_const (α := Spec.Answer) 1)
    exact if_pos (IssuanceBlinded.C29_complete_any _ t h _)
  | validCredential t p s h nd =>
    refine (Sim.mean_congr fun u => ?_).trans (Sim.mean_const (α := F × F × F) 1)
    refine (Sim.mean_congr fun a => ?_).trans (Sim.mean_const (α := Spec.Answer) 1)
    exact if_pos (ValidCredential.C29_complete_any _ t h _)
  | committedValuesEqual t p s h nd =>
    refine (Sim.mean_congr fun u => ?_).trans (Sim.mean_const (α := F × F × F) 1)
    refine (Sim.mean_congr fun a => ?_).trans (Sim.mean_const (α := Spec.Answer) 1)
    exact if_pos (CommittedValuesEqual.C29_complete_any _ t h _)

/-- C81: a simulated proof is accepted by the verifier, except with probability `(|l|+1)/ℓ` after the
queries `l`. -/
theorem C81_simulated_accepted (O : Oracle) (x : Spec.Claim G) (l : Spec.HashLog) :
    1 - (l.length + 1) / ell ≤
      Spec.simulated x l (fun l' π => if x.verify (l'.oracle O) π = true then 1 else 0) := by
  have hf : Sim.Unit01 fun (l' : Spec.HashLog) (π : x.Proof) =>
      if x.verify (l'.oracle O) π = true then (1 : ℚ) else 0 := by
    intro l π
    dsimp only
    split <;> simp
  have h := (Sim.zk O).close x l _ _ 0 hf hf (fun _ _ _ => by simp)
  rw [Sim.honest_verifies, zero_add] at h
  have h := (abs_le.1 h).2
  push_cast at h
  rw [one_mul] at h
  linarith

end Verif
