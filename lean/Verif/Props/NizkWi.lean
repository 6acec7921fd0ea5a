import Verif.Props.Nizk

/-!
# Witness indistinguishability of the five proof systems (C64)
-/

set_option maxRecDepth 100000

namespace Verif

variable {G : Type} [AddCommGroup G] [Module F G] [Ristretto G]

/-- Moving each point `u` by `c u` times a direction along which `c` is constant. -/
def shiftEquiv {V : Type} [AddCommGroup V] [Module F V] (c : V → F) (d : V)
    (h : ∀ u (k : F), c (u + k • d) = c u) : V ≃ V where
  toFun u := u + c u • d
  invFun u := u - c u • d
  left_inv u := by
    have h1 := h u (c u)
    simp only [h1, add_sub_cancel_right]
  right_inv u := by
    have h1 : c (u - c u • d) = c u := by
      have := h u (-c u)
      rwa [neg_smul, ← sub_eq_add_neg] at this
    simp only [h1, sub_add_cancel]

namespace IssuanceRevealed

/-- The secrets as a vector. -/
def secVec (s : Secrets) : F × F × F × F := (s.x0.val, s.x1.val, s.x0_tilde.val, s.m1x1.val)

/-- The challenge of a proof with the given randomness; it does not depend on the secrets. -/
def chalOf (O : Oracle) (t : Transcript) (p : Publics G) (u : F × F × F × F) : F :=
  (getChallenge O (commitCommitments (commitPublics t p) (commitmentsOf p (randOf u)))).val

theorem chalOf_shift (O : Oracle) (t : Transcript) {p : Publics G} {s s' : Secrets}
    (h : Spec.IssuanceRevealed p s) (h' : Spec.IssuanceRevealed p s') (u : F × F × F × F) (k : F) :
    chalOf O t p (u + k • (secVec s - secVec s')) = chalOf O t p u := by
  obtain ⟨h0, h1, h2⟩ := h
  obtain ⟨g0, g1, g2⟩ := h'
  have e : commitmentsOf p (randOf (u + k • (secVec s - secVec s'))) = commitmentsOf p (randOf u) := by
    simp only [randOf, secVec, commitmentsOf, msm, List.zipWith_cons_cons, List.zipWith_nil_right,
      List.sum_cons, List.sum_nil, Scalar.smul_def, Scalar.val_ofF, Prod.fst_add, Prod.snd_add,
      Prod.smul_fst, Prod.smul_snd, Prod.fst_sub, Prod.snd_sub, smul_eq_mul]
    apply Commitments.ext
    · have := h0.symm.trans g0
      dsimp only
      linear_combination (norm := module) k • this
    · have := h1.symm.trans g1
      dsimp only
      linear_combination (norm := module) k • this
    · have := h2.symm.trans g2
      dsimp only
      linear_combination (norm := module) k • this
  rw [chalOf, e, chalOf]

/-- The permutation of the prover's randomness that turns a proof made with `s` into the same proof
made with `s'`. -/
def wiEquiv (O : Oracle) (t : Transcript) {p : Publics G} {s s' : Secrets}
    (h : Spec.IssuanceRevealed p s) (h' : Spec.IssuanceRevealed p s') : F × F × F × F ≃ F × F × F × F :=
  shiftEquiv (chalOf O t p) (secVec s - secVec s') (chalOf_shift O t h h')

theorem wiEquiv_proof (O : Oracle) (t : Transcript) {p : Publics G} {s s' : Secrets}
    (h : Spec.IssuanceRevealed p s) (h' : Spec.IssuanceRevealed p s') (u : F × F × F × F) :
    createWith O t p s (randOf u) = createWith O t p s' (randOf (wiEquiv O t h h' u)) := by
  have e := chalOf_shift O t h h' u (chalOf O t p u)
  have e' : getChallenge O (commitCommitments (commitPublics t p)
      (commitmentsOf p (randOf (wiEquiv O t h h' u)))) =
      getChallenge O (commitCommitments (commitPublics t p) (commitmentsOf p (randOf u))) :=
    Scalar.val_inj_of_reduced (Scalar.reduced_fromWide _) (Scalar.reduced_fromWide _) e
  simp only [createWith, e']
  apply Proof.ext
  · rfl
  · change respond _ s (randOf u) = respond _ s' (randOf (u + chalOf O t p u • (secVec s - secVec s')))
    rw [chalOf]
    generalize getChallenge O _ = c
    simp only [respond, randOf, secVec, Scalar.add_def, Scalar.val_mul, Scalar.val_ofF, Prod.fst_add,
      Prod.snd_add, Prod.smul_fst, Prod.smul_snd, Prod.fst_sub, Prod.snd_sub, smul_eq_mul]
    apply Responses.ext <;> (dsimp only; congr 1; ring)

/-- C64: for every fixed hash function, transcript and statement, proofs made with any two valid
witnesses and uniform randomness have the same distribution. -/
theorem C64_witness_indistinguishable (O : Oracle) (t : Transcript) {p : Publics G} {s s' : Secrets}
    (h : Spec.IssuanceRevealed p s) (h' : Spec.IssuanceRevealed p s') :
    (PMF.uniformOfFintype (F × F × F × F)).map (fun u => createWith O t p s (randOf u)) =
      (PMF.uniformOfFintype (F × F × F × F)).map (fun u => createWith O t p s' (randOf u)) :=
  uniform_map_eq (wiEquiv O t h h') _ _ (wiEquiv_proof O t h h')

end IssuanceRevealed

namespace AttributesBlinded

/-- The secrets as a vector. -/
def secVec (s : Secrets) : F × F × F × F := (s.d.val, s.e0.val, s.m0.val, s.nonce.val)

/-- The challenge of a proof with the given randomness; it does not depend on the secrets. -/
def chalOf (O : Oracle) (t : Transcript) (p : Publics G) (u : F × F × F × F) : F :=
  (getChallenge O (commitCommitments (commitPublics t p) (commitmentsOf p (randOf u)))).val

theorem chalOf_shift (O : Oracle) (t : Transcript) {p : Publics G} {s s' : Secrets}
    (h : Spec.AttributesBlinded p s) (h' : Spec.AttributesBlinded p s') (u : F × F × F × F) (k : F) :
    chalOf O t p (u + k • (secVec s - secVec s')) = chalOf O t p u := by
  obtain ⟨h0, h1, h2⟩ := h
  obtain ⟨g0, g1, g2⟩ := h'
  have e : commitmentsOf p (randOf (u + k • (secVec s - secVec s'))) = commitmentsOf p (randOf u) := by
    simp only [randOf, secVec, commitmentsOf, msm, List.zipWith_cons_cons, List.zipWith_nil_right,
      List.sum_cons, List.sum_nil, Scalar.smul_def, Scalar.val_ofF, Prod.fst_add, Prod.snd_add,
      Prod.smul_fst, Prod.smul_snd, Prod.fst_sub, Prod.snd_sub, smul_eq_mul]
    apply Commitments.ext
    · have := h0.symm.trans g0
      dsimp only
      linear_combination (norm := module) k • this
    · have := h1.symm.trans g1
      dsimp only
      linear_combination (norm := module) k • this
    · have := h2.symm.trans g2
      dsimp only
      linear_combination (norm := module) k • this
  rw [chalOf, e, chalOf]

/-- The permutation of the prover's randomness that turns a proof made with `s` into the same proof
made with `s'`. -/
def wiEquiv (O : Oracle) (t : Transcript) {p : Publics G} {s s' : Secrets}
    (h : Spec.AttributesBlinded p s) (h' : Spec.AttributesBlinded p s') : F × F × F × F ≃ F × F × F × F :=
  shiftEquiv (chalOf O t p) (secVec s - secVec s') (chalOf_shift O t h h')

theorem wiEquiv_proof (O : Oracle) (t : Transcript) {p : Publics G} {s s' : Secrets}
    (h : Spec.AttributesBlinded p s) (h' : Spec.AttributesBlinded p s') (u : F × F × F × F) :
    createWith O t p s (randOf u) = createWith O t p s' (randOf (wiEquiv O t h h' u)) := by
  have e := chalOf_shift O t h h' u (chalOf O t p u)
  have e' : getChallenge O (commitCommitments (commitPublics t p)
      (commitmentsOf p (randOf (wiEquiv O t h h' u)))) =
      getChallenge O (commitCommitments (commitPublics t p) (commitmentsOf p (randOf u))) :=
    Scalar.val_inj_of_reduced (Scalar.reduced_fromWide _) (Scalar.reduced_fromWide _) e
  simp only [createWith, e']
  apply Proof.ext
  · rfl
  · change respond _ s (randOf u) = respond _ s' (randOf (u + chalOf O t p u • (secVec s - secVec s')))
    rw [chalOf]
    generalize getChallenge O _ = c
    simp only [respond, randOf, secVec, Scalar.add_def, Scalar.val_mul, Scalar.val_ofF, Prod.fst_add,
      Prod.snd_add, Prod.smul_fst, Prod.smul_snd, Prod.fst_sub, Prod.snd_sub, smul_eq_mul]
    apply Responses.ext <;> (dsimp only; congr 1; ring)

/-- C64: for every fixed hash function, transcript and statement, proofs made with any two valid
witnesses and uniform randomness have the same distribution. -/
theorem C64_witness_indistinguishable (O : Oracle) (t : Transcript) {p : Publics G} {s s' : Secrets}
    (h : Spec.AttributesBlinded p s) (h' : Spec.AttributesBlinded p s') :
    (PMF.uniformOfFintype (F × F × F × F)).map (fun u => createWith O t p s (randOf u)) =
      (PMF.uniformOfFintype (F × F × F × F)).map (fun u => createWith O t p s' (randOf u)) :=
  uniform_map_eq (wiEquiv O t h h') _ _ (wiEquiv_proof O t h h')

end AttributesBlinded

namespace IssuanceBlinded

/-- The secrets as a vector. -/
def secVec (s : Secrets) : F × F × F × F × F × F := (s.x0_tilde.val, s.x0.val, s.x1.val, s.s.val, s.b.val, s.t0.val)

/-- The challenge of a proof with the given randomness; it does not depend on the secrets. -/
def chalOf (O : Oracle) (t : Transcript) (p : Publics G) (u : F × F × F × F × F × F) : F :=
  (getChallenge O (commitCommitments (commitPublics t p) (commitmentsOf p (randOf u)))).val

theorem chalOf_shift (O : Oracle) (t : Transcript) {p : Publics G} {s s' : Secrets}
    (h : Spec.IssuanceBlinded p s) (h' : Spec.IssuanceBlinded p s') (u : F × F × F × F × F × F) (k : F) :
    chalOf O t p (u + k • (secVec s - secVec s')) = chalOf O t p u := by
  obtain ⟨h0, h1, h2, h3, h4, h5, h6⟩ := h
  obtain ⟨g0, g1, g2, g3, g4, g5, g6⟩ := h'
  have e : commitmentsOf p (randOf (u + k • (secVec s - secVec s'))) = commitmentsOf p (randOf u) := by
    simp only [randOf, secVec, commitmentsOf, msm, List.zipWith_cons_cons, List.zipWith_nil_right,
      List.sum_cons, List.sum_nil, Scalar.smul_def, Scalar.val_ofF, Prod.fst_add, Prod.snd_add,
      Prod.smul_fst, Prod.smul_snd, Prod.fst_sub, Prod.snd_sub, smul_eq_mul]
    apply Commitments.ext
    · have := h0.symm.trans g0
      dsimp only
      linear_combination (norm := module) k • this
    · have := h1.symm.trans g1
      dsimp only
      linear_combination (norm := module) k • this
    · have := h2.symm.trans g2
      dsimp only
      linear_combination (norm := module) k • this
    · have := h3.symm.trans g3
      dsimp only
      linear_combination (norm := module) k • this
    · have := h4.symm.trans g4
      dsimp only
      linear_combination (norm := module) k • this
    · have := h5.symm.trans g5
      dsimp only
      linear_combination (norm := module) k • this
    · have := h6.symm.trans g6
      dsimp only
      linear_combination (norm := module) k • this
  rw [chalOf, e, chalOf]

/-- The permutation of the prover's randomness that turns a proof made with `s` into the same proof
made with `s'`. -/
def wiEquiv (O : Oracle) (t : Transcript) {p : Publics G} {s s' : Secrets}
    (h : Spec.IssuanceBlinded p s) (h' : Spec.IssuanceBlinded p s') : F × F × F × F × F × F ≃ F × F × F × F × F × F :=
  shiftEquiv (chalOf O t p) (secVec s - secVec s') (chalOf_shift O t h h')

theorem wiEquiv_proof (O : Oracle) (t : Transcript) {p : Publics G} {s s' : Secrets}
    (h : Spec.IssuanceBlinded p s) (h' : Spec.IssuanceBlinded p s') (u : F × F × F × F × F × F) :
    createWith O t p s (randOf u) = createWith O t p s' (randOf (wiEquiv O t h h' u)) := by
  have e := chalOf_shift O t h h' u (chalOf O t p u)
  have e' : getChallenge O (commitCommitments (commitPublics t p)
      (commitmentsOf p (randOf (wiEquiv O t h h' u)))) =
      getChallenge O (commitCommitments (commitPublics t p) (commitmentsOf p (randOf u))) :=
    Scalar.val_inj_of_reduced (Scalar.reduced_fromWide _) (Scalar.reduced_fromWide _) e
  simp only [createWith, e']
  apply Proof.ext
  · rfl
  · change respond _ s (randOf u) = respond _ s' (randOf (u + chalOf O t p u • (secVec s - secVec s')))
    rw [chalOf]
    generalize getChallenge O _ = c
    simp only [respond, randOf, secVec, Scalar.add_def, Scalar.val_mul, Scalar.val_ofF, Prod.fst_add,
      Prod.snd_add, Prod.smul_fst, Prod.smul_snd, Prod.fst_sub, Prod.snd_sub, smul_eq_mul]
    apply Responses.ext <;> (dsimp only; congr 1; ring)

/-- C64: for every fixed hash function, transcript and statement, proofs made with any two valid
witnesses and uniform randomness have the same distribution. -/
theorem C64_witness_indistinguishable (O : Oracle) (t : Transcript) {p : Publics G} {s s' : Secrets}
    (h : Spec.IssuanceBlinded p s) (h' : Spec.IssuanceBlinded p s') :
    (PMF.uniformOfFintype (F × F × F × F × F × F)).map (fun u => createWith O t p s (randOf u)) =
      (PMF.uniformOfFintype (F × F × F × F × F × F)).map (fun u => createWith O t p s' (randOf u)) :=
  uniform_map_eq (wiEquiv O t h h') _ _ (wiEquiv_proof O t h h')

end IssuanceBlinded

namespace ValidCredential

/-- The secrets as a vector. -/
def secVec (s : Secrets) : F × F × F := (s.m0.val, s.z0.val, s.minus_zQ.val)

/-- The challenge of a proof with the given randomness; it does not depend on the secrets. -/
def chalOf (O : Oracle) (t : Transcript) (p : Publics G) (u : F × F × F) : F :=
  (getChallenge O (commitCommitments (commitPublics t p) (commitmentsOf p (randOf u)))).val

theorem chalOf_shift (O : Oracle) (t : Transcript) {p : Publics G} {s s' : Secrets}
    (h : Spec.ValidCredential p s) (h' : Spec.ValidCredential p s') (u : F × F × F) (k : F) :
    chalOf O t p (u + k • (secVec s - secVec s')) = chalOf O t p u := by
  obtain ⟨h0, h1⟩ := h
  obtain ⟨g0, g1⟩ := h'
  have e : commitmentsOf p (randOf (u + k • (secVec s - secVec s'))) = commitmentsOf p (randOf u) := by
    simp only [randOf, secVec, commitmentsOf, msm, List.zipWith_cons_cons, List.zipWith_nil_right,
      List.sum_cons, List.sum_nil, Scalar.smul_def, Scalar.val_ofF, Prod.fst_add, Prod.snd_add,
      Prod.smul_fst, Prod.smul_snd, Prod.fst_sub, Prod.snd_sub, smul_eq_mul]
    apply Commitments.ext
    · have := h0.symm.trans g0
      dsimp only
      linear_combination (norm := module) k • this
    · have := h1.symm.trans g1
      dsimp only
      linear_combination (norm := module) k • this
  rw [chalOf, e, chalOf]

/-- The permutation of the prover's randomness that turns a proof made with `s` into the same proof
made with `s'`. -/
def wiEquiv (O : Oracle) (t : Transcript) {p : Publics G} {s s' : Secrets}
    (h : Spec.ValidCredential p s) (h' : Spec.ValidCredential p s') : F × F × F ≃ F × F × F :=
  shiftEquiv (chalOf O t p) (secVec s - secVec s') (chalOf_shift O t h h')

theorem wiEquiv_proof (O : Oracle) (t : Transcript) {p : Publics G} {s s' : Secrets}
    (h : Spec.ValidCredential p s) (h' : Spec.ValidCredential p s') (u : F × F × F) :
    createWith O t p s (randOf u) = createWith O t p s' (randOf (wiEquiv O t h h' u)) := by
  have e := chalOf_shift O t h h' u (chalOf O t p u)
  have e' : getChallenge O (commitCommitments (commitPublics t p)
      (commitmentsOf p (randOf (wiEquiv O t h h' u)))) =
      getChallenge O (commitCommitments (commitPublics t p) (commitmentsOf p (randOf u))) :=
    Scalar.val_inj_of_reduced (Scalar.reduced_fromWide _) (Scalar.reduced_fromWide _) e
  simp only [createWith, e']
  apply Proof.ext
  · rfl
  · change respond _ s (randOf u) = respond _ s' (randOf (u + chalOf O t p u • (secVec s - secVec s')))
    rw [chalOf]
    generalize getChallenge O _ = c
    simp only [respond, randOf, secVec, Scalar.add_def, Scalar.val_mul, Scalar.val_ofF, Prod.fst_add,
      Prod.snd_add, Prod.smul_fst, Prod.smul_snd, Prod.fst_sub, Prod.snd_sub, smul_eq_mul]
    apply Responses.ext <;> (dsimp only; congr 1; ring)

/-- C64: for every fixed hash function, transcript and statement, proofs made with any two valid
witnesses and uniform randomness have the same distribution. -/
theorem C64_witness_indistinguishable (O : Oracle) (t : Transcript) {p : Publics G} {s s' : Secrets}
    (h : Spec.ValidCredential p s) (h' : Spec.ValidCredential p s') :
    (PMF.uniformOfFintype (F × F × F)).map (fun u => createWith O t p s (randOf u)) =
      (PMF.uniformOfFintype (F × F × F)).map (fun u => createWith O t p s' (randOf u)) :=
  uniform_map_eq (wiEquiv O t h h') _ _ (wiEquiv_proof O t h h')

end ValidCredential

namespace CommittedValuesEqual

/-- The secrets as a vector. -/
def secVec (s : Secrets) : F × F × F := (s.m0.val, s.z0.val, s.z1.val)

/-- The challenge of a proof with the given randomness; it does not depend on the secrets. -/
def chalOf (O : Oracle) (t : Transcript) (p : Publics G) (u : F × F × F) : F :=
  (getChallenge O (commitCommitments (commitPublics t p) (commitmentsOf p (randOf u)))).val

theorem chalOf_shift (O : Oracle) (t : Transcript) {p : Publics G} {s s' : Secrets}
    (h : Spec.CommittedValuesEqual p s) (h' : Spec.CommittedValuesEqual p s') (u : F × F × F) (k : F) :
    chalOf O t p (u + k • (secVec s - secVec s')) = chalOf O t p u := by
  obtain ⟨h0, h1⟩ := h
  obtain ⟨g0, g1⟩ := h'
  have e : commitmentsOf p (randOf (u + k • (secVec s - secVec s'))) = commitmentsOf p (randOf u) := by
    simp only [randOf, secVec, commitmentsOf, msm, List.zipWith_cons_cons, List.zipWith_nil_right,
      List.sum_cons, List.sum_nil, Scalar.smul_def, Scalar.val_ofF, Prod.fst_add, Prod.snd_add,
      Prod.smul_fst, Prod.smul_snd, Prod.fst_sub, Prod.snd_sub, smul_eq_mul]
    apply Commitments.ext
    · have := h0.symm.trans g0
      dsimp only
      linear_combination (norm := module) k • this
    · have := h1.symm.trans g1
      dsimp only
      linear_combination (norm := module) k • this
  rw [chalOf, e, chalOf]

/-- The permutation of the prover's randomness that turns a proof made with `s` into the same proof
made with `s'`. -/
def wiEquiv (O : Oracle) (t : Transcript) {p : Publics G} {s s' : Secrets}
    (h : Spec.CommittedValuesEqual p s) (h' : Spec.CommittedValuesEqual p s') : F × F × F ≃ F × F × F :=
  shiftEquiv (chalOf O t p) (secVec s - secVec s') (chalOf_shift O t h h')

theorem wiEquiv_proof (O : Oracle) (t : Transcript) {p : Publics G} {s s' : Secrets}
    (h : Spec.CommittedValuesEqual p s) (h' : Spec.CommittedValuesEqual p s') (u : F × F × F) :
    createWith O t p s (randOf u) = createWith O t p s' (randOf (wiEquiv O t h h' u)) := by
  have e := chalOf_shift O t h h' u (chalOf O t p u)
  have e' : getChallenge O (commitCommitments (commitPublics t p)
      (commitmentsOf p (randOf (wiEquiv O t h h' u)))) =
      getChallenge O (commitCommitments (commitPublics t p) (commitmentsOf p (randOf u))) :=
    Scalar.val_inj_of_reduced (Scalar.reduced_fromWide _) (Scalar.reduced_fromWide _) e
  simp only [createWith, e']
  apply Proof.ext
  · rfl
  · change respond _ s (randOf u) = respond _ s' (randOf (u + chalOf O t p u • (secVec s - secVec s')))
    rw [chalOf]
    generalize getChallenge O _ = c
    simp only [respond, randOf, secVec, Scalar.add_def, Scalar.val_mul, Scalar.val_ofF, Prod.fst_add,
      Prod.snd_add, Prod.smul_fst, Prod.smul_snd, Prod.fst_sub, Prod.snd_sub, smul_eq_mul]
    apply Responses.ext <;> (dsimp only; congr 1; ring)

/-- C64: for every fixed hash function, transcript and statement, proofs made with any two valid
witnesses and uniform randomness have the same distribution. -/
theorem C64_witness_indistinguishable (O : Oracle) (t : Transcript) {p : Publics G} {s s' : Secrets}
    (h : Spec.CommittedValuesEqual p s) (h' : Spec.CommittedValuesEqual p s') :
    (PMF.uniformOfFintype (F × F × F)).map (fun u => createWith O t p s (randOf u)) =
      (PMF.uniformOfFintype (F × F × F)).map (fun u => createWith O t p s' (randOf u)) :=
  uniform_map_eq (wiEquiv O t h h') _ _ (wiEquiv_proof O t h h')

end CommittedValuesEqual

/-- A statement with two different witnesses. -/
example : Spec.ValidCredential (⟨1, 4, 6, 7, 38, 41⟩ : ValidCredential.Publics F)
      ⟨⟨3, by decide⟩, ⟨5, by decide⟩, ⟨2, by decide⟩⟩ ∧
    Spec.ValidCredential (⟨1, 4, 6, 7, 38, 41⟩ : ValidCredential.Publics F)
      ⟨Scalar.ofF (41 / 7), ⟨0, by decide⟩, Scalar.ofF (38 / 4)⟩ := by
  simp only [Spec.ValidCredential]
  decide +kernel

/-- For the other proofs, except `attributes_blinded` with `B ≠ 0`, whose secrets are determined up to
the unused `nonce`. -/
example : Spec.IssuanceRevealed (⟨2, 76, 11, 1, 4, 20⟩ : IssuanceRevealed.Publics F)
      ⟨⟨3, by decide⟩, ⟨5, by decide⟩, ⟨2, by decide⟩, ⟨35, by decide⟩⟩ ∧
    Spec.IssuanceRevealed (⟨2, 76, 11, 1, 4, 20⟩ : IssuanceRevealed.Publics F)
      ⟨⟨7, by decide⟩, ⟨5, by decide⟩, ⟨1, by decide⟩, ⟨31, by decide⟩⟩ := by
  simp only [Spec.IssuanceRevealed]
  decide +kernel

example : Spec.AttributesBlinded (⟨1, 4, 3, 5, 17⟩ : AttributesBlinded.Publics F)
      ⟨⟨3, by decide⟩, ⟨5, by decide⟩, ⟨2, by decide⟩, ⟨9, by decide⟩⟩ ∧
    Spec.AttributesBlinded (⟨1, 4, 3, 5, 17⟩ : AttributesBlinded.Publics F)
      ⟨⟨3, by decide⟩, ⟨5, by decide⟩, ⟨2, by decide⟩, ⟨8, by decide⟩⟩ := by
  simp only [Spec.AttributesBlinded]
  decide +kernel

example : Spec.IssuanceBlinded
      (⟨1, 4, 17, 8, 7, 6, 102, 32, 89, 151, 10, 11⟩ : IssuanceBlinded.Publics F)
      ⟨⟨3, by decide⟩, ⟨5, by decide⟩, ⟨2, by decide⟩, ⟨9, by decide⟩, ⟨6, by decide⟩, ⟨8, by decide⟩⟩ ∧
    Spec.IssuanceBlinded
      (⟨1, 4, 17, 8, 7, 6, 102, 32, 89, 151, 10, 11⟩ : IssuanceBlinded.Publics F)
      ⟨⟨4, by decide⟩, ⟨1, by decide⟩, ⟨2, by decide⟩, ⟨9, by decide⟩, ⟨6, by decide⟩, ⟨8, by decide⟩⟩ := by
  simp only [Spec.IssuanceBlinded]
  decide +kernel

example : Spec.CommittedValuesEqual (⟨1, 4, 7, 41, 14⟩ : CommittedValuesEqual.Publics F)
      ⟨⟨3, by decide⟩, ⟨5, by decide⟩, ⟨2, by decide⟩⟩ ∧
    Spec.CommittedValuesEqual (⟨1, 4, 7, 41, 14⟩ : CommittedValuesEqual.Publics F)
      ⟨Scalar.ofF (-1), ⟨12, by decide⟩, ⟨18, by decide⟩⟩ := by
  simp only [Spec.CommittedValuesEqual]
  decide +kernel

end Verif
