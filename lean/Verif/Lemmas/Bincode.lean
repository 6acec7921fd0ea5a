import Verif.Lemmas.Bytes

/-! # bincode lemmas -/

namespace Verif

/-- Specification: a scalar field on the wire is the 64-bit little-endian number 32 followed by the
32 canonical bytes. -/
def Spec.field (s : Scalar) : Bytes := [32, 0, 0, 0, 0, 0, 0, 0] ++ s.toBytes

@[simp] theorem Spec.field_length (s : Scalar) : (Spec.field s).length = 40 := by
  simp [Spec.field]

theorem Spec.field_inj {s t : Scalar} (h : Spec.field s = Spec.field t) : s = t := by
  rw [Spec.field, Spec.field, append_eq_iff rfl] at h
  exact Scalar.toBytes_inj h.2

theorem leBytes_8_32 : leBytes 8 32 = [32, 0, 0, 0, 0, 0, 0, 0] := by decide

theorem encScalar_of_reduced {s : Scalar} (h : s.Reduced) : Bincode.encScalar s = Spec.field s := by
  rw [Bincode.encScalar, Spec.field, Scalar.ofF_val h, leBytes_8_32]

theorem encScalars_of_reduced {ss : List Scalar} (h : ∀ s ∈ ss, s.Reduced) :
    Bincode.encScalars ss = (ss.map Spec.field).flatten := by
  rw [Bincode.encScalars]
  congr 1
  apply List.map_congr_left
  intro s hs
  exact encScalar_of_reduced (h s hs)

theorem encScalars_length (ss : List Scalar) : (Bincode.encScalars ss).length = 40 * ss.length := by
  rw [Bincode.encScalars]
  exact flatten_map_length (fun s => by simp [Bincode.encScalar]) ss

theorem decScalar_eq_some {b rest : Bytes} {s : Scalar} :
    Bincode.decScalar b = some (s, rest) ↔ s.Reduced ∧ b = Spec.field s ++ rest := by
  constructor
  · intro h
    rw [Bincode.decScalar] at h
    split at h
    · cases h
    rename_i h8
    obtain ⟨x, y, rfl, hx⟩ := exists_split (b := b) (n := 8) (by omega)
    have ht : (x ++ y).take 8 = x := by
      rw [List.take_append_of_le_length (by omega), List.take_of_length_le (by omega)]
    have hd : (x ++ y).drop 8 = y := by
      rw [List.drop_append_of_le_length (by omega), List.drop_of_length_le (by omega)]; simp
    simp only [ht, hd] at h
    split at h
    · cases h
    rename_i hlen
    split at h
    · cases h
    rename_i h32
    have h32 : leVal x = 32 := by omega
    rw [h32] at h hlen
    split at h
    · cases h
    · rename_i s' hs
      cases h
      have hl : (y.take 32).length = 32 := by rw [List.length_take]; omega
      obtain ⟨h1, h2⟩ := (Scalar.fromCanonical_eq_some hl).1 hs
      refine ⟨h1, ?_⟩
      have hx' : x = [32, 0, 0, 0, 0, 0, 0, 0] := by
        apply leVal_inj (by simp [hx])
        rw [h32]; rfl
      rw [Spec.field, h2, hx', List.append_assoc, List.take_append_drop]
  · rintro ⟨h1, rfl⟩
    have e : Spec.field s ++ rest = [32, 0, 0, 0, 0, 0, 0, 0] ++ (s.toBytes ++ rest) := by
      rw [Spec.field, List.append_assoc]
    have hv : leVal [32, 0, 0, 0, 0, 0, 0, 0] = 32 := rfl
    rw [e, Bincode.decScalar, if_neg (by simp)]
    have ht : ([32, 0, 0, 0, 0, 0, 0, 0] ++ (s.toBytes ++ rest) : Bytes).take 8 =
        [32, 0, 0, 0, 0, 0, 0, 0] := rfl
    have hd : ([32, 0, 0, 0, 0, 0, 0, 0] ++ (s.toBytes ++ rest) : Bytes).drop 8 =
        s.toBytes ++ rest := rfl
    simp only [ht, hd, hv]
    rw [if_neg (by simp), if_neg (by simp)]
    have ht2 : (s.toBytes ++ rest).take 32 = s.toBytes := by
      rw [List.take_append_of_le_length (by simp), List.take_of_length_le (by simp)]
    have hd2 : (s.toBytes ++ rest).drop 32 = rest := by
      rw [List.drop_append_of_le_length (by simp), List.drop_of_length_le (by simp)]; simp
    rw [ht2, hd2, Scalar.fromCanonical_toBytes h1]

theorem decScalars_eq_some : ∀ {n : ℕ} {b : Bytes} {ss : List Scalar},
    Bincode.decScalars n b = some ss ↔
      ss.length = n ∧ (∀ s ∈ ss, s.Reduced) ∧ ∃ rest, b = (ss.map Spec.field).flatten ++ rest
  | 0, b, ss => by
    rw [Bincode.decScalars]
    constructor
    · intro h; cases h; simp
    · rintro ⟨h, _⟩
      rw [List.length_eq_zero_iff.1 h]
  | n + 1, b, ss => by
    rw [Bincode.decScalars]
    constructor
    · intro h
      split at h
      · cases h
      rename_i s rest hs
      split at h
      · cases h
      rename_i ss' hss
      cases h
      obtain ⟨h1, rfl⟩ := decScalar_eq_some.1 hs
      obtain ⟨h2, h3, r, rfl⟩ := decScalars_eq_some.1 hss
      refine ⟨by simp [h2], ?_, r, by simp⟩
      intro x hx
      rcases List.mem_cons.1 hx with rfl | hx
      · exact h1
      · exact h3 x hx
    · rintro ⟨h1, h2, rest, rfl⟩
      cases ss with
      | nil => simp at h1
      | cons s ss =>
        rw [List.map_cons, List.flatten_cons, List.append_assoc,
          decScalar_eq_some.2 ⟨h2 s (by simp), rfl⟩]
        dsimp only
        rw [decScalars_eq_some.2 ⟨by simpa using h1, fun x hx => h2 x (by simp [hx]), rest, rfl⟩]

/-- The three serialised proof types on the wire. -/
theorem IssuanceRevealed.deserialize_eq_some {b : Bytes} {p : IssuanceRevealed.Proof} :
    IssuanceRevealed.Proof.deserialize b = some p ↔
      (p.challenge.Reduced ∧ p.responses.x0.Reduced ∧ p.responses.x1.Reduced ∧
        p.responses.x0_tilde.Reduced ∧ p.responses.m1x1.Reduced) ∧
      ∃ rest, b = Spec.field p.challenge ++ Spec.field p.responses.x0 ++
        Spec.field p.responses.x1 ++ Spec.field p.responses.x0_tilde ++
        Spec.field p.responses.m1x1 ++ rest := by
  rw [IssuanceRevealed.Proof.deserialize]
  constructor
  · intro h
    split at h
    · rename_i c x0 x1 x0_tilde m1x1 hd
      cases h
      obtain ⟨_, h2, rest, rfl⟩ := decScalars_eq_some.1 hd
      simp only [List.mem_cons, List.not_mem_nil, or_false, forall_eq_or_imp, forall_eq] at h2
      exact ⟨h2, rest, by simp⟩
    · cases h
  · rintro ⟨h, rest, rfl⟩
    have e := (decScalars_eq_some (n := 5) (ss := [p.challenge, p.responses.x0, p.responses.x1,
      p.responses.x0_tilde, p.responses.m1x1]) (b := _)).2
      ⟨rfl, by simpa using h, rest, rfl⟩
    simp only [List.map_cons, List.map_nil, List.flatten_cons, List.flatten_nil, List.append_nil,
      List.append_assoc] at e ⊢
    rw [e]

theorem ValidCredential.deserialize_eq_some {b : Bytes} {p : ValidCredential.Proof} :
    ValidCredential.Proof.deserialize b = some p ↔
      (p.challenge.Reduced ∧ p.responses.m0.Reduced ∧ p.responses.z0.Reduced ∧
        p.responses.minus_zQ.Reduced) ∧
      ∃ rest, b = Spec.field p.challenge ++ Spec.field p.responses.m0 ++
        Spec.field p.responses.z0 ++ Spec.field p.responses.minus_zQ ++ rest := by
  rw [ValidCredential.Proof.deserialize]
  constructor
  · intro h
    split at h
    · rename_i c m0 z0 mz hd
      cases h
      obtain ⟨_, h2, rest, rfl⟩ := decScalars_eq_some.1 hd
      simp only [List.mem_cons, List.not_mem_nil, or_false, forall_eq_or_imp, forall_eq] at h2
      exact ⟨h2, rest, by simp⟩
    · cases h
  · rintro ⟨h, rest, rfl⟩
    have e := (decScalars_eq_some (n := 4) (ss := [p.challenge, p.responses.m0, p.responses.z0,
      p.responses.minus_zQ]) (b := _)).2
      ⟨rfl, by simpa using h, rest, rfl⟩
    simp only [List.map_cons, List.map_nil, List.flatten_cons, List.flatten_nil, List.append_nil,
      List.append_assoc] at e ⊢
    rw [e]

theorem CommittedValuesEqual.deserialize_eq_some {b : Bytes} {p : CommittedValuesEqual.Proof} :
    CommittedValuesEqual.Proof.deserialize b = some p ↔
      (p.challenge.Reduced ∧ p.responses.m0.Reduced ∧ p.responses.z0.Reduced ∧
        p.responses.z1.Reduced) ∧
      ∃ rest, b = Spec.field p.challenge ++ Spec.field p.responses.m0 ++
        Spec.field p.responses.z0 ++ Spec.field p.responses.z1 ++ rest := by
  rw [CommittedValuesEqual.Proof.deserialize]
  constructor
  · intro h
    split at h
    · rename_i c m0 z0 mz hd
      cases h
      obtain ⟨_, h2, rest, rfl⟩ := decScalars_eq_some.1 hd
      simp only [List.mem_cons, List.not_mem_nil, or_false, forall_eq_or_imp, forall_eq] at h2
      exact ⟨h2, rest, by simp⟩
    · cases h
  · rintro ⟨h, rest, rfl⟩
    have e := (decScalars_eq_some (n := 4) (ss := [p.challenge, p.responses.m0, p.responses.z0,
      p.responses.z1]) (b := _)).2
      ⟨rfl, by simpa using h, rest, rfl⟩
    simp only [List.map_cons, List.map_nil, List.flatten_cons, List.flatten_nil, List.append_nil,
      List.append_assoc] at e ⊢
    rw [e]

end Verif
