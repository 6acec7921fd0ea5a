import Verif.Props.Echo

/-!
# Adversaries that also watch presentations (C94)

Puts `Deputy` and `Echo` together: an adversary that gets numbers issued and watches presentations of honest users is
accepted for another number only if it repeats a presentation, or a MAC is forged, or the logarithm of `h` to the base
`g` is found.
-/

set_option maxRecDepth 100000

namespace Verif

open Amacs

variable {G : Type} [AddCommGroup G] [Module F G] [Ristretto G] {Out : Type}

/-- The adversaries that do not watch. Their coins are those of the adversaries that watch, and coins for at most `T`
presentations. -/
noncomputable def Spec.deputies {Ω : Type} (m₁ : Scalar) (A : SystemParameters G → G → Ω → Spec.Onlooker G Out) (T : ℕ) :
    SystemParameters G → G → Ω × (Fin T → Spec.ShowCoins) → Spec.Impostor G Out :=
  fun sp X ω => Spec.deputy m₁ (A sp X ω.1) sp X (Spec.stretch ω.2)

namespace Onlooker

open Watching

/-- `Spec.deputies` for adversaries that may depend on the secret key. -/
noncomputable def deputies {Ω : Type} (m₁ : Scalar) (A : SystemParameters G → F × F → Ω → Spec.Onlooker G Out) (T : ℕ) :
    SystemParameters G → F × F → Ω × (Fin T → Spec.ShowCoins) → Spec.Impostor G Out :=
  fun sp k ω => Spec.deputy m₁ (A sp k ω.1) sp (k.2 • sp.h) (Spec.stretch ω.2)

/-- `Spec.onlookerWins` for adversaries that may depend on the secret key. -/
noncomputable def wins {S Ω : Type} [Fintype S] [Fintype Ω] (O : Oracle) (sp : S → SystemParameters G)
    (A : SystemParameters G → F × F → Ω → Spec.Onlooker G Spec.Attempt) (V : Set F) : ℚ :=
  Spec.mean fun x : S × Ω × F × F =>
    let i := Spec.issuerOf (sp x.1) x.2.2.1 x.2.2.2
    ((A (sp x.1) x.2.2 x.2.1).checked i).expect
      (Spec.honestIssue O (sp x.1) (Scalar.ofF x.2.2.1) (Scalar.ofF x.2.2.2))
      (Spec.memberShow O (sp x.1) (Scalar.ofF x.2.2.1) (Scalar.ofF x.2.2.2)) (Spec.Attempt.fresh O i V) [] []

section
variable {S Ω : Type} [Fintype S] [Fintype Ω] {sp : S → SystemParameters G}
  {A : SystemParameters G → F × F → Ω → Spec.Onlooker G Spec.Attempt} {V : Set F} {T : ℕ}

theorem fresh01 (O : Oracle) (i : Issuer G) (V : Set F) (o : Spec.Attempt) (l : Spec.HashLog)
    (ps : List (SignalCredentialPresentation G)) : 0 ≤ o.fresh O i V l ps ∧ o.fresh O i V l ps ≤ 1 := by
  unfold Spec.Attempt.fresh
  split <;> norm_num

/-- The success without using a query of a presentation. -/
noncomputable def novelty {S Ω : Type} [Fintype S] [Fintype Ω] (O : Oracle) (sp : S → SystemParameters G)
    (A : SystemParameters G → F × F → Ω → Spec.Onlooker G Spec.Attempt) (V : Set F) : ℚ :=
  Spec.mean fun x : S × Ω × F × F =>
    let i := Spec.issuerOf (sp x.1) x.2.2.1 x.2.2.2
    ((A (sp x.1) x.2.2 x.2.1).checked i).expect
      (Spec.honestIssue O (sp x.1) (Scalar.ofF x.2.2.1) (Scalar.ofF x.2.2.2))
      (simShow (sp x.1) (Scalar.ofF x.2.2.1) (Scalar.ofF x.2.2.2)) (Deputy.novel O i V) [] []

theorem watcher_le [Nonempty S] [Nonempty Ω] (O : Oracle) (hg : ∀ σ, (sp σ).g ≠ 0) (hh : ∀ σ, (sp σ).h ≠ 0)
    (hA : ∀ σ k ω, (A (sp σ) k ω).Within T) :
    wins O sp A V ≤ novelty O sp A V + Echo.echoed O sp A V + (T + 2) ^ 2 / ell := by
  classical
  unfold wins novelty Echo.echoed
  rw [← Sim.mean_add, ← Sim.mean_const (α := S × Ω × F × F) ((T + 2) ^ 2 / ell : ℚ), ← Sim.mean_add]
  refine Sim.mean_mono fun x => ?_
  dsimp only
  set i := Spec.issuerOf (sp x.1) x.2.2.1 x.2.2.2 with hi
  have hw := Deputy.checked_within (i := i) _ T (hA x.1 x.2.2 x.2.1)
  have h1 := expect_close
    (Deputy.sampled_close (Deputy.issue_sampled O (sp x.1) (Scalar.ofF x.2.2.1) (Scalar.ofF x.2.2.2)))
    (member_close O (sp x.1) (hh x.1) (Scalar.ofF x.2.2.1) (Scalar.ofF x.2.2.2)) (fresh01 O i V) _ [] [] (T + 2) hw
  have h2 := (abs_sub_le_iff.1 h1).1
  simp only [List.length_nil, Nat.cast_zero, zero_add] at h2
  push_cast at h2
  rw [← sq, sub_le_iff_le_add'] at h2
  refine h2.trans (add_le_add_left ?_ _)
  have tape := fun f : Final G Spec.Attempt => Echo.run_tape (x0 := x.2.2.1) (x1 := x.2.2.2) (hg x.1) (hh x.1) O f
    (Q := T + 2) ((A (sp x.1) x.2.2 x.2.1).checked i) [] [] (T + 2) hw (by simp)
  simp only [List.map_nil] at tape
  rw [tape, tape, tape, ← Sim.mean_add]
  refine Sim.mean_mono fun s => ?_
  unfold Spec.Attempt.fresh Deputy.novel Echo.Echoing
  generalize Spec.Onlooker.run (sp x.1) _ _ _ _ _ _ = r
  by_cases h3 : r.1.Good (r.2.1.oracle O) i V <;> by_cases h4 : r.1.Copies (r.2.2.map Prod.snd) <;>
    by_cases h5 : r.1.Echoes i (r.2.2.map Prod.snd) <;> simp [h3, h4, h5]

set_option synthInstance.maxSize 1000 in
theorem novelty_le [Nonempty S] [Nonempty Ω] (O : Oracle) (hh : ∀ σ, (sp σ).h ≠ 0) (m₁ : Scalar)
    (hA : ∀ σ k ω, (A (sp σ) k ω).Within T) :
    novelty O sp A V ≤ Reduction.wins O sp (deputies m₁ A T) V + (T + 3) ^ 2 / ell := by
  have e : Reduction.wins O sp (deputies m₁ A T) V = Spec.mean fun x : S × Ω × F × F =>
      Spec.mean fun c : Fin T → Spec.ShowCoins =>
        ((Spec.deputy m₁ (A (sp x.1) x.2.2 x.2.1) (sp x.1) (x.2.2.2 • (sp x.1).h)
          (Spec.stretch c)).checked (Spec.issuerOf (sp x.1) x.2.2.1 x.2.2.2)).expect
          (Spec.honestIssue O (sp x.1) (Scalar.ofF x.2.2.1) (Scalar.ofF x.2.2.2))
          (Spec.Attempt.value O (Spec.issuerOf (sp x.1) x.2.2.1 x.2.2.2) V) [] := by
    unfold Reduction.wins deputies
    rw [Tagging.mean_prod (α := S), Tagging.mean_prod (α := S)]
    refine Sim.mean_congr fun σ => ?_
    rw [Tagging.mean_prod (α := Ω × (Fin T → Spec.ShowCoins)), Tagging.mean_prod (α := Ω),
      Tagging.mean_prod (α := Ω)]
    refine Sim.mean_congr fun ω => ?_
    rw [Sim.mean_comm]
  rw [e, ← Sim.mean_const (α := S × Ω × F × F) ((T + 3) ^ 2 / ell : ℚ), ← Sim.mean_add]
  exact Sim.mean_mono fun x => Deputy.deputy_le (hh x.1) m₁ (hA _ _ _)

end

/-- C94, for adversaries that may depend on the secret key. -/
theorem reduction {S Ω : Type} [Fintype S] [Nonempty S] [Fintype Ω] [Nonempty Ω] (O : Oracle)
    (sp : S → SystemParameters G) (hg : ∀ σ, (sp σ).g ≠ 0) (hh : ∀ σ, (sp σ).h ≠ 0)
    (A : SystemParameters G → F × F → Ω → Spec.Onlooker G Spec.Attempt) (V : Set F) (T : ℕ)
    (hA : ∀ σ k ω, (A (sp σ) k ω).Within T) (m₁ : Scalar) :
    ∃ ε : ℚ, 0 ≤ ε ∧
      wins O sp A V ≤ Reduction.wins O sp (deputies m₁ A T) V + ε + 3 * (T + 3) ^ 2 / ell ∧
      (1 - 1 / ell) * (ε ^ 2 / (T + 2) - ε / 2 ^ 252) ≤ Echo.finds sp A T := by
  obtain ⟨ε, h0, -, h1, h2⟩ := Echo.echo_le (V := V) O hg hh hA
  refine ⟨ε, h0, ?_, h2⟩
  have h3 := watcher_le (V := V) O hg hh hA
  have h4 := novelty_le (V := V) O hh m₁ hA
  have h5 : ((T : ℚ) + 2) ^ 2 / ell ≤ (T + 3) ^ 2 / ell := by
    gcongr
    norm_num
  have h6 : 3 * ((T : ℚ) + 3) ^ 2 / ell = (T + 3) ^ 2 / ell + (T + 3) ^ 2 / ell + (T + 3) ^ 2 / ell := by ring
  rw [h6]
  linarith

theorem deputy_ok (m₁ : Scalar) (A : Spec.Onlooker G Out) (sp : SystemParameters G) (X : G) (c : ℕ → Spec.ShowCoins)
    (V : Set F) (T : ℕ) (hA : A.Within T) (hV : A.Avoids V) (hm : m₁.val ∉ V) :
    (Spec.deputy m₁ A sp X c).Within (T + 1) ∧ (Spec.deputy m₁ A sp X c).Avoids V :=
  ⟨⟨T, rfl, fun _ => Deputy.deputy_within A _ _ T hA⟩, hm, fun _ => Deputy.deputy_avoids A _ _ hV⟩

/-- The bound of C94, for adversaries that may depend on the secret key. -/
theorem bound {S Ω : Type} [Fintype S] [Nonempty S] [Fintype Ω] [Nonempty Ω] (O : Oracle)
    (sp : S → SystemParameters G) (hg : ∀ σ, (sp σ).g ≠ 0) (hh : ∀ σ, (sp σ).h ≠ 0)
    (A : SystemParameters G → F × F → Ω → Spec.Onlooker G Spec.Attempt) (V : Set F) (T : ℕ)
    (hA : ∀ σ k ω, (A (sp σ) k ω).Within T) (hV : ∀ σ k ω, (A (sp σ) k ω).Avoids V) (m₁ : Scalar) (hm : m₁.val ∉ V)
    (t u : ℚ) (ht : 0 ≤ t) (hu : 0 ≤ u)
    (hf : Reduction.forges sp (deputies m₁ A T) V (T + 1) ≤ t ^ 3 / (128 * (T + 3) ^ 4))
    (hl : Echo.finds sp A T ≤ u ^ 2 / (4 * (T + 2))) :
    wins O sp A V ≤ t + u + 4 * (T + 3) ^ 2 / ell + 10 * (T + 3) / 2 ^ 252 := by
  obtain ⟨ε, h0, h1, h2⟩ := reduction O sp hg hh A V T hA m₁
  have h3 := Reduction.bound O sp hh (deputies m₁ A T) V (T + 1)
    (fun σ X ω => (deputy_ok m₁ _ _ _ _ V T (hA σ X ω.1) (hV σ X ω.1) hm).1)
    (fun σ X ω => (deputy_ok m₁ _ _ _ _ V T (hA σ X ω.1) (hV σ X ω.1) hm).2) t ht
    (by push_cast; rw [show (T : ℚ) + 1 + 2 = T + 3 by ring]; exact hf)
  push_cast at h3
  rw [show (T : ℚ) + 1 + 2 = T + 3 by ring] at h3
  have hT : (0 : ℚ) < T + 2 := by positivity
  have h4 : ε ≤ u + 2 * (T + 2) / 2 ^ 252 := by
    by_contra hlt
    rw [not_le] at hlt
    generalize hδ : (2 : ℚ) ^ 252 = D at *
    have hD : 0 < D := by rw [← hδ]; positivity
    have e0 : 0 < 2 * ((T : ℚ) + 2) / D := by positivity
    have e1 : 2 * ((T : ℚ) + 2) / D ≤ ε := by linarith
    have e2 : u < ε := by linarith
    have hpos : 0 < ε := by linarith
    have e3 : ε ^ 2 / (2 * (T + 2)) ≤ ε ^ 2 / (T + 2) - ε / D := by
      have : ε / D ≤ ε ^ 2 / (2 * (T + 2)) := by
        rw [div_le_div_iff₀ hD (by positivity), sq, mul_assoc]
        rw [div_le_iff₀ hD] at e1
        exact mul_le_mul_of_nonneg_left e1 h0
      have e : ε ^ 2 / (T + 2) = ε ^ 2 / (2 * (T + 2)) + ε ^ 2 / (2 * (T + 2)) := by
        field_simp
        ring
      linarith
    have e4 : (1 : ℚ) / 2 ≤ 1 - 1 / ell := by
      have : (1 : ℚ) / ell ≤ 1 / 2 := by
        refine one_div_le_one_div_of_le (by norm_num) ?_
        exact_mod_cast (by decide : 2 ≤ ell)
      linarith
    have e5 : ε ^ 2 / (4 * (T + 2)) ≤ u ^ 2 / (4 * (T + 2)) := by
      refine le_trans ?_ (h2.trans hl)
      have : ε ^ 2 / (4 * (T + 2)) = 1 / 2 * (ε ^ 2 / (2 * (T + 2))) := by
        field_simp
        ring
      rw [this]
      exact mul_le_mul e4 e3 (by positivity) (le_trans (by norm_num) e4)
    rw [div_le_div_iff_of_pos_right (by positivity)] at e5
    exact absurd e5 (not_le.2 (pow_lt_pow_left₀ e2 hu (by norm_num)))
  have hD : (0 : ℚ) < 2 ^ 252 := by positivity
  generalize (2 : ℚ) ^ 252 = D at *
  have e6 : 4 * ((T : ℚ) + 3) ^ 2 / ell = 3 * (T + 3) ^ 2 / ell + (T + 3) ^ 2 / ell := by ring
  have e7 : 10 * ((T : ℚ) + 3) / D = 8 * (T + 3) / D + 2 * (T + 2) / D + 2 / D := by ring
  have e8 : 0 < 2 / D := by positivity
  rw [e6, e7]
  linarith

end Onlooker

/-! ## C94 -/

/-- **C94**: for every way to choose parameters (with `g` and `h` not the identity), every algorithm that, with at most
`T` hash queries in all, asks the hash, gets numbers outside `V` issued, and watches honest users with any numbers
present: its probability of being accepted for a roster entry for a number in `V`, without repeating a presentation
that it saw, is at most `3(T+3)²/ℓ`, plus that of an algorithm that does not watch (so that C93 applies), plus some `ε`
such that `Spec.finder` finds the logarithm of `h` to the base `g` with probability at least
`(1 - 1/ℓ)·(ε²/(T+2) - ε·2⁻²⁵²)`. -/
theorem C94_reduction {S Ω : Type} [Fintype S] [Nonempty S] [Fintype Ω] [Nonempty Ω] (O : Oracle)
    (sp : S → SystemParameters G) (hg : ∀ σ, (sp σ).g ≠ 0) (hh : ∀ σ, (sp σ).h ≠ 0)
    (A : SystemParameters G → G → Ω → Spec.Onlooker G Spec.Attempt) (V : Set F) (T : ℕ)
    (hA : ∀ σ X ω, (A (sp σ) X ω).Within T) (m₁ : Scalar) :
    ∃ ε : ℚ, 0 ≤ ε ∧
      Spec.onlookerWins O sp A V ≤ Spec.impostorWins O sp (Spec.deputies m₁ A T) V + ε + 3 * (T + 3) ^ 2 / ell ∧
      (1 - 1 / ell) * (ε ^ 2 / (T + 2) - ε / 2 ^ 252) ≤ Spec.finderWins sp A T :=
  Onlooker.reduction O sp hg hh (fun sp k ω => A sp (k.2 • sp.h) ω) V T (fun σ _ ω => hA σ _ ω) m₁

/-- **C94**, the algorithm that does not watch makes at most one step more, and gets nothing in `V` issued. -/
theorem C94_deputy (m₁ : Scalar) (A : Spec.Onlooker G Out) (sp : SystemParameters G) (X : G) (c : ℕ → Spec.ShowCoins)
    (V : Set F) (T : ℕ) (hA : A.Within T) (hV : A.Avoids V) (hm : m₁.val ∉ V) :
    (Spec.deputy m₁ A sp X c).Within (T + 1) ∧ (Spec.deputy m₁ A sp X c).Avoids V :=
  ⟨⟨T, rfl, fun _ => Deputy.deputy_within A _ _ T hA⟩, hm, fun _ => Deputy.deputy_avoids A _ _ hV⟩

/-- **C94**, as a bound: if `Spec.forger` of C93, with the algorithm that does not watch, forges a MAC on a number in `V`
or finds the logarithm with probability at most `t³/(128(T+3)⁴)`, and `Spec.finder` finds the logarithm with
probability at most `u²/(4(T+2))`, then the adversary succeeds with probability at most
`t + u + 4(T+3)²/ℓ + 10(T+3)·2⁻²⁵²`. -/
theorem C94_bound {S Ω : Type} [Fintype S] [Nonempty S] [Fintype Ω] [Nonempty Ω] (O : Oracle)
    (sp : S → SystemParameters G) (hg : ∀ σ, (sp σ).g ≠ 0) (hh : ∀ σ, (sp σ).h ≠ 0)
    (A : SystemParameters G → G → Ω → Spec.Onlooker G Spec.Attempt) (V : Set F) (T : ℕ)
    (hA : ∀ σ X ω, (A (sp σ) X ω).Within T) (hV : ∀ σ X ω, (A (sp σ) X ω).Avoids V) (m₁ : Scalar) (hm : m₁.val ∉ V)
    (t u : ℚ) (ht : 0 ≤ t) (hu : 0 ≤ u)
    (hf : Spec.forgerWins sp (Spec.deputies m₁ A T) V (T + 1) ≤ t ^ 3 / (128 * (T + 3) ^ 4))
    (hl : Spec.finderWins sp A T ≤ u ^ 2 / (4 * (T + 2))) :
    Spec.onlookerWins O sp A V ≤ t + u + 4 * (T + 3) ^ 2 / ell + 10 * (T + 3) / 2 ^ 252 :=
  Onlooker.bound O sp hg hh (fun sp k ω => A sp (k.2 • sp.h) ω) V T (fun σ _ ω => hA σ _ ω)
    (fun σ _ ω => hV σ _ ω) m₁ hm t u ht hu hf hl

/-! ## What it covers -/

namespace Onlooker

theorem run_seen_length {sp : SystemParameters G} {x0 x1 : F} {s : ℕ → Spec.RunCell} (A : Spec.Onlooker G Out) :
    ∀ (l : Spec.HashLog) (seen : List (ℕ × SignalCredentialPresentation G)) (n : ℕ), A.Within n →
      2 * (A.run sp x0 x1 s l seen).2.2.length ≤ 2 * seen.length + n := by
  induction A with
  | out o => intro l seen n _; exact Nat.le_add_right _ _
  | ask t next ih =>
    rintro l seen _ ⟨n, rfl, hw⟩
    exact (ih _ _ _ n (hw _)).trans (by omega)
  | issue m next ih =>
    rintro l seen _ ⟨n, rfl, hw⟩
    exact (ih _ _ _ n (hw _)).trans (by omega)
  | watch w next ih =>
    rintro l seen _ ⟨n, rfl, hw⟩
    exact (ih _ _ _ n (hw _)).trans (by rw [List.length_cons]; omega)

end Onlooker

/-- **C94**: `Spec.finder` runs the adversary twice and returns few candidates, which can be checked. -/
theorem C94_cost (sp : SystemParameters G) (x0 x1 : F) (A : Spec.Onlooker G Spec.Attempt) (T : ℕ) (hA : A.Within T)
    (s s' : ℕ → Spec.RunCell) : 2 * (Spec.finder sp x0 x1 A s s').length ≤ 5 * (T + 2) := by
  have h := Onlooker.run_seen_length (sp := sp) (x0 := x0) (x1 := x1) (s := s)
    (A.checked (Spec.issuerOf sp x0 x1)) [] [] _ (Deputy.checked_within A T hA)
  simp only [List.length_nil, Nat.mul_zero, Nat.zero_add] at h
  have hc : ∀ p p' (seen : List (ℕ × SignalCredentialPresentation G)),
      (Spec.candidates s p p' seen).length = 5 * seen.length := by
    intro p p' seen
    induction seen with
    | nil => rfl
    | cons e seen ih =>
      unfold Spec.candidates at ih ⊢
      rw [List.flatMap_cons, List.length_append, ih, List.length_cons]
      simp only [List.length_cons, List.length_nil]
      ring
  unfold Spec.finder
  dsimp only
  split
  · rw [hc]
    omega
  · simp

/-- An adversary that does not watch, as one that does. -/
def Spec.Impostor.blindfolded : Spec.Impostor G Out → Spec.Onlooker G Out
  | .out o => .out o
  | .ask t next => .ask t fun a => (next a).blindfolded
  | .issue m next => .issue m fun c => (next c).blindfolded

/-- **C94** is about all adversaries of C93: the game is that of C93 for those that do not watch. -/
theorem C94_includes {S Ω : Type} [Fintype S] [Fintype Ω] (O : Oracle) (sp : S → SystemParameters G)
    (A : SystemParameters G → G → Ω → Spec.Impostor G Spec.Attempt) (V : Set F) :
    Spec.onlookerWins O sp (fun sp X ω => (A sp X ω).blindfolded) V = Spec.impostorWins O sp A V := by
  unfold Spec.onlookerWins Spec.impostorWins
  refine Sim.mean_congr fun x => ?_
  dsimp only
  set i := Spec.issuerOf (sp x.1) x.2.2.1 x.2.2.2
  generalize A (sp x.1) (x.2.2.2 • (sp x.1).h) x.2.1 = B
  generalize ([] : Spec.HashLog) = l
  have hv : ∀ (o : Spec.Attempt) (l : Spec.HashLog), o.fresh O i V l [] = o.value O i V l := by
    intro o l
    have : ¬ o.Copies ([] : List (SignalCredentialPresentation G)) := by
      rintro ⟨p, hp, -⟩
      cases hp
    unfold Spec.Attempt.fresh Spec.Attempt.value
    by_cases h : o.Good (l.oracle O) i V <;> simp [h, this]
  induction B generalizing l with
  | out o => exact Sim.mean_congr fun a => Sim.mean_congr fun a' => hv _ _
  | ask t next ih => exact Sim.mean_congr fun a => ih _ _
  | issue m next ih =>
    change Spec.honestIssue _ _ _ _ _ _ _ = Spec.honestIssue _ _ _ _ _ _ _
    congr 1
    funext l' c
    exact ih c l'

/-- An adversary that gets 7 issued and then watches somebody with the number 8 makes three queries, and avoids 8. -/
example : (Spec.Onlooker.issue (G := F) ⟨7, by decide +kernel⟩ fun _ => .watch ⟨⟨8, by decide +kernel⟩, ⟨3, by decide +kernel⟩,
      1, one_ne_zero⟩ fun _ => .out (⟨8, 0, []⟩ : Spec.Attempt)).Within 3 ∧
    (Spec.Onlooker.issue (G := F) ⟨7, by decide +kernel⟩ fun _ => .watch ⟨⟨8, by decide +kernel⟩, ⟨3, by decide +kernel⟩,
      1, one_ne_zero⟩ fun _ => .out (⟨8, 0, []⟩ : Spec.Attempt)).Avoids {8} :=
  ⟨⟨2, rfl, fun _ => ⟨0, rfl, fun _ => trivial⟩⟩, by rw [Set.mem_singleton_iff]; decide +kernel, fun _ _ => trivial⟩

set_option synthInstance.maxSize 1000 in
/-- An adversary that watches and then claims nothing. With `t = u = 0` it satisfies the hypotheses of `C94_bound`. -/
example : let w : Spec.Member := ⟨⟨8, by decide +kernel⟩, ⟨3, by decide +kernel⟩, 1, one_ne_zero⟩
    let A : SystemParameters F → F → Unit → Spec.Onlooker F Spec.Attempt := fun _ _ _ => .watch w fun _ => .out ⟨8, 0, []⟩
    (∀ X ω, (A ⟨1, 4⟩ X ω).Within 2 ∧ (A ⟨1, 4⟩ X ω).Avoids {8}) ∧
    Spec.forgerWins (fun _ : Unit => (⟨1, 4⟩ : SystemParameters F)) (Spec.deputies ⟨7, by decide +kernel⟩ A 2) {8} 3 ≤
      0 ^ 3 / (128 * ((2 : ℕ) + 3) ^ 4) ∧
    Spec.finderWins (fun _ : Unit => (⟨1, 4⟩ : SystemParameters F)) A 2 ≤ 0 ^ 2 / (4 * ((2 : ℕ) + 2)) := by
  intro w A
  have hp : Spec.Attempt.presentation F ⟨8, 0, []⟩ = none := by
    unfold Spec.Attempt.presentation
    rfl
  refine ⟨fun X ω => ⟨⟨0, rfl, fun _ => trivial⟩, fun _ => trivial⟩, ?_, ?_⟩
  · have drive : ∀ (X : F) (c : ℕ → Spec.ShowCoins) (x0 x1 : F) (cells : ℕ → Spec.Cell) (old : ℕ → Option (Tag F))
        (k : Spec.Attempt → Spec.HashLog → (ℕ → Option (Tag F)) → Spec.Forger F),
        (∀ l got, (k ⟨8, 0, []⟩ l got).wins ⟨1, 4⟩ x0 x1 {8} = 0) → ∀ l got,
        ((Spec.deputy ⟨7, by decide +kernel⟩ (A ⟨1, 4⟩ X ()) ⟨1, 4⟩ X c).drive ⟨1, 4⟩ X cells old k l got).wins
          ⟨1, 4⟩ x0 x1 {8} = 0 := by
      intro X c x0 x1 cells old k hk l got
      unfold Spec.deputy
      rw [Spec.Impostor.drive]
      dsimp only
      split
      · exact hk _ _
      · rw [Spec.Forger.wins]
        split
        · rfl
        · exact (Sim.mean_congr fun b => hk _ _).trans (Sim.mean_const (α := F) 0)
    have e : Spec.forgerWins (fun _ : Unit => (⟨1, 4⟩ : SystemParameters F))
        (Spec.deputies ⟨7, by decide +kernel⟩ A 2) {8} 3 = 0 := by
      unfold Spec.forgerWins
      refine (Sim.mean_congr fun x => ?_).trans (Sim.mean_const 0)
      refine (Sim.mean_congr fun j => ?_).trans (Sim.mean_const 0)
      refine (Sim.mean_congr fun c => ?_).trans (Sim.mean_const 0)
      refine drive _ _ _ _ _ _ _ (fun _ _ => drive _ _ _ _ _ _ _ (fun _ _ => drive _ _ _ _ _ _ _ (fun _ _ => ?_) _ _) _ _) _ _
      rw [hp, Spec.Forger.wins, if_neg]
      decide +kernel
    rw [e]
    norm_num
  · have e : Spec.finderWins (fun _ : Unit => (⟨1, 4⟩ : SystemParameters F)) A 2 = 0 := by
      unfold Spec.finderWins
      refine (Sim.mean_congr fun x => ?_).trans (Sim.mean_const 0)
      refine (Sim.mean_congr fun c => ?_).trans (Sim.mean_const 0)
      rw [if_neg]
      rintro ⟨y, hy, -⟩
      unfold Spec.finder at hy
      dsimp only at hy
      have run : ∀ s : ℕ → Spec.RunCell, (Spec.Onlooker.run ⟨1, 4⟩ x.2.2.1 x.2.2.2 s (Spec.Onlooker.checked
          (Spec.issuerOf ⟨1, 4⟩ x.2.2.1 x.2.2.2) (A ⟨1, 4⟩ (x.2.2.2 • 4) x.2.1)) [] []).1.presentation F = none :=
        fun s => hp
      rw [run] at hy
      cases hy
    rw [e]
    norm_num

/-- Adversaries can succeed: in the toy group, with probability more than one half. -/
example (O : Oracle) : ∃ (A : SystemParameters F → F → Unit → Spec.Onlooker F Spec.Attempt) (V : Set F),
    1 / 2 < Spec.onlookerWins O (fun _ : Unit => ⟨1, 4⟩) A V := by
  obtain ⟨h1, -, -⟩ := C93_converse (Ω := Unit) O (fun _ : Unit => (⟨1, 4⟩ : SystemParameters F))
    (fun sp _ _ => .log (sp.h / sp.g)) {8} ⟨7, by decide +kernel⟩ 8
    (by rw [Set.mem_singleton_iff]; decide +kernel) rfl 0 fun _ _ _ => trivial
  have h2 := C94_includes (Ω := Unit) O (fun _ : Unit => (⟨1, 4⟩ : SystemParameters F))
    (fun sp X _ => (Spec.Forger.log (sp.h / sp.g)).impostor sp X {8} ⟨7, by decide +kernel⟩ 8) {8}
  refine ⟨_, {8}, lt_of_lt_of_eq (lt_of_lt_of_le ?_ h1) h2.symm⟩
  have e : Spec.forgeryWins (fun _ : Unit => (⟨1, 4⟩ : SystemParameters F))
      (fun sp _ (_ : Unit) => .log (sp.h / sp.g)) {8} = 1 := by
    unfold Spec.forgeryWins
    refine Eq.trans (Sim.mean_congr fun x => ?_) (Sim.mean_const (α := Unit × Unit × F × F) 1)
    rw [Spec.Forger.wins, if_pos]
    simp
  rw [e]
  have : (2 : ℚ) < ell := by exact_mod_cast (by decide +kernel : 2 < ell)
  have hp : (0 : ℚ) < ell := by linarith
  have : 1 / (ell : ℚ) < 1 / 2 := by rw [div_lt_div_iff₀ hp (by norm_num)]; linarith
  linarith

end Verif
