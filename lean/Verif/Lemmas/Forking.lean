import Mathlib.Algebra.Order.Chebyshev
import Mathlib.Algebra.BigOperators.Field
import Mathlib.Data.Fintype.BigOperators
import Mathlib.Data.Rat.Cast.Order
import Mathlib.SetTheory.Cardinal.Finite
import Mathlib.Tactic.Ring
import Mathlib.Tactic.FieldSimp
import Mathlib.Tactic.Positivity
import Mathlib.Tactic.Linarith

/-!
# The forking lemma, by counting

A tape of `Q` answers is drawn uniformly; a run on a tape succeeds at a position, or not at all. After a
successful run the answers from that position on are drawn again. Both runs succeed at the same
position, with different answers there, with probability at least `ε²/Q - ε·δ`.
-/

namespace Verif

open Finset

/-- Probability of an event when all outcomes are equally likely. -/
noncomputable def Spec.prob {α : Type} (E : α → Prop) : ℚ := Nat.card {a // E a} / Nat.card α

/-- The tape `h` up to position `j`, then `h'`. -/
def Spec.splice {Q : ℕ} {C : Type} (j : ℕ) (h h' : Fin Q → C) : Fin Q → C :=
  fun i => if i.val < j then h i else h' i

theorem Spec.prob_mono {α : Type} [Finite α] {E E' : α → Prop} (h : ∀ a, E a → E' a) :
    Spec.prob E ≤ Spec.prob E' := by
  have := Nat.card_le_card_of_injective (fun a : {a // E a} => (⟨a.1, h a.1 a.2⟩ : {a // E' a}))
    (fun a b hab => Subtype.ext (congrArg (fun x : {a // E' a} => x.1) hab))
  unfold Spec.prob
  gcongr

theorem Spec.prob_nonneg {α : Type} (E : α → Prop) : 0 ≤ Spec.prob E := by
  unfold Spec.prob; positivity

namespace Fork

section
variable {Q : ℕ} {C : Type}

theorem splice_splice_left (j : ℕ) (h h' h'' : Fin Q → C) :
    Spec.splice j (Spec.splice j h h') h'' = Spec.splice j h h'' := by
  funext i; unfold Spec.splice; split <;> rfl

theorem splice_swap (j : ℕ) (h h' : Fin Q → C) :
    Spec.splice j (Spec.splice j h h') (Spec.splice j h' h) = h := by
  funext i; unfold Spec.splice; split <;> rfl

/-- Exchange everything from position `j` on. -/
def swap (j : ℕ) : ((Fin Q → C) × (Fin Q → C)) ≃ ((Fin Q → C) × (Fin Q → C)) where
  toFun x := (Spec.splice j x.1 x.2, Spec.splice j x.2 x.1)
  invFun x := (Spec.splice j x.1 x.2, Spec.splice j x.2 x.1)
  left_inv x := by simp only [splice_swap]
  right_inv x := by simp only [splice_swap]

variable [Fintype C]

/-- A spliced tape is as uniform as a tape. -/
theorem sum_splice (j : ℕ) (f : (Fin Q → C) → ℚ) :
    ∑ h : Fin Q → C, ∑ h' : Fin Q → C, f (Spec.splice j h h') =
      Fintype.card (Fin Q → C) * ∑ h, f h := by
  have e : ∑ x : (Fin Q → C) × (Fin Q → C), f (Spec.splice j x.1 x.2) =
      ∑ x : (Fin Q → C) × (Fin Q → C), f x.1 :=
    Fintype.sum_equiv (swap j) _ _ fun x => rfl
  rw [Fintype.sum_prod_type, Fintype.sum_prod_type] at e
  rw [e]
  simp only [sum_const, card_univ, nsmul_eq_mul, mul_sum]

/-- Two runs with the same answers up to `j` both lie in `S` at least as often as two unrelated ones. -/
theorem pairs (j : ℕ) (f : (Fin Q → C) → ℚ) :
    (∑ h, f h) ^ 2 ≤ ∑ h : Fin Q → C, ∑ h', f h * f (Spec.splice j h h') := by
  classical
  by_cases hT : Fintype.card (Fin Q → C) = 0
  · have := Fintype.card_eq_zero_iff.1 hT
    simp
  have hT' : (0 : ℚ) < Fintype.card (Fin Q → C) := by exact_mod_cast Nat.pos_of_ne_zero hT
  set T : ℚ := ((Fintype.card (Fin Q → C) : ℕ) : ℚ) with hTdef
  let Y : (Fin Q → C) → ℚ := fun h => ∑ h', f (Spec.splice j h h')
  have hY : ∑ h, Y h = T * ∑ h, f h := sum_splice j f
  have h1 : ∑ h : Fin Q → C, ∑ h', f h * f (Spec.splice j h h') = ∑ h, f h * Y h := by
    simp only [Y, mul_sum]
  have h2 : T * ∑ h, f h * Y h = ∑ h, Y h ^ 2 := by
    rw [hTdef, ← sum_splice j (fun h => f h * Y h)]
    refine sum_congr rfl fun h _ => ?_
    have : ∀ h', Y (Spec.splice j h h') = Y h := fun h' => by simp only [Y, splice_splice_left]
    simp only [this, ← sum_mul]
    rw [sq]
  have h3 : (∑ h, Y h) ^ 2 ≤ T * ∑ h, Y h ^ 2 := by
    have := sq_sum_le_card_mul_sum_sq (s := (univ : Finset (Fin Q → C))) (f := Y)
    simpa [hTdef, card_univ] using this
  rw [h1]
  rw [hY, ← h2, mul_pow] at h3
  have : T ^ 2 * (∑ h, f h) ^ 2 ≤ T ^ 2 * ∑ h, f h * Y h := by
    calc _ ≤ _ := h3
      _ = _ := by ring
  exact le_of_mul_le_mul_left this (by positivity)

/-- Number of tapes with a given property at one position. -/
theorem count_at [DecidableEq C] (j : Fin Q) (p : C → Prop) [DecidablePred p] :
    (Fintype.card C : ℚ) * #{h : Fin Q → C | p (h j)} = #{c | p c} * Fintype.card (Fin Q → C) := by
  have e : #{h : Fin Q → C | p (h j)} = ∏ i : Fin Q, #{c : C | i = j → p c} := by
    rw [← Fintype.card_piFinset]
    congr 1
    ext h
    simp only [mem_filter, mem_univ, true_and, Fintype.mem_piFinset]
    constructor
    · rintro h i rfl; exact h
    · intro h; exact h j rfl
  rw [e, Fintype.card_fun, Fintype.card_fin, ← mul_prod_erase univ _ (mem_univ j)]
  have e2 : ∏ i ∈ univ.erase j, #{c : C | i = j → p c} = ∏ i ∈ univ.erase j, Fintype.card C := by
    refine prod_congr rfl fun i hi => ?_
    simp [ne_of_mem_erase hi]
  rw [e2, prod_const, card_erase_of_mem (mem_univ j), card_univ, Fintype.card_fin]
  have hQ : Q = (Q - 1) + 1 := by have := j.pos; omega
  simp only [true_imp_iff]
  push_cast
  conv_rhs => rw [hQ, pow_succ]
  ring

end

/-- Few tapes repeat the answer at a position. -/
theorem collisions {C D : Type} [Fintype C] [Nonempty C] [DecidableEq D] {Q : ℕ} (r : C → D) {δ : ℚ}
    (hδ : ∀ d, Spec.prob (fun c => r c = d) ≤ δ) (j : Fin Q) (h : Fin Q → C) :
    (∑ h' : Fin Q → C, if r (h j) = r (h' j) then (1 : ℚ) else 0) ≤ δ * Fintype.card (Fin Q → C) := by
  classical
  have hCpos : (0 : ℚ) < Fintype.card C := by exact_mod_cast Fintype.card_pos
  have h1 : (∑ h' : Fin Q → C, if r (h j) = r (h' j) then (1 : ℚ) else 0) =
      #{h' : Fin Q → C | r (h j) = r (h' j)} := by
    rw [card_filter]; push_cast; rfl
  have h2 := count_at j (fun c => r (h j) = r c)
  have h3 := hδ (r (h j))
  unfold Spec.prob at h3
  rw [Nat.card_eq_fintype_card, Nat.card_eq_fintype_card, Fintype.card_subtype,
    div_le_iff₀ hCpos] at h3
  have h4 : #{c : C | r c = r (h j)} = #{c : C | r (h j) = r c} := by
    simp only [eq_comm]
  rw [h4] at h3
  rw [h1]
  have : (Fintype.card C : ℚ) * #{h' : Fin Q → C | r (h j) = r (h' j)} ≤
      Fintype.card C * (δ * Fintype.card (Fin Q → C)) := by
    rw [h2]
    calc _ ≤ (δ * Fintype.card C) * Fintype.card (Fin Q → C) := by gcongr
      _ = _ := by ring
  exact le_of_mul_le_mul_left this hCpos

/-- The forking lemma. -/
theorem forking {Ω C D : Type} [Finite Ω] [Nonempty Ω] [Finite C] [Nonempty C] {Q : ℕ}
    (run : Ω → (Fin Q → C) → Option (Fin Q)) (r : C → D) (δ : ℚ)
    (hδ : ∀ d, Spec.prob (fun c => r c = d) ≤ δ) :
    Spec.prob (fun x : Ω × (Fin Q → C) => (run x.1 x.2).isSome) ^ 2 / Q -
      Spec.prob (fun x : Ω × (Fin Q → C) => (run x.1 x.2).isSome) * δ ≤
    Spec.prob (fun x : Ω × (Fin Q → C) × (Fin Q → C) => ∃ j, run x.1 x.2.1 = some j ∧
      run x.1 (Spec.splice j x.2.1 x.2.2) = some j ∧ r (x.2.1 j) ≠ r (x.2.2 j)) := by
  classical
  have := Fintype.ofFinite Ω
  have := Fintype.ofFinite C
  set T : ℚ := ((Fintype.card (Fin Q → C) : ℕ) : ℚ) with hT
  set N : ℚ := ((Fintype.card Ω : ℕ) : ℚ) with hN
  have hTpos : 0 < T := by rw [hT]; exact_mod_cast Fintype.card_pos
  have hNpos : 0 < N := by rw [hN]; exact_mod_cast Fintype.card_pos
  -- successes at position `j`
  let S : Ω → Fin Q → (Fin Q → C) → ℚ := fun ω j h => if run ω h = some j then 1 else 0
  let s : Ω → Fin Q → ℚ := fun ω j => ∑ h, S ω j h
  have hs : ∀ ω j, 0 ≤ s ω j := fun ω j => sum_nonneg fun h _ => by
    simp only [S]; split <;> norm_num
  have hε : Spec.prob (fun x : Ω × (Fin Q → C) => (run x.1 x.2).isSome) =
      (∑ ω, ∑ j, s ω j) / (N * T) := by
    unfold Spec.prob
    rw [Nat.card_eq_fintype_card, Nat.card_eq_fintype_card, Fintype.card_prod, Fintype.card_subtype]
    push_cast
    congr 1
    rw [card_filter, Fintype.sum_prod_type]
    push_cast
    refine sum_congr rfl fun ω _ => ?_
    simp only [s]
    rw [sum_comm]
    refine sum_congr rfl fun h _ => ?_
    simp only [S]
    cases hr : run ω h with
    | none => simp
    | some j => simp
  have hfork : Spec.prob (fun x : Ω × (Fin Q → C) × (Fin Q → C) => ∃ j, run x.1 x.2.1 = some j ∧
      run x.1 (Spec.splice j x.2.1 x.2.2) = some j ∧ r (x.2.1 j) ≠ r (x.2.2 j)) =
      (∑ ω, ∑ j, ∑ h, ∑ h', if run ω h = some j ∧ run ω (Spec.splice j h h') = some j ∧
        r (h j) ≠ r (h' j) then (1 : ℚ) else 0) / (N * T * T) := by
    unfold Spec.prob
    rw [Nat.card_eq_fintype_card, Nat.card_eq_fintype_card, Fintype.card_prod, Fintype.card_prod,
      Fintype.card_subtype]
    push_cast
    rw [← hT, ← hN, ← mul_assoc]
    congr 1
    rw [card_filter, Fintype.sum_prod_type]
    push_cast
    refine sum_congr rfl fun ω _ => ?_
    rw [Fintype.sum_prod_type, sum_comm (s := (univ : Finset (Fin Q)))]
    refine sum_congr rfl fun h _ => ?_
    rw [sum_comm]
    refine sum_congr rfl fun h' _ => ?_
    cases hr : run ω h with
    | none => simp
    | some j =>
      simp only [Option.some.injEq, exists_eq_left']
      rw [sum_eq_single j]
      · simp
      · intro b _ hb
        rw [if_neg]
        rintro ⟨rfl, -⟩
        exact hb rfl
      · simp
  have hcol : ∀ (j : Fin Q) (h : Fin Q → C),
      (∑ h' : Fin Q → C, if r (h j) = r (h' j) then (1 : ℚ) else 0) ≤ δ * T := fun j h => collisions r hδ j h
  have hj : ∀ ω j, s ω j ^ 2 - s ω j * (δ * T) ≤
      ∑ h, ∑ h', if run ω h = some j ∧ run ω (Spec.splice j h h') = some j ∧
        r (h j) ≠ r (h' j) then (1 : ℚ) else 0 := by
    intro ω j
    have h1 := pairs (j : ℕ) (S ω j)
    have h2 : ∑ h, ∑ h', S ω j h * S ω j (Spec.splice j h h') -
        ∑ h, S ω j h * (∑ h' : Fin Q → C, if r (h j) = r (h' j) then (1 : ℚ) else 0) ≤
        ∑ h, ∑ h', if run ω h = some j ∧ run ω (Spec.splice j h h') = some j ∧
        r (h j) ≠ r (h' j) then (1 : ℚ) else 0 := by
      rw [← sum_sub_distrib]
      refine sum_le_sum fun h _ => ?_
      rw [mul_sum, ← sum_sub_distrib]
      refine sum_le_sum fun h' _ => ?_
      simp only [S]
      by_cases a : run ω h = some j <;> by_cases b : run ω (Spec.splice j h h') = some j <;>
        by_cases c : r (h j) = r (h' j) <;> simp [a, b, c]
    have h3 : ∑ h, S ω j h * (∑ h' : Fin Q → C, if r (h j) = r (h' j) then (1 : ℚ) else 0) ≤
        s ω j * (δ * T) := by
      simp only [s]
      rw [sum_mul]
      refine sum_le_sum fun h _ => ?_
      have : 0 ≤ S ω j h := by simp only [S]; split <;> norm_num
      exact mul_le_mul_of_nonneg_left (hcol j h) this
    have h4 : s ω j ^ 2 = (∑ h, S ω j h) ^ 2 := rfl
    linarith
  have hsum : (∑ ω, ∑ j, s ω j) ^ 2 ≤ N * Q * ∑ ω, ∑ j, s ω j ^ 2 := by
    have h1 := sq_sum_le_card_mul_sum_sq (s := (univ : Finset (Ω × Fin Q))) (f := fun x => s x.1 x.2)
    rw [Fintype.sum_prod_type, Fintype.sum_prod_type, card_univ, Fintype.card_prod,
      Fintype.card_fin] at h1
    push_cast at h1
    exact h1
  have hss : 0 ≤ ∑ ω, ∑ j, s ω j ^ 2 := sum_nonneg fun ω _ => sum_nonneg fun j _ => sq_nonneg _
  rw [hε, hfork]
  have hall : (∑ ω, ∑ j, s ω j ^ 2) - (∑ ω, ∑ j, s ω j) * (δ * T) ≤
      ∑ ω, ∑ j, ∑ h, ∑ h', if run ω h = some j ∧ run ω (Spec.splice j h h') = some j ∧
        r (h j) ≠ r (h' j) then (1 : ℚ) else 0 := by
    rw [sum_mul, ← sum_sub_distrib]
    refine sum_le_sum fun ω _ => ?_
    rw [sum_mul, ← sum_sub_distrib]
    exact sum_le_sum fun j _ => hj ω j
  generalize (∑ ω, ∑ j, ∑ h, ∑ h', if run ω h = some j ∧ run ω (Spec.splice j h h') = some j ∧
        r (h j) ≠ r (h' j) then (1 : ℚ) else 0) = fk at hall ⊢
  generalize (∑ ω, ∑ j, s ω j ^ 2) = ss at hall hsum hss
  generalize (∑ ω, ∑ j, s ω j) = σ at hall hsum ⊢
  rw [le_div_iff₀ (by positivity)]
  refine le_trans ?_ hall
  have e1 : ((σ / (N * T)) ^ 2 / Q - σ / (N * T) * δ) * (N * T * T) = σ ^ 2 / (N * Q) - σ * (δ * T) := by
    field_simp
  rw [e1]
  have : σ ^ 2 / (N * Q) ≤ ss := by
    rcases Nat.eq_zero_or_pos Q with hQ | hQ
    · subst hQ
      simpa using hss
    · have : (0 : ℚ) < Q := by exact_mod_cast hQ
      rw [div_le_iff₀ (by positivity)]
      linarith
  linarith

section
variable {Ω C D : Type} [Fintype Ω] [Fintype C] [Nonempty C] {Q : ℕ}

/-- Number of fresh tapes that make the run on `h` succeed again at its position. -/
noncomputable def again (run : (Fin Q → C) → Option (Fin Q)) (j : Fin Q) (h : Fin Q → C) : ℚ :=
  open Classical in ∑ h' : Fin Q → C, if run (Spec.splice j h h') = some j then 1 else 0

/-- Successes that are rarely repeated are rare. -/
theorem light (run : (Fin Q → C) → Option (Fin Q)) {a : ℚ} (ha : 0 ≤ a) (j : Fin Q) :
    open Classical in (∑ h : Fin Q → C, if run h = some j ∧ again run j h < a * Fintype.card (Fin Q → C)
      then (1 : ℚ) else 0) ≤ a * Fintype.card (Fin Q → C) := by
  classical
  set T : ℚ := ((Fintype.card (Fin Q → C) : ℕ) : ℚ) with hT
  have hTpos : 0 < T := by rw [hT]; exact_mod_cast Fintype.card_pos
  have h1 := sum_splice (j : ℕ) (fun h : Fin Q → C =>
    if run h = some j ∧ again run j h < a * T then (1 : ℚ) else 0)
  rw [← hT] at h1
  have h2 : ∀ h : Fin Q → C, ∑ h' : Fin Q → C, (if run (Spec.splice j h h') = some j ∧
      again run j (Spec.splice j h h') < a * T then (1 : ℚ) else 0) ≤ a * T := by
    intro h
    have e : ∀ h', again run j (Spec.splice j h h') = again run j h := fun h' => by
      simp only [again, splice_splice_left]
    simp only [e]
    by_cases hl : again run j h < a * T
    · simp only [hl, and_true]
      exact hl.le
    · simp only [hl, and_false, if_false, sum_const_zero]
      positivity
  have h3 : ∑ h : Fin Q → C, ∑ h' : Fin Q → C, (if run (Spec.splice j h h') = some j ∧
      again run j (Spec.splice j h h') < a * T then (1 : ℚ) else 0) ≤ T * (a * T) := by
    calc _ ≤ ∑ h : Fin Q → C, a * T := sum_le_sum fun h _ => h2 h
      _ = T * (a * T) := by rw [sum_const, card_univ, nsmul_eq_mul]
  rw [h1] at h3
  exact le_of_mul_le_mul_left h3 hTpos

/-- Fresh tapes that repeat the success with another answer. -/
theorem again_differs [DecidableEq D] (run : (Fin Q → C) → Option (Fin Q)) (r : C → D) {δ : ℚ}
    (hδ : ∀ d, Spec.prob (fun c => r c = d) ≤ δ) (j : Fin Q) (h : Fin Q → C) :
    open Classical in again run j h - δ * Fintype.card (Fin Q → C) ≤
      ∑ h' : Fin Q → C, if run (Spec.splice j h h') = some j ∧ r (h j) ≠ r (h' j) then (1 : ℚ) else 0 := by
  classical
  have h1 := collisions r hδ j h
  have h2 : again run j h - (∑ h' : Fin Q → C, if r (h j) = r (h' j) then (1 : ℚ) else 0) ≤
      ∑ h' : Fin Q → C, if run (Spec.splice j h h') = some j ∧ r (h j) ≠ r (h' j) then (1 : ℚ) else 0 := by
    rw [again, ← sum_sub_distrib]
    refine sum_le_sum fun h' _ => ?_
    by_cases b : run (Spec.splice j h h') = some j <;>
        by_cases c : r (h j) = r (h' j) <;> simp [b, c]
  linarith

end

/-- Two forks of the same run, at the positions given by `run₁` and `run₂`. -/
theorem double {Ω C D : Type} [Finite Ω] [Nonempty Ω] [Finite C] [Nonempty C] {Q : ℕ} (hQ : 0 < Q)
    (run₁ run₂ : Ω → (Fin Q → C) → Option (Fin Q))
    (hrun : ∀ ω h, (run₁ ω h).isSome ↔ (run₂ ω h).isSome) (r : C → D) (δ : ℚ)
    (hδ : ∀ d, Spec.prob (fun c => r c = d) ≤ δ) (ε : ℚ)
    (hε : ε = Spec.prob (fun x : Ω × (Fin Q → C) => (run₁ x.1 x.2).isSome))
    (hbig : δ ≤ ε / (4 * Q)) :
    ε / 2 * (ε / (4 * Q) - δ) ^ 2 ≤
    Spec.prob (fun x : Ω × (Fin Q → C) × (Fin Q → C) × (Fin Q → C) => ∃ j k,
      run₁ x.1 x.2.1 = some j ∧ run₂ x.1 x.2.1 = some k ∧
      (run₁ x.1 (Spec.splice j x.2.1 x.2.2.1) = some j ∧ r (x.2.1 j) ≠ r (x.2.2.1 j)) ∧
      (run₂ x.1 (Spec.splice k x.2.1 x.2.2.2) = some k ∧ r (x.2.1 k) ≠ r (x.2.2.2 k))) := by
  classical
  have := Fintype.ofFinite Ω
  have := Fintype.ofFinite C
  set T : ℚ := ((Fintype.card (Fin Q → C) : ℕ) : ℚ) with hT
  set N : ℚ := ((Fintype.card Ω : ℕ) : ℚ) with hN
  have hTpos : 0 < T := by rw [hT]; exact_mod_cast Fintype.card_pos
  have hNpos : 0 < N := by rw [hN]; exact_mod_cast Fintype.card_pos
  have hQpos : (0 : ℚ) < Q := by exact_mod_cast hQ
  set α : ℚ := ε / (4 * Q) with hα
  have hε0 : 0 ≤ ε := hε ▸ Spec.prob_nonneg _
  have hα0 : 0 ≤ α := by positivity
  -- heavy runs
  let L₁ : Ω → (Fin Q → C) → Prop := fun ω h => ∃ j, run₁ ω h = some j ∧ again (run₁ ω) j h < α * T
  let L₂ : Ω → (Fin Q → C) → Prop := fun ω h => ∃ j, run₂ ω h = some j ∧ again (run₂ ω) j h < α * T
  have hlight : ∀ run : Ω → (Fin Q → C) → Option (Fin Q),
      (∑ ω, ∑ h, if ∃ j, run ω h = some j ∧ again (run ω) j h < α * T then (1 : ℚ) else 0) ≤
        N * (Q * (α * T)) := by
    intro run
    calc _ ≤ ∑ ω : Ω, (Q : ℚ) * (α * T) := sum_le_sum fun ω _ => ?_
      _ = _ := by rw [sum_const, card_univ, nsmul_eq_mul]
    calc _ = ∑ j : Fin Q, ∑ h, if run ω h = some j ∧ again (run ω) j h < α * T then (1 : ℚ) else 0 := ?_
      _ ≤ ∑ j : Fin Q, α * T := sum_le_sum fun j _ => light (run ω) hα0 j
      _ = _ := by rw [sum_const, card_univ, nsmul_eq_mul, Fintype.card_fin]
    rw [sum_comm]
    refine sum_congr rfl fun h _ => ?_
    cases hr : run ω h with
    | none => simp
    | some j =>
      simp only [Option.some.injEq, exists_eq_left']
      rw [sum_eq_single j]
      · simp
      · intro b _ hb
        rw [if_neg]
        rintro ⟨rfl, -⟩
        exact hb rfl
      · simp
  have hsucc : (∑ ω, ∑ h, if (run₁ ω h).isSome then (1 : ℚ) else 0) = ε * (N * T) := by
    rw [hε]
    unfold Spec.prob
    rw [Nat.card_eq_fintype_card, Nat.card_eq_fintype_card, Fintype.card_prod, Fintype.card_subtype]
    push_cast
    rw [← hT, ← hN, div_mul_cancel₀ _ (by positivity), card_filter, Fintype.sum_prod_type]
    push_cast
    rfl
  have hheavy : ε / 2 * (N * T) ≤
      ∑ ω, ∑ h, if (run₁ ω h).isSome ∧ ¬ L₁ ω h ∧ ¬ L₂ ω h then (1 : ℚ) else 0 := by
    have h1 := hlight run₁
    have h2 := hlight run₂
    have h3 : (∑ ω, ∑ h, if (run₁ ω h).isSome then (1 : ℚ) else 0) -
        (∑ ω, ∑ h, if L₁ ω h then (1 : ℚ) else 0) - (∑ ω, ∑ h, if L₂ ω h then (1 : ℚ) else 0) ≤
        ∑ ω, ∑ h, if (run₁ ω h).isSome ∧ ¬ L₁ ω h ∧ ¬ L₂ ω h then (1 : ℚ) else 0 := by
      rw [← sum_sub_distrib, ← sum_sub_distrib]
      refine sum_le_sum fun ω _ => ?_
      rw [← sum_sub_distrib, ← sum_sub_distrib]
      refine sum_le_sum fun h _ => ?_
      by_cases a : (run₁ ω h).isSome = true <;> by_cases b : L₁ ω h <;> by_cases c : L₂ ω h <;>
        simp [a, b, c]
    have e : N * (Q * (α * T)) = ε / 4 * (N * T) := by
      rw [hα]; field_simp
    rw [e] at h1 h2
    rw [hsucc] at h3
    have h1' : (∑ ω, ∑ h, if L₁ ω h then (1 : ℚ) else 0) ≤ ε / 4 * (N * T) := h1
    have h2' : (∑ ω, ∑ h, if L₂ ω h then (1 : ℚ) else 0) ≤ ε / 4 * (N * T) := h2
    linarith
  have hcount : Spec.prob (fun x : Ω × (Fin Q → C) × (Fin Q → C) × (Fin Q → C) => ∃ j k,
      run₁ x.1 x.2.1 = some j ∧ run₂ x.1 x.2.1 = some k ∧
      (run₁ x.1 (Spec.splice j x.2.1 x.2.2.1) = some j ∧ r (x.2.1 j) ≠ r (x.2.2.1 j)) ∧
      (run₂ x.1 (Spec.splice k x.2.1 x.2.2.2) = some k ∧ r (x.2.1 k) ≠ r (x.2.2.2 k))) =
      (∑ ω, ∑ h, ∑ h', ∑ h'', if ∃ j k, run₁ ω h = some j ∧ run₂ ω h = some k ∧
        (run₁ ω (Spec.splice j h h') = some j ∧ r (h j) ≠ r (h' j)) ∧
        (run₂ ω (Spec.splice k h h'') = some k ∧ r (h k) ≠ r (h'' k)) then (1 : ℚ) else 0)
        / (N * T * T * T) := by
    unfold Spec.prob
    rw [Nat.card_eq_fintype_card, Nat.card_eq_fintype_card, Fintype.card_prod, Fintype.card_prod,
      Fintype.card_prod, Fintype.card_subtype]
    push_cast
    rw [← hT, ← hN, ← mul_assoc, ← mul_assoc]
    congr 1
    rw [card_filter, Fintype.sum_prod_type]
    push_cast
    refine sum_congr rfl fun ω _ => ?_
    rw [Fintype.sum_prod_type]
    refine sum_congr rfl fun h _ => ?_
    rw [Fintype.sum_prod_type]
  rw [hcount, le_div_iff₀ (by positivity)]
  have hβ : 0 ≤ α - δ := by linarith
  calc ε / 2 * (α - δ) ^ 2 * (N * T * T * T)
      = ε / 2 * (N * T) * ((α - δ) * T * ((α - δ) * T)) := by ring
    _ ≤ (∑ ω, ∑ h, if (run₁ ω h).isSome ∧ ¬ L₁ ω h ∧ ¬ L₂ ω h then (1 : ℚ) else 0) *
        ((α - δ) * T * ((α - δ) * T)) := by gcongr
    _ ≤ _ := by
      rw [sum_mul]
      refine sum_le_sum fun ω _ => ?_
      rw [sum_mul]
      refine sum_le_sum fun h _ => ?_
      split
      swap
      · rw [zero_mul]
        exact sum_nonneg fun _ _ => sum_nonneg fun _ _ => by split <;> norm_num
      rename_i hh
      obtain ⟨h1, h2, h3⟩ := hh
      have h1' := (hrun ω h).1 h1
      obtain ⟨j, hj⟩ := Option.isSome_iff_exists.1 h1
      obtain ⟨k, hk⟩ := Option.isSome_iff_exists.1 h1'
      have hj' : α * T ≤ again (run₁ ω) j h := not_lt.1 fun hc => h2 ⟨j, hj, hc⟩
      have hk' : α * T ≤ again (run₂ ω) k h := not_lt.1 fun hc => h3 ⟨k, hk, hc⟩
      have d1 := again_differs (run₁ ω) r hδ j h
      have d2 := again_differs (run₂ ω) r hδ k h
      rw [← hT] at d1 d2
      have e1 : (α - δ) * T ≤ ∑ h' : Fin Q → C, if run₁ ω (Spec.splice j h h') = some j ∧
          r (h j) ≠ r (h' j) then (1 : ℚ) else 0 := by linarith
      have e2 : (α - δ) * T ≤ ∑ h' : Fin Q → C, if run₂ ω (Spec.splice k h h') = some k ∧
          r (h k) ≠ r (h' k) then (1 : ℚ) else 0 := by linarith
      rw [one_mul]
      refine (mul_le_mul e1 e2 (by positivity) (le_trans (by positivity) e1)).trans ?_
      rw [sum_mul_sum]
      refine sum_le_sum fun h' _ => sum_le_sum fun h'' _ => ?_
      simp only [hj, hk, Option.some.injEq, exists_and_left, exists_eq_left', mul_ite, mul_one, mul_zero]
      by_cases a : run₁ ω (Spec.splice j h h') = some j ∧ r (h j) ≠ r (h' j) <;>
        by_cases b : run₂ ω (Spec.splice k h h'') = some k ∧ r (h k) ≠ r (h'' k) <;> simp [a, b]

end Fork

end Verif
