import Verif.Lemmas.Simulation
import Verif.Props.Params
import Mathlib.Logic.Equiv.Fin.Basic

/-!
# Scalars from 64 bytes are almost uniform

A map is near if averages over its results are almost averages over everything.
-/

set_option exponentiation.threshold 600

namespace Verif

namespace Sim

open Finset

variable {A B C D : Type} [Fintype A] [Fintype B] [Fintype C] [Fintype D]

/-- Uniform arguments give results that are uniform up to `δ`. -/
def Near (δ : ℚ) (φ : A → B) : Prop :=
  ∀ f : B → ℚ, (∀ b, 0 ≤ f b ∧ f b ≤ 1) → |Spec.mean (fun a => f (φ a)) - Spec.mean f| ≤ δ

theorem Near.equiv (e : A ≃ B) : Near 0 e := fun f _ => by
  rw [mean_equiv, sub_self, abs_zero]

theorem Near.comp {δ δ' : ℚ} {φ : A → B} {ψ : B → C} (h : Near δ φ) (h' : Near δ' ψ) :
    Near (δ + δ') (fun a => ψ (φ a)) := fun f hf =>
  (abs_sub_le _ (Spec.mean fun b => f (ψ b)) _).trans
    (add_le_add (h (fun b => f (ψ b)) fun _ => hf _) (h' f hf))

/-- In a larger computation. -/
theorem Near.mean [Nonempty B] {δ ε : ℚ} {φ : A → B} (h : Near δ φ) {f g : B → ℚ}
    (hf : ∀ b, 0 ≤ f b ∧ f b ≤ 1) (hfg : ∀ b, |f b - g b| ≤ ε) :
    |Spec.mean (fun a => f (φ a)) - Spec.mean g| ≤ ε + δ := by
  have h1 := h f hf
  have h2 := abs_sub_mean_le hfg
  have := abs_sub_le (Spec.mean fun a => f (φ a)) (Spec.mean f) (Spec.mean g)
  linarith

theorem mean_pair (f : A × B → ℚ) :
    Spec.mean f = Spec.mean fun a => Spec.mean fun b => f (a, b) := by
  unfold Spec.mean
  rw [Fintype.sum_prod_type, Fintype.card_prod, ← Finset.sum_div, div_div, Nat.cast_mul, mul_comm]

theorem Near.prod [Nonempty B] [Nonempty C] {δ δ' : ℚ} {φ : A → B} {ψ : C → D} (h : Near δ φ)
    (h' : Near δ' ψ) : Near (δ + δ') (fun x : A × C => (φ x.1, ψ x.2)) := by
  intro f hf
  rw [mean_pair, mean_pair f, add_comm]
  exact h.mean (f := fun b => Spec.mean fun c => f (b, ψ c)) (fun b => mean01 fun c => hf _)
    fun b => h' (fun d => f (b, d)) fun d => hf _

theorem Near.fin : ∀ {k : ℕ} {A B : Fin k → Type} [∀ i, Fintype (A i)] [∀ i, Fintype (B i)]
    [∀ i, Nonempty (A i)] [∀ i, Nonempty (B i)] {δ : Fin k → ℚ} {φ : ∀ i, A i → B i}
    (_ : ∀ i, Near (δ i) (φ i)), Near (∑ i, δ i) (fun (w : ∀ i, A i) i => φ i (w i)) := by
  intro k
  induction k with
  | zero =>
    intro A B _ _ _ _ δ φ _ f _
    rw [Finset.univ_eq_empty, Finset.sum_empty]
    have e1 : (fun w : ∀ i, A i => f fun i => φ i (w i)) = fun _ => f fun i => i.elim0 :=
      funext fun w => congrArg f (funext fun i => i.elim0)
    have e2 : f = fun _ => f fun i => i.elim0 := funext fun w => congrArg f (funext fun i => i.elim0)
    rw [e1, mean_const]
    conv_lhs => rw [e2]
    rw [mean_const, sub_self, abs_zero]
  | succ k ih =>
    intro A B _ _ _ _ δ φ h
    rw [Fin.sum_univ_succ]
    have h1 := (h 0).prod (ih fun i => h i.succ)
    have h2 := ((Near.equiv (Fin.consEquiv A).symm).comp h1).comp (Near.equiv (Fin.consEquiv B))
    rw [zero_add, add_zero] at h2
    convert h2 using 1
    funext w i
    refine Fin.cases ?_ (fun j => ?_) i <;> rfl

/-- Independent coordinates. -/
theorem Near.pi {ι : Type} [Fintype ι] [DecidableEq ι] {A B : ι → Type} [∀ i, Fintype (A i)]
    [∀ i, Fintype (B i)] [∀ i, Nonempty (A i)] [∀ i, Nonempty (B i)] {δ : ι → ℚ}
    {φ : ∀ i, A i → B i} (h : ∀ i, Near (δ i) (φ i)) :
    Near (∑ i, δ i) (fun (w : ∀ i, A i) i => φ i (w i)) := by
  let e : Fin (Fintype.card ι) ≃ ι := (Fintype.equivFin ι).symm
  have h1 := Near.fin fun j => h (e j)
  have h2 := ((Near.equiv (Equiv.piCongrLeft A e).symm).comp h1).comp
    (Near.equiv (Equiv.piCongrLeft B e))
  rw [zero_add, add_zero, Equiv.sum_comp e δ] at h2
  convert h2 using 1
  funext w i
  obtain ⟨j, rfl⟩ := e.surjective i
  rw [Equiv.piCongrLeft_apply_apply]
  rfl

/-- A scalar is hit by its share of byte strings, up to one. -/
theorem hits_near (x : F) : |(Spec.hits (Scalar.ofF x) : ℚ) - 2 ^ 512 / ell| ≤ 1 := by
  have hell : (0 : ℚ) < ell := by exact_mod_cast (Nat.Prime.pos Fact.out : 0 < ell)
  rw [C50_count (Scalar.reduced_ofF x)]
  have h1 : ((2 ^ 512 / ell : ℕ) : ℚ) ≤ 2 ^ 512 / ell := by
    rw [show (2 : ℚ) ^ 512 = ((2 ^ 512 : ℕ) : ℚ) from (Nat.cast_pow 2 512).symm]
    exact Nat.cast_div_le
  have h2 : (2 : ℚ) ^ 512 / ell ≤ ((2 ^ 512 / ell : ℕ) : ℚ) + 1 := by
    rw [div_le_iff₀ hell, show (2 : ℚ) ^ 512 = ((2 ^ 512 : ℕ) : ℚ) from (Nat.cast_pow 2 512).symm]
    have : 2 ^ 512 ≤ (2 ^ 512 / ell + 1) * ell := by
      have := Nat.lt_div_mul_add (a := 2 ^ 512) (Nat.Prime.pos Fact.out : 0 < ell)
      rw [add_mul, one_mul]
      exact this.le
    exact_mod_cast this
  generalize (2 ^ 512 / ell : ℕ) = q at h1 h2 ⊢
  rw [abs_le]
  split
  · push_cast
    constructor <;> linarith
  · push_cast
    constructor <;> linarith

/-- 64 bytes as a number modulo `ℓ`. -/
theorem Near.coin : Near (1 / 2 ^ 259) (fun a : Spec.Answer => (leVal a.1 : F)) := by
  intro f hf
  have hell : (0 : ℚ) < ell := by exact_mod_cast (Nat.Prime.pos Fact.out : 0 < ell)
  have e1 : (∑ a : Spec.Answer, f (leVal a.1 : F)) = ∑ x : F, (Spec.hits (Scalar.ofF x) : ℚ) * f x := by
    rw [← Finset.sum_fiberwise Finset.univ (fun a : Spec.Answer => (leVal a.1 : F))]
    refine Finset.sum_congr rfl fun x _ => ?_
    rw [Finset.sum_congr rfl (g := fun _ => f x) (fun a ha => by rw [(Finset.mem_filter.1 ha).2]),
      Finset.sum_const, nsmul_eq_mul]
    congr 2
    rw [← Knowledge.card_hits, Nat.card_eq_fintype_card, Fintype.card_subtype]
  have e2 : (Fintype.card Spec.Answer : ℚ) = 2 ^ 512 := by
    rw [← Nat.card_eq_fintype_card, Knowledge.card_answer, Nat.cast_pow, Nat.cast_ofNat]
  unfold Spec.mean
  rw [e1, e2, ZMod.card]
  rw [Finset.sum_div, Finset.sum_div, ← Finset.sum_sub_distrib]
  refine (Finset.abs_sum_le_sum_abs _ _).trans ?_
  refine (Finset.sum_le_card_nsmul _ _ (1 / 2 ^ 512) fun x _ => ?_).trans ?_
  · have h1 := hits_near x
    have e3 : (Spec.hits (Scalar.ofF x) : ℚ) * f x / 2 ^ 512 - f x / ell =
        ((Spec.hits (Scalar.ofF x) : ℚ) - 2 ^ 512 / ell) * f x / 2 ^ 512 := by
      field_simp
    rw [e3, abs_div, abs_mul, abs_of_nonneg (hf x).1, abs_of_pos (by positivity : (0 : ℚ) < 2 ^ 512)]
    refine div_le_div_of_nonneg_right ?_ (by positivity)
    exact mul_le_one₀ h1 (hf x).1 (hf x).2
  · rw [Finset.card_univ, ZMod.card, nsmul_eq_mul, mul_one_div, div_le_div_iff₀ (by positivity) (by positivity),
      one_mul, show (2 : ℚ) ^ 512 = 2 ^ 253 * 2 ^ 259 by rw [← pow_add]]
    refine mul_le_mul_of_nonneg_right ?_ (by positivity)
    exact_mod_cast (by decide +kernel : ell ≤ 2 ^ 253)

end Sim

end Verif
