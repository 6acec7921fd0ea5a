import Verif.Scalar
import Verif.Curve.Compute
import Mathlib.GroupTheory.OrderOfElement
import Mathlib.GroupTheory.SpecificGroups.Cyclic
import Mathlib.SetTheory.Cardinal.Finite

/-!
# The order of the curve

The curve has exactly `8 ell` points and is cyclic: the basepoint has order `ell` (its multiple is
evaluated by the kernel), an explicit point has order 8, and there are at most `2 q < 16 ell` points.
A point is a double exactly when `1 + d y²` is a square.
-/

namespace Verif.Curve

open _root_.Verif.Prime

/-! ## Signs of field elements -/

/-- `FieldElement::is_negative`: the low bit of the canonical encoding. -/
def isNeg (a : Fq) : Bool := a.val % 2 == 1

theorem isNeg_neg {a : Fq} (h : a ≠ 0) : isNeg (-a) = !isNeg a := by
  have hv : (-a).val = q - a.val := by
    have : NeZero a := ⟨h⟩
    exact ZMod.val_neg_of_ne_zero a
  have hlt := ZMod.val_lt a
  have hodd : q % 2 = 1 := by decide +kernel
  have h3 : (q - a.val) % 2 ≠ a.val % 2 := by omega
  simp only [isNeg, hv]
  rcases Nat.mod_two_eq_zero_or_one a.val with e | e <;>
  rcases Nat.mod_two_eq_zero_or_one (q - a.val) with e' | e' <;> simp [e, e'] <;> omega

@[simp] theorem isNeg_zero : isNeg 0 = false := by simp [isNeg]

theorem eq_of_sq_isNeg {a b : Fq} (h : a ^ 2 = b ^ 2) (hs : isNeg a = isNeg b) : a = b := by
  rcases sq_eq_sq_iff_eq_or_eq_neg.1 h with e | e
  · exact e
  · by_cases hb : b = 0
    · rw [e, hb, neg_zero]
    · rw [e, isNeg_neg hb] at hs
      cases h' : isNeg b <;> simp [h'] at hs

/-! ## At most two points for each `y` -/

theorem one_add_ne (y : Fq) : 1 + d * y ^ 2 ≠ 0 := by
  intro h
  have hy : y ≠ 0 := by
    rintro rfl
    norm_num at h
  apply d_not_square
  refine ⟨i / y, ?_⟩
  rw [div_mul_div_comm, eq_div_iff (mul_ne_zero hy hy)]
  linear_combination h - i_sq

theorem one_sub_ne (x : Fq) : 1 - d * x ^ 2 ≠ 0 := by
  intro h
  have hx : x ≠ 0 := by
    rintro rfl
    norm_num at h
  apply d_not_square
  refine ⟨1 / x, ?_⟩
  rw [div_mul_div_comm, eq_div_iff (mul_ne_zero hx hx)]
  linear_combination -h

namespace Ed

theorem sq_x (P : Ed) : P.x ^ 2 * (1 + d * P.y ^ 2) = P.y ^ 2 - 1 := by
  have := P.on
  unfold OnCurve at this
  linear_combination -this

theorem sq_y (P : Ed) : P.y ^ 2 * (1 - d * P.x ^ 2) = 1 + P.x ^ 2 := by
  have := P.on
  unfold OnCurve at this
  linear_combination this

theorem prod_eq (P : Ed) : (1 - d * P.x ^ 2) * (1 + d * P.y ^ 2) = 1 + d := by
  have := P.on
  unfold OnCurve at this
  linear_combination d * this

def key (P : Ed) : Fq × Bool := (P.y, isNeg P.x)

theorem key_inj : Function.Injective key := by
  intro P R h
  simp only [key, Prod.mk.injEq] at h
  obtain ⟨hy, hs⟩ := h
  have e : P.x ^ 2 = R.x ^ 2 := by
    apply mul_right_cancel₀ (one_add_ne P.y)
    rw [sq_x, hy, sq_x]
  exact Ed.ext (eq_of_sq_isNeg e hs) hy

instance : Finite Ed := Finite.of_injective key key_inj

theorem card_le : Nat.card Ed ≤ 2 * q := by
  have h := Nat.card_le_card_of_injective key key_inj
  rw [Nat.card_prod, Nat.card_zmod, Nat.card_eq_fintype_card (α := Bool), Fintype.card_bool] at h
  omega

/-! ## The basepoint and a point of order 8 -/

def baseX : ℕ := 15112221349535400772501151409588531511454012693041857206046113283949847762202
def baseY : ℕ := 46316835694926478169428394003475163141307993866256225615783033603165251855960

def tX : ℕ := 14399317868200118260347934320527232580618823971194345261214217575416788799818
def tY : ℕ := 55188659117513257062467267217118295137698188065244968500265048394206261417927

theorem on_of {x y : ℕ} (h : (y * y + (q - x * x % q)) % q = (1 + dNat * (x * x) * (y * y)) % q) :
    OnCurve d (x : Fq) (y : Fq) := by
  have h' := cast_eq h
  have hq : ((q : ℕ) : Fq) = 0 := ZMod.natCast_self q
  rw [Nat.cast_add, Nat.cast_sub (Nat.mod_lt _ (by norm_num [q])).le, Proj.cast_mod, hq] at h'
  push_cast at h'
  unfold OnCurve
  rw [d]
  linear_combination h'

/-- `ED25519_BASEPOINT_POINT`. -/
def B : Ed := ⟨baseX, baseY, on_of (by decide +kernel)⟩

/-- A point of order 8. -/
def T : Ed := ⟨tX, tY, on_of (by decide +kernel)⟩

def bP : Proj := Proj.affine baseX baseY
def tP : Proj := Proj.affine tX tY

theorem rep_B : bP.Rep B := Proj.rep_affine rfl rfl
theorem rep_T : tP.Rep T := Proj.rep_affine rfl rfl

theorem ell_B : ell • B = 0 :=
  (Proj.isZero_iff (Proj.rep_smul (by norm_num [ell]) rep_B)).1 (by decide +kernel)

theorem B_ne : B ≠ 0 := fun h => by
  have := (Proj.isZero_iff rep_B).2 h
  revert this
  decide +kernel

theorem eight_T : 8 • T = 0 :=
  (Proj.isZero_iff (Proj.rep_smul (by norm_num) rep_T)).1 (by decide +kernel)

theorem four_T : 4 • T ≠ 0 := fun h => by
  have := (Proj.isZero_iff (Proj.rep_smul (n := 4) (by norm_num) rep_T)).2 h
  revert this
  decide +kernel

theorem order_B : addOrderOf B = ell := addOrderOf_eq_prime ell_B B_ne

theorem order_T : addOrderOf T = 8 := by
  have := addOrderOf_eq_prime_pow (p := 2) (n := 2) (x := T) (by simpa using four_T) (by simpa using eight_T)
  simpa using this

/-- A generator of the whole curve. -/
def gen : Ed := T + B

theorem ell_odd : ell % 2 = 1 := by norm_num [ell]

theorem coprime_ell : Nat.Coprime 8 ell := by
  have : Nat.Coprime 2 ell := by
    rw [Nat.coprime_two_left, Nat.odd_iff]
    exact ell_odd
  exact Nat.Coprime.pow_left 3 this

theorem order_gen : addOrderOf gen = 8 * ell := by
  rw [gen, (AddCommute.all T B).addOrderOf_add_eq_mul_addOrderOf_of_coprime, order_T, order_B]
  rw [order_T, order_B]
  exact coprime_ell

/-- The curve has `8 ell` points. -/
theorem card_eq : Nat.card Ed = 8 * ell := by
  have h := addOrderOf_dvd_natCard gen
  rw [order_gen] at h
  obtain ⟨k, hk⟩ := h
  have hle := card_le
  have hpos : 0 < Nat.card Ed := Nat.card_pos
  rw [hk] at hle hpos ⊢
  have h16 : 2 * q < 8 * ell * 2 := by norm_num [q, ell]
  have : k < 2 := by
    by_contra hc
    have := Nat.mul_le_mul_left (8 * ell) (by omega : 2 ≤ k)
    omega
  have : k ≠ 0 := by
    rintro rfl
    simp at hpos
  have : k = 1 := by omega
  subst this
  simp

/-- The curve is cyclic. -/
theorem exists_gen (P : Ed) : ∃ n : ℕ, P = n • gen := by
  have h : AddSubgroup.zmultiples gen = ⊤ := by
    apply AddSubgroup.eq_top_of_card_eq
    rw [Nat.card_zmultiples, order_gen, card_eq]
  have hP : P ∈ AddSubgroup.zmultiples gen := by rw [h]; trivial
  obtain ⟨n, hn⟩ := (mem_multiples_iff_mem_zmultiples (x := gen)).2 hP
  exact ⟨n, hn.symm⟩

/-- Points of order dividing `ell` are multiples of the basepoint. -/
theorem exists_base {P : Ed} (h : ell • P = 0) : ∃ n : ℕ, P = n • B := by
  obtain ⟨n, rfl⟩ := exists_gen P
  rw [smul_smul, ← addOrderOf_dvd_iff_nsmul_eq_zero, order_gen, mul_comm 8 ell] at h
  have h8 : 8 ∣ n := Nat.dvd_of_mul_dvd_mul_left (by norm_num [ell]) h
  obtain ⟨k, rfl⟩ := h8
  refine ⟨8 * k, ?_⟩
  rw [gen, smul_add, mul_comm, mul_smul, eight_T, smul_zero, zero_add]

/-! ## Doubles -/

/-- `1 + d y²` is multiplicative up to squares. -/
theorem f_add (P R : Ed) :
    (1 + d * (P + R).y ^ 2) * ((1 + d * P.y ^ 2) * (1 - d * R.x ^ 2))
      = ((1 - d * R.x ^ 2 + d * P.y ^ 2 + d * P.y ^ 2 * R.x ^ 2)
          / (1 - d * P.x * R.x * P.y * R.y)) ^ 2 := by
  have h := den_neg P R
  have e₁ := P.on
  have e₂ := R.on
  unfold OnCurve at e₁ e₂
  have c : ((1 - d * P.x * R.x * P.y * R.y) ^ 2 + d * (P.y * R.y + P.x * R.x) ^ 2)
      * ((1 + d * P.y ^ 2) * (1 - d * R.x ^ 2))
      = (1 - d * R.x ^ 2 + d * P.y ^ 2 + d * P.y ^ 2 * R.x ^ 2) ^ 2 := by
    linear_combination
      (d ^ 3 * P.y ^ 2 * R.x ^ 4 * R.y ^ 2 - d ^ 2 * P.y ^ 2 * R.x ^ 2 * R.y ^ 2
        + d ^ 2 * R.x ^ 4 - d * R.x ^ 2) * e₁
      + (d ^ 2 * P.y ^ 4 * R.x ^ 2 + d ^ 2 * P.y ^ 4 - d ^ 2 * P.y ^ 2 * R.x ^ 2
        + d * P.y ^ 2) * e₂
  rw [add_y]
  generalize 1 - d * P.x * R.x * P.y * R.y = D at *
  rw [div_pow, div_pow, eq_div_iff (pow_ne_zero 2 h), ← c]
  field_simp

/-- A square root of `1 + d`. -/
def wNat : ℕ := 28684908821141429758912547916212233914183938327803420948194326298794999701186

theorem w_sq : (wNat : Fq) ^ 2 = 1 + d := by
  have h : ((wNat * wNat : ℕ) : Fq) = ((1 + dNat : ℕ) : Fq) := cast_eq (by decide +kernel)
  push_cast at h
  rw [d]
  linear_combination h

theorem one_add_d_ne : 1 + d ≠ 0 := by
  have := one_add_ne 1
  simpa using this

/-- The point passes the test for doubles. -/
def Even (P : Ed) : Prop := IsSquare (1 + d * P.y ^ 2)

theorem even_g {P : Ed} : P.Even ↔ IsSquare (1 - d * P.x ^ 2) := by
  have h := prod_eq P
  have h1 := one_add_ne P.y
  have h2 := one_sub_ne P.x
  constructor
  · rintro ⟨r, hr⟩
    have hr0 : r ≠ 0 := by rintro rfl; simp [hr] at h1
    refine ⟨(wNat : Fq) / r, ?_⟩
    rw [div_mul_div_comm, eq_div_iff (mul_ne_zero hr0 hr0), ← hr, h]
    linear_combination -w_sq
  · rintro ⟨r, hr⟩
    have hr0 : r ≠ 0 := by rintro rfl; simp [hr] at h2
    refine ⟨(wNat : Fq) / r, ?_⟩
    rw [div_mul_div_comm, eq_div_iff (mul_ne_zero hr0 hr0), ← hr, mul_comm, h]
    linear_combination -w_sq

theorem isSquare_of_mul {a b : Fq} (hb : b ≠ 0) (h : IsSquare (a * b)) (hs : IsSquare b) :
    IsSquare a := by
  obtain ⟨r, hr⟩ := h
  obtain ⟨t, rfl⟩ := hs
  have ht : t ≠ 0 := left_ne_zero_of_mul hb
  refine ⟨r / t, ?_⟩
  rw [div_mul_div_comm, eq_div_iff hb, hr]

theorem even_two (R : Ed) : (2 • R).Even := by
  have h := f_add R R
  rw [mul_comm (1 + d * R.y ^ 2), prod_eq] at h
  rw [two_smul]
  apply isSquare_of_mul one_add_d_ne
  · rw [h]; exact IsSquare.sq _
  · rw [← w_sq]; exact IsSquare.sq _

theorem even_of_add {P R : Ed} (h1 : (P + R).Even) (h2 : P.Even) : R.Even := by
  rw [even_g]
  have h := f_add P R
  have h' : IsSquare ((1 - d * R.x ^ 2) * ((1 + d * (P + R).y ^ 2) * (1 + d * P.y ^ 2))) := by
    rw [show (1 - d * R.x ^ 2) * ((1 + d * (P + R).y ^ 2) * (1 + d * P.y ^ 2))
      = (1 + d * (P + R).y ^ 2) * ((1 + d * P.y ^ 2) * (1 - d * R.x ^ 2)) by ring, h]
    exact IsSquare.sq _
  exact isSquare_of_mul (mul_ne_zero (one_add_ne _) (one_add_ne _)) h' (h1.mul h2)

theorem T_odd : ¬ T.Even := by
  have h := not_square (a := 1 + dNat * (tY * tY)) (by decide +kernel)
  push_cast at h
  rw [Even, d]
  rwa [sq]

/-- Exactly the doubles pass the test. -/
theorem exists_two {P : Ed} (h : P.Even) : ∃ R : Ed, P = 2 • R := by
  obtain ⟨n, hn⟩ := exists_gen P
  obtain ⟨m, hm⟩ := exists_gen T
  rcases Nat.even_or_odd' m with ⟨k, rfl | rfl⟩
  · exact absurd (by rw [hm, mul_smul]; exact even_two _) T_odd
  · rcases Nat.even_or_odd' n with ⟨j, rfl | rfl⟩
    · exact ⟨j • gen, by rw [hn, mul_smul]⟩
    · exfalso
      refine T_odd (even_of_add (P := P) ?_ h)
      rw [hn, hm, ← add_smul, show 2 * j + 1 + (2 * k + 1) = 2 * (j + k + 1) by ring, mul_smul]
      exact even_two _

theorem even_iff {P : Ed} : P.Even ↔ ∃ R : Ed, P = 2 • R :=
  ⟨exists_two, fun ⟨R, h⟩ => h ▸ even_two R⟩

/-- Points of odd order are doubles. -/
theorem even_of_ell {P : Ed} (h : ell • P = 0) : P.Even := by
  have : P = 2 • (((ell + 1) / 2) • P) := by
    rw [smul_smul, show 2 * ((ell + 1) / 2) = ell + 1 by have := ell_odd; omega, add_smul, h,
      zero_add, one_smul]
  rw [this]
  exact even_two _

/-! ## Points killed by four -/

/-- The point `(i, 0)` of order 4. -/
def Q4 : Ed := ⟨i, 0, by unfold OnCurve; linear_combination -i_sq⟩
/-- The point `(0, -1)` of order 2. -/
def Q2 : Ed := ⟨0, -1, by unfold OnCurve; ring⟩

theorem add_Q2 (P : Ed) : (P + Q2).x = -P.x ∧ (P + Q2).y = -P.y := by
  constructor
  · simp [add_x, Q2]
  · simp [add_y, Q2]

theorem add_Q4 (P : Ed) : (P + Q4).x = i * P.y ∧ (P + Q4).y = i * P.x := by
  constructor
  · simp [add_x, Q4]
  · simp [add_y, Q4, mul_comm]

theorem add_neg_Q4 (P : Ed) : (P + -Q4).x = -(i * P.y) ∧ (P + -Q4).y = -(i * P.x) := by
  constructor
  · simp [add_x, Q4]
  · simp [add_y, Q4, mul_comm]

theorem x_of_two {U : Ed} (h : 2 • U = 0) : U.x = 0 := by
  have e : U = -U := by rw [two_smul] at h; exact eq_neg_of_add_eq_zero_left h
  have hx : U.x = -U.x := congrArg Ed.x e
  have : 2 * U.x = 0 := by linear_combination hx
  exact (mul_eq_zero.1 this).resolve_left two_ne

theorem four_cases {U : Ed} (h : 4 • U = 0) : U = 0 ∨ U = Q2 ∨ U = Q4 ∨ U = -Q4 := by
  have h2 : (2 • U).x = 0 := x_of_two (by rw [smul_smul]; exact h)
  rw [two_smul, add_x, div_eq_zero_iff] at h2
  have h3 := h2.resolve_right (den_pos U U)
  have h4 : 2 * (U.x * U.y) = 0 := by linear_combination h3
  have e := U.on
  unfold OnCurve at e
  rcases mul_eq_zero.1 ((mul_eq_zero.1 h4).resolve_left two_ne) with hx | hy
  · have : U.y ^ 2 = 1 ^ 2 := by rw [hx] at e; linear_combination e
    rcases sq_eq_sq_iff_eq_or_eq_neg.1 this with hy | hy
    · left; exact Ed.ext hx hy
    · right; left; exact Ed.ext hx hy
  · have : U.x ^ 2 = i ^ 2 := by rw [hy] at e; linear_combination -e - i_sq
    rcases sq_eq_sq_iff_eq_or_eq_neg.1 this with hx | hx
    · right; right; left; exact Ed.ext hx hy
    · right; right; right; exact Ed.ext hx (by rw [hy]; simp [Q4])

end Ed

end Verif.Curve
