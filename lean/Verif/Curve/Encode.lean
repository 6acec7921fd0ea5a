import Verif.Curve.Order

/-!
# Ristretto encoding and decoding (external crate curve25519-dalek, ristretto.rs)

The algorithms of `CompressedRistretto::decompress` and `RistrettoPoint::compress` over the field,
with affine coordinates (dalek's are extended; here `Z = 1` and `T = x y`), and the proof that
they are inverse to each other on cosets of the 4-torsion.
-/

namespace Verif.Curve

/-- `FieldElement::conditional_negate` on the sign. -/
def absF (a : Fq) : Fq := if isNeg a then -a else a

theorem absF_nonneg (a : Fq) : isNeg (absF a) = false := by
  unfold absF
  split
  · rename_i h
    have : a ≠ 0 := by rintro rfl; simp at h
    rw [isNeg_neg this, h]; rfl
  · rename_i h
    simpa using h

theorem absF_sq (a : Fq) : absF a ^ 2 = a ^ 2 := by
  unfold absF
  split <;> ring

/-- `FieldElement::invsqrt`, that is `sqrt_ratio_i(1, v)`: whether `v` is a nonzero square, and the
nonnegative candidate for the inverse square root. -/
def invsqrt (v : Fq) : Bool × Fq :=
  let r := v ^ 3 * (v ^ 7) ^ ((q - 5) / 8)
  let check := v * r ^ 2
  let r' := if check = -1 ∨ check = -i then i * r else r
  (decide (check = 1 ∨ check = -1), absF r')

theorem invsqrt_check (v : Fq) :
    v * (v ^ 3 * (v ^ 7) ^ ((q - 5) / 8)) ^ 2 = (v ^ ((q - 1) / 4)) ^ 7 := by
  have h : (q - 1) / 4 = 2 * ((q - 5) / 8) + 1 := by decide +kernel
  rw [h]
  generalize (q - 5) / 8 = n
  ring

theorem pow_quarter_sq (v : Fq) : (v ^ ((q - 1) / 4)) ^ 2 = v ^ (q / 2) := by
  rw [← pow_mul]
  congr 1

theorem one_ne_neg_one : (1 : Fq) ≠ -1 := by
  intro h
  apply two_ne
  linear_combination h

theorem invsqrt_spec {v : Fq} (h0 : v ≠ 0) (hs : IsSquare v) :
    (invsqrt v).1 = true ∧ v * (invsqrt v).2 ^ 2 = 1 ∧ isNeg (invsqrt v).2 = false := by
  have he : (v ^ ((q - 1) / 4)) ^ 2 = 1 ^ 2 := by
    rw [pow_quarter_sq, one_pow]
    exact (ZMod.euler_criterion q h0).1 hs
  have hc : v * (v ^ 3 * (v ^ 7) ^ ((q - 5) / 8)) ^ 2 = 1
      ∨ v * (v ^ 3 * (v ^ 7) ^ ((q - 5) / 8)) ^ 2 = -1 := by
    rw [invsqrt_check]
    rcases sq_eq_sq_iff_eq_or_eq_neg.1 he with h | h
    · left; rw [h]; ring
    · right; rw [h]; ring
  have hi1 : (1 : Fq) ≠ -i := by
    intro h
    have := i_sq
    rw [show i = -1 by linear_combination h] at this
    exact one_ne_neg_one (by linear_combination this)
  simp only [invsqrt]
  generalize v ^ 3 * (v ^ 7) ^ ((q - 5) / 8) = r at hc
  refine ⟨by simpa using hc, ?_, absF_nonneg _⟩
  rw [absF_sq]
  rcases hc with hc | hc
  · rw [hc, if_neg (by simp [one_ne_neg_one, hi1])]
    exact hc
  · rw [hc, if_pos (Or.inl rfl)]
    linear_combination -hc + v * r ^ 2 * i_sq

theorem isSquare_neg_one : IsSquare (-1 : Fq) := ⟨i, by linear_combination -i_sq⟩

theorem invsqrt_ok {v : Fq} (h : (invsqrt v).1 = true) : v ≠ 0 ∧ IsSquare v := by
  simp only [invsqrt, decide_eq_true_eq] at h
  generalize v ^ 3 * (v ^ 7) ^ ((q - 5) / 8) = r at h
  have hr : v * r ^ 2 ≠ 0 := by
    rcases h with h | h <;> rw [h] <;> simp
  have hs : IsSquare (v * r ^ 2) := by
    rcases h with h | h <;> rw [h]
    · exact IsSquare.one
    · exact isSquare_neg_one
  exact ⟨left_ne_zero_of_mul hr,
    Ed.isSquare_of_mul (right_ne_zero_of_mul hr) hs (IsSquare.sq r)⟩

/-! ## Cosets of the 4-torsion -/

/-- `P` and `R` differ by a point killed by four. -/
def Coset (R P : Ed) : Prop := R = P ∨ R = P + Ed.Q2 ∨ R = P + Ed.Q4 ∨ R = P + -Ed.Q4

theorem coset_of_four {R P : Ed} (h : 4 • (R - P) = 0) : Coset R P := by
  have e : R = P + (R - P) := by abel
  rcases Ed.four_cases h with h | h | h | h <;> rw [h] at e
  · left; rw [e, add_zero]
  · right; left; exact e
  · right; right; left; exact e
  · right; right; right; exact e

theorem two_Q2 : 2 • Ed.Q2 = 0 := by
  rw [two_smul]
  have := Ed.add_Q2 Ed.Q2
  ext
  · rw [this.1]; simp [Ed.Q2]
  · rw [this.2]; simp [Ed.Q2]

theorem two_Q4 : 2 • Ed.Q4 = Ed.Q2 := by
  rw [two_smul]
  have := Ed.add_Q4 Ed.Q4
  ext
  · rw [this.1]; simp [Ed.Q4, Ed.Q2]
  · rw [this.2]; simp only [Ed.Q4, Ed.Q2]; linear_combination i_sq

theorem four_Q4 : 4 • Ed.Q4 = 0 := by
  rw [show 4 = 2 * 2 by rfl, mul_smul, two_Q4, two_Q2]

theorem four_of_coset {R P : Ed} (h : Coset R P) : 4 • (R - P) = 0 := by
  rcases h with rfl | rfl | rfl | rfl
  · simp
  · rw [add_sub_cancel_left, show 4 = 2 * 2 by rfl, mul_smul, two_Q2, smul_zero]
  · rw [add_sub_cancel_left, four_Q4]
  · rw [add_sub_cancel_left, smul_neg, four_Q4, neg_zero]

theorem coset_iff {R P : Ed} : Coset R P ↔ 4 • (R - P) = 0 := ⟨four_of_coset, coset_of_four⟩

theorem Coset.symm {R P : Ed} (h : Coset R P) : Coset P R := by
  rw [coset_iff] at *
  rw [← neg_sub, smul_neg, h, neg_zero]

theorem Coset.trans {R P S : Ed} (h : Coset R P) (h' : Coset P S) : Coset R S := by
  rw [coset_iff] at *
  rw [show R - S = (R - P) + (P - S) by abel, smul_add, h, h', add_zero]

theorem Coset.even {R P : Ed} (h : Coset R P) (he : P.Even) : R.Even := by
  have := Ed.even_g.1 he
  rcases h with rfl | rfl | rfl | rfl
  · exact he
  · rw [Ed.Even, (Ed.add_Q2 P).2, neg_sq]; exact he
  · rw [Ed.Even, (Ed.add_Q4 P).2, mul_pow, i_sq]
    convert this using 1; ring
  · rw [Ed.Even, (Ed.add_neg_Q4 P).2, neg_sq, mul_pow, i_sq]
    convert this using 1; ring

/-- The representative the encoding uses. -/
def Good (R : Ed) : Prop :=
  isNeg R.x = false ∧ isNeg (R.x * R.y) = false ∧ R.x ≠ 0 ∧ R.y ≠ 0

theorem good_unique {R S : Ed} (hR : Good R) (hS : Good S) (h : Coset R S) : R = S := by
  obtain ⟨s1, s2, s3, s4⟩ := hS
  obtain ⟨r1, r2, r3, r4⟩ := hR
  rcases h with rfl | rfl | rfl | rfl
  · rfl
  · rw [(Ed.add_Q2 S).1, isNeg_neg s3, s1] at r1
    simp at r1
  · rw [(Ed.add_Q4 S).1, (Ed.add_Q4 S).2, show i * S.y * (i * S.x) = -(S.x * S.y) by
      linear_combination S.x * S.y * i_sq, isNeg_neg (mul_ne_zero s3 s4), s2] at r2
    simp at r2
  · rw [(Ed.add_neg_Q4 S).1, (Ed.add_neg_Q4 S).2, show -(i * S.y) * -(i * S.x) = -(S.x * S.y) by
      linear_combination S.x * S.y * i_sq, isNeg_neg (mul_ne_zero s3 s4), s2] at r2
    simp at r2

/-! ## Encoding -/

/-- `INVSQRT_A_MINUS_D`. -/
def aNat : ℕ := 54469307008909316920995813868745141605393597292927456921205312896311721017578

theorem a_sq : (aNat : Fq) ^ 2 * (-1 - d) = 1 := by
  have h : ((aNat * aNat * (1 + dNat) + 1 : ℕ) : Fq) = ((0 : ℕ) : Fq) := cast_eq (by decide +kernel)
  push_cast at h
  rw [d]
  linear_combination -h

/-- The field element written by `RistrettoPoint::compress` for the affine point `(x, y)`. -/
def encS (x y : Fq) : Fq :=
  let u1 := (1 + y) * (1 - y)
  let u2 := x * y
  let inv := (invsqrt (u1 * u2 ^ 2)).2
  let i1 := inv * u1
  let i2 := inv * u2
  let zinv := i1 * (i2 * (x * y))
  let rot := isNeg (x * y * zinv)
  let x' := if rot then y * i else x
  let y' := if rot then x * i else y
  let den := if rot then i1 * aNat else i2
  let y'' := if isNeg (x' * zinv) then -y' else y'
  absF (den * (1 - y''))

theorem encS_degenerate {x y : Fq} (h : x * y = 0) : encS x y = 0 := by
  have h0 : (invsqrt 0).2 = 0 := by simp [invsqrt, absF]
  simp only [encS, h]
  simp [h0, absF]

theorem encS_spec {P : Ed} (he : P.Even) (hx : P.x ≠ 0) (hy : P.y ≠ 0) :
    ∃ R : Ed, Coset R P ∧ Good R ∧ (encS P.x P.y) ^ 2 * (1 + R.y) = 1 - R.y
      ∧ isNeg (encS P.x P.y) = false := by
  have hxy : P.x * P.y ≠ 0 := mul_ne_zero hx hy
  have on := P.on
  unfold OnCurve at on
  have hu : (1 + P.y) * (1 - P.y) = -1 * (1 + d * P.y ^ 2) * P.x ^ 2 := by
    linear_combination -on
  have hu0 : (1 + P.y) * (1 - P.y) ≠ 0 := by
    rw [hu]
    exact mul_ne_zero (mul_ne_zero (by simp) (one_add_ne P.y)) (pow_ne_zero 2 hx)
  have hsq : IsSquare ((1 + P.y) * (1 - P.y) * (P.x * P.y) ^ 2) := by
    rw [hu]
    exact ((isSquare_neg_one.mul he).mul (IsSquare.sq _)).mul (IsSquare.sq _)
  obtain ⟨-, hinv, -⟩ := invsqrt_spec (mul_ne_zero hu0 (pow_ne_zero 2 hxy)) hsq
  simp only [encS]
  generalize (invsqrt ((1 + P.y) * (1 - P.y) * (P.x * P.y) ^ 2)).2 = v at hinv ⊢
  have hz : v * ((1 + P.y) * (1 - P.y)) * (v * (P.x * P.y) * (P.x * P.y)) = 1 := by
    linear_combination hinv
  simp only [hz, mul_one]
  cases hr : isNeg (P.x * P.y)
  · simp only [Bool.false_eq_true, if_false]
    cases hs : isNeg P.x
    · refine ⟨P, Or.inl rfl, ⟨hs, hr, hx, hy⟩, ?_, absF_nonneg _⟩
      simp only [Bool.false_eq_true, if_false]
      rw [absF_sq]
      linear_combination (1 - P.y) * hinv
    · refine ⟨P + Ed.Q2, Or.inr (Or.inl rfl), ⟨?_, ?_, ?_, ?_⟩, ?_, absF_nonneg _⟩
      · rw [(Ed.add_Q2 P).1, isNeg_neg hx, hs]; rfl
      · rw [(Ed.add_Q2 P).1, (Ed.add_Q2 P).2, neg_mul_neg, hr]
      · rw [(Ed.add_Q2 P).1]; exact neg_ne_zero.2 hx
      · rw [(Ed.add_Q2 P).2]; exact neg_ne_zero.2 hy
      · simp only [if_true]
        rw [absF_sq, (Ed.add_Q2 P).2]
        linear_combination (1 + P.y) * hinv
  · simp only [if_true]
    have hrot : isNeg (-(P.x * P.y)) = false := by rw [isNeg_neg hxy, hr]; rfl
    have hyi : P.y * i ≠ 0 := mul_ne_zero hy i_ne
    have hxi : P.x * i ≠ 0 := mul_ne_zero hx i_ne
    have hcert : (aNat : Fq) ^ 2 * ((1 + P.y) * (1 - P.y)) * (1 + P.x ^ 2) = (P.x * P.y) ^ 2 := by
      linear_combination (P.x * P.y) ^ 2 * a_sq - (aNat : Fq) ^ 2 * on
    cases hs : isNeg (P.y * i)
    · refine ⟨P + Ed.Q4, Or.inr (Or.inr (Or.inl rfl)), ⟨?_, ?_, ?_, ?_⟩, ?_, absF_nonneg _⟩
      · rw [(Ed.add_Q4 P).1, mul_comm, hs]
      · rw [(Ed.add_Q4 P).1, (Ed.add_Q4 P).2, show i * P.y * (i * P.x) = -(P.x * P.y) by
          linear_combination P.x * P.y * i_sq, hrot]
      · rw [(Ed.add_Q4 P).1, mul_comm]; exact hyi
      · rw [(Ed.add_Q4 P).2, mul_comm]; exact hxi
      · simp only [Bool.false_eq_true, if_false]
        rw [absF_sq, (Ed.add_Q4 P).2]
        linear_combination (1 - i * P.x) * hinv
          + v ^ 2 * ((1 + P.y) * (1 - P.y)) * (1 - i * P.x) * hcert
          - v ^ 2 * ((1 + P.y) * (1 - P.y)) ^ 2 * (aNat : Fq) ^ 2 * (1 - i * P.x) * P.x ^ 2 * i_sq
    · refine ⟨P + -Ed.Q4, Or.inr (Or.inr (Or.inr rfl)), ⟨?_, ?_, ?_, ?_⟩, ?_, absF_nonneg _⟩
      · rw [(Ed.add_neg_Q4 P).1, mul_comm, isNeg_neg hyi, hs]; rfl
      · rw [(Ed.add_neg_Q4 P).1, (Ed.add_neg_Q4 P).2,
          show -(i * P.y) * -(i * P.x) = -(P.x * P.y) by
            linear_combination P.x * P.y * i_sq, hrot]
      · rw [(Ed.add_neg_Q4 P).1, mul_comm]; exact neg_ne_zero.2 hyi
      · rw [(Ed.add_neg_Q4 P).2, mul_comm]; exact neg_ne_zero.2 hxi
      · simp only [if_true]
        rw [absF_sq, (Ed.add_neg_Q4 P).2]
        linear_combination (1 + i * P.x) * hinv
          + v ^ 2 * ((1 + P.y) * (1 - P.y)) * (1 + i * P.x) * hcert
          - v ^ 2 * ((1 + P.y) * (1 - P.y)) ^ 2 * (aNat : Fq) ^ 2 * (1 + i * P.x) * P.x ^ 2 * i_sq

theorem Good.one_add {R : Ed} (hR : Good R) : 1 + R.y ≠ 0 := by
  intro h1
  have hy : R.y = -1 := by linear_combination h1
  have := Ed.sq_x R
  rw [hy] at this
  have h3 : R.x ^ 2 * (1 + d * (-1) ^ 2) = 0 := by linear_combination this
  exact mul_ne_zero (pow_ne_zero 2 hR.2.2.1) (one_add_ne _) h3

/-- A good representative determines the encoding. -/
theorem encS_eq {P R : Ed} (he : P.Even) (h : Coset R P) (hR : Good R) {s : Fq}
    (hs : s ^ 2 * (1 + R.y) = 1 - R.y) (hn : isNeg s = false) (hP : P.x * P.y ≠ 0) :
    encS P.x P.y = s := by
  obtain ⟨R', h', hR', hs', hn'⟩ := encS_spec he (left_ne_zero_of_mul hP) (right_ne_zero_of_mul hP)
  have := good_unique hR' hR (h'.trans h.symm)
  subst this
  refine eq_of_sq_isNeg ?_ (by rw [hn, hn'])
  apply mul_right_cancel₀ hR'.one_add
  rw [hs, hs']

theorem Coset.xy {R P : Ed} (h : Coset R P) : P.x * P.y = 0 ↔ R.x * R.y = 0 := by
  rcases h with rfl | rfl | rfl | rfl
  · rfl
  · rw [(Ed.add_Q2 P).1, (Ed.add_Q2 P).2, neg_mul_neg]
  · rw [(Ed.add_Q4 P).1, (Ed.add_Q4 P).2, show i * P.y * (i * P.x) = -(P.x * P.y) by
      linear_combination P.x * P.y * i_sq, neg_eq_zero]
  · rw [(Ed.add_neg_Q4 P).1, (Ed.add_neg_Q4 P).2, show -(i * P.y) * -(i * P.x) = -(P.x * P.y) by
      linear_combination P.x * P.y * i_sq, neg_eq_zero]

/-- The encoding does not depend on the representative of the coset. -/
theorem encS_coset {P R : Ed} (he : P.Even) (h : Coset R P) : encS R.x R.y = encS P.x P.y := by
  by_cases h0 : P.x * P.y = 0
  · rw [encS_degenerate h0, encS_degenerate (h.xy.1 h0)]
  · obtain ⟨S, hS, hg, hs, hn⟩ :=
      encS_spec he (left_ne_zero_of_mul h0) (right_ne_zero_of_mul h0)
    exact encS_eq (h.even he) (hS.trans h.symm) hg hs hn (fun h1 => h0 (h.xy.2 h1))

/-! ## Decoding -/

/-- The point computed by `CompressedRistretto::decompress` from a canonical nonnegative field
element, in affine coordinates. -/
def decS (s : Fq) : Option (Fq × Fq) :=
  let u1 := 1 - s ^ 2
  let u2 := 1 + s ^ 2
  let v := -(d * u1 ^ 2) - u2 ^ 2
  let (ok, inv) := invsqrt (v * u2 ^ 2)
  let dx := inv * u2
  let dy := inv * (dx * v)
  let x := absF ((s + s) * dx)
  let y := u1 * dy
  if ok && !isNeg (x * y) && y ≠ 0 then some (x, y) else none

theorem decS_some {s x y : Fq} (h : decS s = some (x, y)) :
    ∃ R : Ed, R.x = x ∧ R.y = y ∧ R.Even ∧ isNeg x = false ∧ isNeg (x * y) = false ∧ y ≠ 0
      ∧ s ^ 2 * (1 + y) = 1 - y ∧ (x = 0 → s = 0) := by
  simp only [decS] at h
  split at h
  swap
  · exact absurd h (by simp)
  rename_i hc
  simp only [Bool.and_eq_true, Bool.not_eq_true', decide_eq_true_eq] at hc
  obtain ⟨⟨h1, h2⟩, h3⟩ := hc
  simp only [Option.some.injEq, Prod.mk.injEq] at h
  obtain ⟨hx, hy⟩ := h
  rw [hx, hy] at h2
  rw [hy] at h3
  obtain ⟨hv0, hvs⟩ := invsqrt_ok h1
  obtain ⟨-, hinv, -⟩ := invsqrt_spec hv0 hvs
  generalize (invsqrt ((-(d * (1 - s ^ 2) ^ 2) - (1 + s ^ 2) ^ 2) * (1 + s ^ 2) ^ 2)).2 = r at *
  have hu2 : 1 + s ^ 2 ≠ 0 := by
    intro h0
    rw [h0] at hv0
    simp at hv0
  have hv : -(d * (1 - s ^ 2) ^ 2) - (1 + s ^ 2) ^ 2 ≠ 0 := left_ne_zero_of_mul hv0
  have hy' : y * (1 + s ^ 2) = 1 - s ^ 2 := by
    rw [← hy]
    linear_combination (1 - s ^ 2) * hinv
  have hx' : x ^ 2 * (-(d * (1 - s ^ 2) ^ 2) - (1 + s ^ 2) ^ 2) = 4 * s ^ 2 := by
    rw [← hx, absF_sq]
    linear_combination 4 * s ^ 2 * hinv
  have hon : OnCurve d x y := by
    unfold OnCurve
    apply mul_right_cancel₀ (mul_ne_zero hv (pow_ne_zero 2 hu2))
    linear_combination (-(1 + s ^ 2) ^ 2 - d * y ^ 2 * (1 + s ^ 2) ^ 2) * hx'
      + (-(d * (1 - s ^ 2) ^ 2) - (1 + s ^ 2) ^ 2 - 4 * d * s ^ 2)
        * (y * (1 + s ^ 2) + (1 - s ^ 2)) * hy'
  refine ⟨⟨x, y, hon⟩, rfl, rfl, ?_, ?_, h2, h3, ?_, ?_⟩
  · have hf : (1 + d * y ^ 2) * (1 + s ^ 2) ^ 2 = -1 * (-(d * (1 - s ^ 2) ^ 2) - (1 + s ^ 2) ^ 2) := by
      linear_combination d * (y * (1 + s ^ 2) + (1 - s ^ 2)) * hy'
    refine Ed.isSquare_of_mul (pow_ne_zero 2 hu2) ?_ (IsSquare.sq _)
    rw [hf]
    refine isSquare_neg_one.mul ?_
    exact Ed.isSquare_of_mul (pow_ne_zero 2 hu2) hvs (IsSquare.sq _)
  · rw [← hx]; exact absF_nonneg _
  · linear_combination hy'
  · intro h0
    rw [h0] at hx'
    have h4 : 2 * (2 * s ^ 2) = 0 := by linear_combination -hx'
    have := (mul_eq_zero.1 ((mul_eq_zero.1 h4).resolve_left two_ne)).resolve_left two_ne
    exact pow_eq_zero_iff (two_ne_zero) |>.1 this

theorem decS_of {R : Ed} (he : R.Even) (hx : isNeg R.x = false) (hxy : isNeg (R.x * R.y) = false)
    (hy : R.y ≠ 0) {s : Fq} (hs : s ^ 2 * (1 + R.y) = 1 - R.y) :
    decS s = some (R.x, R.y) := by
  have hU : (1 + s ^ 2) * (1 + R.y) = 2 := by linear_combination hs
  have hU0 : 1 + s ^ 2 ≠ 0 := by
    intro h
    rw [h, zero_mul] at hU
    exact two_ne hU.symm
  have hyU : R.y * (1 + s ^ 2) = 1 - s ^ 2 := by linear_combination hs
  have hV : -(d * (1 - s ^ 2) ^ 2) - (1 + s ^ 2) ^ 2 = -1 * (1 + d * R.y ^ 2) * (1 + s ^ 2) ^ 2 := by
    linear_combination d * (R.y * (1 + s ^ 2) + (1 - s ^ 2)) * hyU
  have hV0 : -(d * (1 - s ^ 2) ^ 2) - (1 + s ^ 2) ^ 2 ≠ 0 := by
    rw [hV]
    exact mul_ne_zero (mul_ne_zero (by simp) (one_add_ne _)) (pow_ne_zero 2 hU0)
  have hVs : IsSquare ((-(d * (1 - s ^ 2) ^ 2) - (1 + s ^ 2) ^ 2) * (1 + s ^ 2) ^ 2) := by
    rw [hV]
    exact ((isSquare_neg_one.mul he).mul (IsSquare.sq _)).mul (IsSquare.sq _)
  obtain ⟨hok, hinv, -⟩ := invsqrt_spec (mul_ne_zero hV0 (pow_ne_zero 2 hU0)) hVs
  have hx2 : R.x ^ 2 * (-(d * (1 - s ^ 2) ^ 2) - (1 + s ^ 2) ^ 2) = 4 * s ^ 2 := by
    rw [hV]
    linear_combination -(1 + s ^ 2) ^ 2 * Ed.sq_x R
      - (R.y * (1 + s ^ 2) + (1 - s ^ 2)) * hyU
  simp only [decS, hok]
  generalize (invsqrt ((-(d * (1 - s ^ 2) ^ 2) - (1 + s ^ 2) ^ 2) * (1 + s ^ 2) ^ 2)).2 = r at *
  have ey : (1 - s ^ 2) * (r * (r * (1 + s ^ 2) * (-(d * (1 - s ^ 2) ^ 2) - (1 + s ^ 2) ^ 2)))
      = R.y := by
    apply mul_right_cancel₀ hU0
    rw [hyU]
    linear_combination (1 - s ^ 2) * hinv
  have ex : absF ((s + s) * (r * (1 + s ^ 2))) = R.x := by
    refine eq_of_sq_isNeg ?_ (by rw [absF_nonneg, hx])
    apply mul_right_cancel₀ hV0
    rw [hx2, absF_sq]
    linear_combination 4 * s ^ 2 * hinv
  rw [ey, ex]
  simp [hxy, hy]

theorem decS_good {R : Ed} (he : R.Even) (hR : Good R) {s : Fq}
    (hs : s ^ 2 * (1 + R.y) = 1 - R.y) : decS s = some (R.x, R.y) :=
  decS_of he hR.1 hR.2.1 hR.2.2.2 hs

theorem decS_zero : decS 0 = some (0, 1) := by
  have he : (0 : Ed).Even := by
    have := Ed.even_two 0
    rwa [smul_zero] at this
  exact decS_of (R := 0) he (by simp) (by simp) (by simp) (by simp)

end Verif.Curve
