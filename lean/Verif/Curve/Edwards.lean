import Verif.Curve.Field
import Mathlib.Tactic.FieldSimp
import Mathlib.Tactic.LinearCombination

/-!
# The twisted Edwards curve of curve25519-dalek (external crate)

`-x² + y² = 1 + d x² y²` over the field with `q = 2^255 - 19` elements, its complete addition law and
the proof that it is a commutative group. The associativity certificates are explicit polynomial
combinations of the three curve equations.

`/repo` uses the curve only through `RistrettoPoint` (for example `aeonflux/src/amacs.rs:137-138`,
`aeonflux/src/credential.rs:279`); nothing in this file is code of the repository. Points are affine here,
whereas curve25519-dalek keeps them in extended projective coordinates.
-/

namespace Verif.Curve

/-! ## Polynomial identities, over any field -/

section Generic

variable {K : Type} [Field K] {d i x₁ y₁ x₂ y₂ x₃ y₃ : K}

/-- The curve equation. -/
def OnCurve (d x y : K) : Prop := -x ^ 2 + y ^ 2 = 1 + d * x ^ 2 * y ^ 2

/-- The product whose being `±1` would make the addition law undefined. -/
theorem no_square_of (hd : ¬ IsSquare d) (s : K) {k : K}
    (h : (i * x₁ + k * s * y₁) ^ 2 = d * x₁ ^ 2 * y₁ ^ 2 * (i * x₂ + s * y₂) ^ 2)
    (h1 : x₁ * y₁ ≠ 0) : i * x₂ + s * y₂ = 0 := by
  by_contra h2
  apply hd
  refine ⟨(i * x₁ + k * s * y₁) / (x₁ * y₁ * (i * x₂ + s * y₂)), ?_⟩
  have hx : x₁ ≠ 0 := left_ne_zero_of_mul h1
  have hy : y₁ ≠ 0 := right_ne_zero_of_mul h1
  rw [div_mul_div_comm, eq_div_iff (by simp [hx, hy, h2])]
  linear_combination -h

/-- The addition law is complete: the two denominators never vanish (Bernstein and Lange, for `d` a
non-square and `-1` a square). -/
theorem complete (hi : i ^ 2 = -1) (hd : ¬ IsSquare d) (h2 : (2 : K) ≠ 0)
    (e₁ : OnCurve d x₁ y₁) (e₂ : OnCurve d x₂ y₂) : (d * x₁ * x₂ * y₁ * y₂) ^ 2 ≠ 1 := by
  intro hk
  unfold OnCurve at e₁ e₂
  have hne : d * x₁ * x₂ * y₁ * y₂ ≠ 0 := by
    intro h0
    rw [h0] at hk
    norm_num at hk
  have hxy : x₁ * y₁ ≠ 0 := by
    intro h0
    apply hne
    linear_combination d * x₂ * y₂ * h0
  have hi0 : i ≠ 0 := by
    intro h0
    rw [h0] at hi
    have : (1 : K) = 0 := by linear_combination hi
    exact one_ne_zero this
  have key (s : K) (hs : s ^ 2 = 1) : i * x₂ + s * y₂ = 0 := by
    refine no_square_of (k := d * x₁ * x₂ * y₁ * y₂) hd s ?_ hxy
    linear_combination (x₁ ^ 2 - d * x₁ ^ 2 * y₁ ^ 2 * x₂ ^ 2) * hi + y₁ ^ 2 * s ^ 2 * hk
      + (y₁ ^ 2 - d * x₁ ^ 2 * y₁ ^ 2 * y₂ ^ 2) * hs + e₁ - d * x₁ ^ 2 * y₁ ^ 2 * e₂ - hk
  have a := key 1 (by ring)
  have b := key (-1) (by ring)
  have c : 2 * i * x₂ = 0 := by linear_combination a + b
  have hx : x₂ = 0 := by
    rcases mul_eq_zero.1 c with h | h
    · rcases mul_eq_zero.1 h with h | h
      · exact absurd h h2
      · exact absurd h hi0
    · exact h
  exact hne (by rw [hx]; ring)

/-- The sum of two points is on the curve, before division. -/
theorem closure_cert (e₁ : OnCurve d x₁ y₁) (e₂ : OnCurve d x₂ y₂) :
    -(x₁ * y₂ + x₂ * y₁) ^ 2 * (1 - d * x₁ * x₂ * y₁ * y₂) ^ 2
      + (y₁ * y₂ + x₁ * x₂) ^ 2 * (1 + d * x₁ * x₂ * y₁ * y₂) ^ 2
    = (1 + d * x₁ * x₂ * y₁ * y₂) ^ 2 * (1 - d * x₁ * x₂ * y₁ * y₂) ^ 2
      + d * (x₁ * y₂ + x₂ * y₁) ^ 2 * (y₁ * y₂ + x₁ * x₂) ^ 2 := by
  unfold OnCurve at e₁ e₂
  linear_combination
    (d ^ 3 * x₁ ^ 2 * y₁ ^ 2 * x₂ ^ 4 * y₂ ^ 4 - d ^ 2 * x₁ ^ 2 * x₂ ^ 4 * y₂ ^ 4 + d ^ 2 * y₁ ^
    2 * x₂ ^ 4 * y₂ ^ 4 - d ^ 2 * x₂ ^ 4 * y₂ ^ 4 - d * x₁ ^ 2 * x₂ ^ 4 * y₂ ^ 2 + d * x₁ ^ 2 *
    x₂ ^ 2 * y₂ ^ 4 + d * y₁ ^ 2 * x₂ ^ 4 * y₂ ^ 2 - d * y₁ ^ 2 * x₂ ^ 2 * y₂ ^ 4 - 2 * d * x₂ ^
    4 * y₂ ^ 4 - 2 * d * x₂ ^ 2 * y₂ ^ 2 - 2 * x₂ ^ 4 * y₂ ^ 2 + x₂ ^ 4 + 2 * x₂ ^ 2 * y₂ ^ 4 -
    4 * x₂ ^ 2 * y₂ ^ 2 + y₂ ^ 4) * e₁ +
    (d * x₁ ^ 4 * x₂ ^ 2 * y₂ ^ 2 + 2 * d * x₁ ^ 2 * x₂ ^ 2 * y₂ ^ 2 + d * y₁ ^ 4 * x₂ ^ 2 * y₂
    ^ 2 - 2 * d * y₁ ^ 2 * x₂ ^ 2 * y₂ ^ 2 + d * x₂ ^ 2 * y₂ ^ 2 + 2 * x₁ ^ 2 * x₂ ^ 2 * y₂ ^ 2
    - x₁ ^ 2 * x₂ ^ 2 + x₁ ^ 2 * y₂ ^ 2 - 2 * y₁ ^ 2 * x₂ ^ 2 * y₂ ^ 2 + y₁ ^ 2 * x₂ ^ 2 - y₁ ^
    2 * y₂ ^ 2 + 2 * x₂ ^ 2 * y₂ ^ 2 - x₂ ^ 2 + y₂ ^ 2 + 1) * e₂

/-- Associativity of the first coordinate, before division. -/
theorem assoc_cert_x (e₁ : OnCurve d x₁ y₁) (e₂ : OnCurve d x₂ y₂) (e₃ : OnCurve d x₃ y₃) :
    ((x₁ * y₂ + x₂ * y₁) * (1 - d * x₁ * x₂ * y₁ * y₂) * y₃
        + x₃ * ((y₁ * y₂ + x₁ * x₂) * (1 + d * x₁ * x₂ * y₁ * y₂)))
      * ((1 + d * x₂ * x₃ * y₂ * y₃) * (1 - d * x₂ * x₃ * y₂ * y₃)
        + d * x₁ * (x₂ * y₃ + x₃ * y₂) * y₁ * (y₂ * y₃ + x₂ * x₃))
    = (x₁ * ((y₂ * y₃ + x₂ * x₃) * (1 + d * x₂ * x₃ * y₂ * y₃))
        + (x₂ * y₃ + x₃ * y₂) * (1 - d * x₂ * x₃ * y₂ * y₃) * y₁)
      * ((1 + d * x₁ * x₂ * y₁ * y₂) * (1 - d * x₁ * x₂ * y₁ * y₂)
        + d * (x₁ * y₂ + x₂ * y₁) * x₃ * (y₁ * y₂ + x₁ * x₂) * y₃) := by
  unfold OnCurve at e₁ e₂ e₃
  linear_combination
    (- d ^ 2 * x₁ * x₂ ^ 4 * y₂ ^ 3 * x₃ ^ 2 * y₃ - d ^ 2 * x₁ * x₂ ^ 3 * y₂ ^ 4 * x₃ * y₃ ^ 2 +
    d ^ 2 * y₁ * x₂ ^ 4 * y₂ ^ 3 * x₃ * y₃ ^ 2 + d ^ 2 * y₁ * x₂ ^ 3 * y₂ ^ 4 * x₃ ^ 2 * y₃ - d
    * x₁ * x₂ ^ 4 * y₂ * x₃ ^ 2 * y₃ - d * x₁ * x₂ ^ 3 * y₂ ^ 2 * x₃ ^ 3 - d * x₁ * x₂ ^ 3 * y₂
    ^ 2 * x₃ + d * x₁ * x₂ ^ 2 * y₂ ^ 3 * y₃ ^ 3 - d * x₁ * x₂ ^ 2 * y₂ ^ 3 * y₃ + d * x₁ * x₂ *
    y₂ ^ 4 * x₃ * y₃ ^ 2 + d * y₁ * x₂ ^ 4 * y₂ * x₃ * y₃ ^ 2 + d * y₁ * x₂ ^ 3 * y₂ ^ 2 * y₃ ^
    3 - d * y₁ * x₂ ^ 3 * y₂ ^ 2 * y₃ - d * y₁ * x₂ ^ 2 * y₂ ^ 3 * x₃ ^ 3 - d * y₁ * x₂ ^ 2 * y₂
    ^ 3 * x₃ - d * y₁ * x₂ * y₂ ^ 4 * x₃ ^ 2 * y₃) * e₁ +
    (d ^ 2 * x₁ ^ 2 * y₁ * x₂ ^ 2 * y₂ * x₃ ^ 3 * y₃ ^ 2 - d ^ 2 * x₁ ^ 2 * y₁ * x₂ * y₂ ^ 2 *
    x₃ ^ 2 * y₃ ^ 3 - d ^ 2 * x₁ * y₁ ^ 2 * x₂ ^ 2 * y₂ * x₃ ^ 2 * y₃ ^ 3 + d ^ 2 * x₁ * y₁ ^ 2
    * x₂ * y₂ ^ 2 * x₃ ^ 3 * y₃ ^ 2 + d * x₁ ^ 3 * x₂ ^ 2 * y₂ * x₃ ^ 2 * y₃ + d * x₁ ^ 3 * x₂ *
    y₂ ^ 2 * x₃ * y₃ ^ 2 + d * x₁ ^ 3 * x₂ * x₃ ^ 3 * y₃ ^ 2 + d * x₁ ^ 3 * y₂ * x₃ ^ 2 * y₃ ^ 3
    - d * x₁ ^ 2 * y₁ * x₂ ^ 2 * y₂ * x₃ * y₃ ^ 2 - d * x₁ ^ 2 * y₁ * x₂ * y₂ ^ 2 * x₃ ^ 2 * y₃
    + d * x₁ ^ 2 * y₁ * x₂ * x₃ ^ 2 * y₃ ^ 3 + d * x₁ ^ 2 * y₁ * y₂ * x₃ ^ 3 * y₃ ^ 2 - d * x₁ *
    y₁ ^ 2 * x₂ ^ 2 * y₂ * x₃ ^ 2 * y₃ - d * x₁ * y₁ ^ 2 * x₂ * y₂ ^ 2 * x₃ * y₃ ^ 2 - d * x₁ *
    y₁ ^ 2 * x₂ * x₃ ^ 3 * y₃ ^ 2 - d * x₁ * y₁ ^ 2 * y₂ * x₃ ^ 2 * y₃ ^ 3 + d * x₁ * x₂ ^ 2 *
    y₂ * x₃ ^ 2 * y₃ + d * x₁ * x₂ * y₂ ^ 2 * x₃ * y₃ ^ 2 + d * x₁ * x₂ * x₃ ^ 3 * y₃ ^ 2 + d *
    x₁ * y₂ * x₃ ^ 2 * y₃ ^ 3 + d * y₁ ^ 3 * x₂ ^ 2 * y₂ * x₃ * y₃ ^ 2 + d * y₁ ^ 3 * x₂ * y₂ ^
    2 * x₃ ^ 2 * y₃ - d * y₁ ^ 3 * x₂ * x₃ ^ 2 * y₃ ^ 3 - d * y₁ ^ 3 * y₂ * x₃ ^ 3 * y₃ ^ 2 - d
    * y₁ * x₂ ^ 2 * y₂ * x₃ * y₃ ^ 2 - d * y₁ * x₂ * y₂ ^ 2 * x₃ ^ 2 * y₃ + d * y₁ * x₂ * x₃ ^ 2
    * y₃ ^ 3 + d * y₁ * y₂ * x₃ ^ 3 * y₃ ^ 2 + x₁ ^ 3 * x₂ * x₃ ^ 3 - x₁ ^ 3 * x₂ * x₃ * y₃ ^ 2
    + x₁ ^ 3 * x₂ * x₃ + x₁ ^ 3 * y₂ * x₃ ^ 2 * y₃ - x₁ ^ 3 * y₂ * y₃ ^ 3 + x₁ ^ 3 * y₂ * y₃ +
    x₁ ^ 2 * y₁ * x₂ * x₃ ^ 2 * y₃ - x₁ ^ 2 * y₁ * x₂ * y₃ ^ 3 + x₁ ^ 2 * y₁ * x₂ * y₃ + x₁ ^ 2
    * y₁ * y₂ * x₃ ^ 3 - x₁ ^ 2 * y₁ * y₂ * x₃ * y₃ ^ 2 + x₁ ^ 2 * y₁ * y₂ * x₃ - x₁ * y₁ ^ 2 *
    x₂ * x₃ ^ 3 + x₁ * y₁ ^ 2 * x₂ * x₃ * y₃ ^ 2 - x₁ * y₁ ^ 2 * x₂ * x₃ - x₁ * y₁ ^ 2 * y₂ * x₃
    ^ 2 * y₃ + x₁ * y₁ ^ 2 * y₂ * y₃ ^ 3 - x₁ * y₁ ^ 2 * y₂ * y₃ + x₁ * x₂ * x₃ ^ 3 - x₁ * x₂ *
    x₃ * y₃ ^ 2 + x₁ * x₂ * x₃ + x₁ * y₂ * x₃ ^ 2 * y₃ - x₁ * y₂ * y₃ ^ 3 + x₁ * y₂ * y₃ - y₁ ^
    3 * x₂ * x₃ ^ 2 * y₃ + y₁ ^ 3 * x₂ * y₃ ^ 3 - y₁ ^ 3 * x₂ * y₃ - y₁ ^ 3 * y₂ * x₃ ^ 3 + y₁ ^
    3 * y₂ * x₃ * y₃ ^ 2 - y₁ ^ 3 * y₂ * x₃ + y₁ * x₂ * x₃ ^ 2 * y₃ - y₁ * x₂ * y₃ ^ 3 + y₁ * x₂
    * y₃ + y₁ * y₂ * x₃ ^ 3 - y₁ * y₂ * x₃ * y₃ ^ 2 + y₁ * y₂ * x₃) * e₂ +
    (- d * x₁ ^ 2 * y₁ * x₂ ^ 2 * y₂ * x₃ + d * x₁ ^ 2 * y₁ * x₂ * y₂ ^ 2 * y₃ + d * x₁ * y₁ ^ 2
    * x₂ ^ 2 * y₂ * y₃ - d * x₁ * y₁ ^ 2 * x₂ * y₂ ^ 2 * x₃ - x₁ ^ 3 * x₂ ^ 3 * x₃ - x₁ ^ 3 * x₂
    ^ 2 * y₂ * y₃ + x₁ ^ 3 * x₂ * y₂ ^ 2 * x₃ - x₁ ^ 3 * x₂ * x₃ + x₁ ^ 3 * y₂ ^ 3 * y₃ - x₁ ^ 3
    * y₂ * y₃ - x₁ ^ 2 * y₁ * x₂ ^ 3 * y₃ - x₁ ^ 2 * y₁ * x₂ ^ 2 * y₂ * x₃ + x₁ ^ 2 * y₁ * x₂ *
    y₂ ^ 2 * y₃ - x₁ ^ 2 * y₁ * x₂ * y₃ + x₁ ^ 2 * y₁ * y₂ ^ 3 * x₃ - x₁ ^ 2 * y₁ * y₂ * x₃ + x₁
    * y₁ ^ 2 * x₂ ^ 3 * x₃ + x₁ * y₁ ^ 2 * x₂ ^ 2 * y₂ * y₃ - x₁ * y₁ ^ 2 * x₂ * y₂ ^ 2 * x₃ +
    x₁ * y₁ ^ 2 * x₂ * x₃ - x₁ * y₁ ^ 2 * y₂ ^ 3 * y₃ + x₁ * y₁ ^ 2 * y₂ * y₃ - x₁ * x₂ ^ 3 * x₃
    - x₁ * x₂ ^ 2 * y₂ * y₃ + x₁ * x₂ * y₂ ^ 2 * x₃ - x₁ * x₂ * x₃ + x₁ * y₂ ^ 3 * y₃ - x₁ * y₂
    * y₃ + y₁ ^ 3 * x₂ ^ 3 * y₃ + y₁ ^ 3 * x₂ ^ 2 * y₂ * x₃ - y₁ ^ 3 * x₂ * y₂ ^ 2 * y₃ + y₁ ^ 3
    * x₂ * y₃ - y₁ ^ 3 * y₂ ^ 3 * x₃ + y₁ ^ 3 * y₂ * x₃ - y₁ * x₂ ^ 3 * y₃ - y₁ * x₂ ^ 2 * y₂ *
    x₃ + y₁ * x₂ * y₂ ^ 2 * y₃ - y₁ * x₂ * y₃ + y₁ * y₂ ^ 3 * x₃ - y₁ * y₂ * x₃) * e₃

/-- Associativity of the second coordinate, before division. -/
theorem assoc_cert_y (e₁ : OnCurve d x₁ y₁) (e₂ : OnCurve d x₂ y₂) (e₃ : OnCurve d x₃ y₃) :
    ((y₁ * y₂ + x₁ * x₂) * (1 + d * x₁ * x₂ * y₁ * y₂) * y₃
        + (x₁ * y₂ + x₂ * y₁) * (1 - d * x₁ * x₂ * y₁ * y₂) * x₃)
      * ((1 + d * x₂ * x₃ * y₂ * y₃) * (1 - d * x₂ * x₃ * y₂ * y₃)
        - d * x₁ * (x₂ * y₃ + x₃ * y₂) * y₁ * (y₂ * y₃ + x₂ * x₃))
    = (y₁ * ((y₂ * y₃ + x₂ * x₃) * (1 + d * x₂ * x₃ * y₂ * y₃))
        + x₁ * ((x₂ * y₃ + x₃ * y₂) * (1 - d * x₂ * x₃ * y₂ * y₃)))
      * ((1 + d * x₁ * x₂ * y₁ * y₂) * (1 - d * x₁ * x₂ * y₁ * y₂)
        - d * (x₁ * y₂ + x₂ * y₁) * x₃ * (y₁ * y₂ + x₁ * x₂) * y₃) := by
  unfold OnCurve at e₁ e₂ e₃
  linear_combination
    (d ^ 2 * x₁ * x₂ ^ 4 * y₂ ^ 3 * x₃ * y₃ ^ 2 + d ^ 2 * x₁ * x₂ ^ 3 * y₂ ^ 4 * x₃ ^ 2 * y₃ - d
    ^ 2 * y₁ * x₂ ^ 4 * y₂ ^ 3 * x₃ ^ 2 * y₃ - d ^ 2 * y₁ * x₂ ^ 3 * y₂ ^ 4 * x₃ * y₃ ^ 2 + d *
    x₁ * x₂ ^ 4 * y₂ * x₃ * y₃ ^ 2 + d * x₁ * x₂ ^ 3 * y₂ ^ 2 * y₃ ^ 3 - d * x₁ * x₂ ^ 3 * y₂ ^
    2 * y₃ - d * x₁ * x₂ ^ 2 * y₂ ^ 3 * x₃ ^ 3 - d * x₁ * x₂ ^ 2 * y₂ ^ 3 * x₃ - d * x₁ * x₂ *
    y₂ ^ 4 * x₃ ^ 2 * y₃ - d * y₁ * x₂ ^ 4 * y₂ * x₃ ^ 2 * y₃ - d * y₁ * x₂ ^ 3 * y₂ ^ 2 * x₃ ^
    3 - d * y₁ * x₂ ^ 3 * y₂ ^ 2 * x₃ + d * y₁ * x₂ ^ 2 * y₂ ^ 3 * y₃ ^ 3 - d * y₁ * x₂ ^ 2 * y₂
    ^ 3 * y₃ + d * y₁ * x₂ * y₂ ^ 4 * x₃ * y₃ ^ 2) * e₁ +
    (d ^ 2 * x₁ ^ 2 * y₁ * x₂ ^ 2 * y₂ * x₃ ^ 2 * y₃ ^ 3 - d ^ 2 * x₁ ^ 2 * y₁ * x₂ * y₂ ^ 2 *
    x₃ ^ 3 * y₃ ^ 2 - d ^ 2 * x₁ * y₁ ^ 2 * x₂ ^ 2 * y₂ * x₃ ^ 3 * y₃ ^ 2 + d ^ 2 * x₁ * y₁ ^ 2
    * x₂ * y₂ ^ 2 * x₃ ^ 2 * y₃ ^ 3 - d * x₁ ^ 3 * x₂ ^ 2 * y₂ * x₃ * y₃ ^ 2 - d * x₁ ^ 3 * x₂ *
    y₂ ^ 2 * x₃ ^ 2 * y₃ + d * x₁ ^ 3 * x₂ * x₃ ^ 2 * y₃ ^ 3 + d * x₁ ^ 3 * y₂ * x₃ ^ 3 * y₃ ^ 2
    + d * x₁ ^ 2 * y₁ * x₂ ^ 2 * y₂ * x₃ ^ 2 * y₃ + d * x₁ ^ 2 * y₁ * x₂ * y₂ ^ 2 * x₃ * y₃ ^ 2
    + d * x₁ ^ 2 * y₁ * x₂ * x₃ ^ 3 * y₃ ^ 2 + d * x₁ ^ 2 * y₁ * y₂ * x₃ ^ 2 * y₃ ^ 3 + d * x₁ *
    y₁ ^ 2 * x₂ ^ 2 * y₂ * x₃ * y₃ ^ 2 + d * x₁ * y₁ ^ 2 * x₂ * y₂ ^ 2 * x₃ ^ 2 * y₃ - d * x₁ *
    y₁ ^ 2 * x₂ * x₃ ^ 2 * y₃ ^ 3 - d * x₁ * y₁ ^ 2 * y₂ * x₃ ^ 3 * y₃ ^ 2 - d * x₁ * x₂ ^ 2 *
    y₂ * x₃ * y₃ ^ 2 - d * x₁ * x₂ * y₂ ^ 2 * x₃ ^ 2 * y₃ + d * x₁ * x₂ * x₃ ^ 2 * y₃ ^ 3 + d *
    x₁ * y₂ * x₃ ^ 3 * y₃ ^ 2 - d * y₁ ^ 3 * x₂ ^ 2 * y₂ * x₃ ^ 2 * y₃ - d * y₁ ^ 3 * x₂ * y₂ ^
    2 * x₃ * y₃ ^ 2 - d * y₁ ^ 3 * x₂ * x₃ ^ 3 * y₃ ^ 2 - d * y₁ ^ 3 * y₂ * x₃ ^ 2 * y₃ ^ 3 + d
    * y₁ * x₂ ^ 2 * y₂ * x₃ ^ 2 * y₃ + d * y₁ * x₂ * y₂ ^ 2 * x₃ * y₃ ^ 2 + d * y₁ * x₂ * x₃ ^ 3
    * y₃ ^ 2 + d * y₁ * y₂ * x₃ ^ 2 * y₃ ^ 3 + x₁ ^ 3 * x₂ * x₃ ^ 2 * y₃ - x₁ ^ 3 * x₂ * y₃ ^ 3
    + x₁ ^ 3 * x₂ * y₃ + x₁ ^ 3 * y₂ * x₃ ^ 3 - x₁ ^ 3 * y₂ * x₃ * y₃ ^ 2 + x₁ ^ 3 * y₂ * x₃ +
    x₁ ^ 2 * y₁ * x₂ * x₃ ^ 3 - x₁ ^ 2 * y₁ * x₂ * x₃ * y₃ ^ 2 + x₁ ^ 2 * y₁ * x₂ * x₃ + x₁ ^ 2
    * y₁ * y₂ * x₃ ^ 2 * y₃ - x₁ ^ 2 * y₁ * y₂ * y₃ ^ 3 + x₁ ^ 2 * y₁ * y₂ * y₃ - x₁ * y₁ ^ 2 *
    x₂ * x₃ ^ 2 * y₃ + x₁ * y₁ ^ 2 * x₂ * y₃ ^ 3 - x₁ * y₁ ^ 2 * x₂ * y₃ - x₁ * y₁ ^ 2 * y₂ * x₃
    ^ 3 + x₁ * y₁ ^ 2 * y₂ * x₃ * y₃ ^ 2 - x₁ * y₁ ^ 2 * y₂ * x₃ + x₁ * x₂ * x₃ ^ 2 * y₃ - x₁ *
    x₂ * y₃ ^ 3 + x₁ * x₂ * y₃ + x₁ * y₂ * x₃ ^ 3 - x₁ * y₂ * x₃ * y₃ ^ 2 + x₁ * y₂ * x₃ - y₁ ^
    3 * x₂ * x₃ ^ 3 + y₁ ^ 3 * x₂ * x₃ * y₃ ^ 2 - y₁ ^ 3 * x₂ * x₃ - y₁ ^ 3 * y₂ * x₃ ^ 2 * y₃ +
    y₁ ^ 3 * y₂ * y₃ ^ 3 - y₁ ^ 3 * y₂ * y₃ + y₁ * x₂ * x₃ ^ 3 - y₁ * x₂ * x₃ * y₃ ^ 2 + y₁ * x₂
    * x₃ + y₁ * y₂ * x₃ ^ 2 * y₃ - y₁ * y₂ * y₃ ^ 3 + y₁ * y₂ * y₃) * e₂ +
    (- d * x₁ ^ 2 * y₁ * x₂ ^ 2 * y₂ * y₃ + d * x₁ ^ 2 * y₁ * x₂ * y₂ ^ 2 * x₃ + d * x₁ * y₁ ^ 2
    * x₂ ^ 2 * y₂ * x₃ - d * x₁ * y₁ ^ 2 * x₂ * y₂ ^ 2 * y₃ - x₁ ^ 3 * x₂ ^ 3 * y₃ - x₁ ^ 3 * x₂
    ^ 2 * y₂ * x₃ + x₁ ^ 3 * x₂ * y₂ ^ 2 * y₃ - x₁ ^ 3 * x₂ * y₃ + x₁ ^ 3 * y₂ ^ 3 * x₃ - x₁ ^ 3
    * y₂ * x₃ - x₁ ^ 2 * y₁ * x₂ ^ 3 * x₃ - x₁ ^ 2 * y₁ * x₂ ^ 2 * y₂ * y₃ + x₁ ^ 2 * y₁ * x₂ *
    y₂ ^ 2 * x₃ - x₁ ^ 2 * y₁ * x₂ * x₃ + x₁ ^ 2 * y₁ * y₂ ^ 3 * y₃ - x₁ ^ 2 * y₁ * y₂ * y₃ + x₁
    * y₁ ^ 2 * x₂ ^ 3 * y₃ + x₁ * y₁ ^ 2 * x₂ ^ 2 * y₂ * x₃ - x₁ * y₁ ^ 2 * x₂ * y₂ ^ 2 * y₃ +
    x₁ * y₁ ^ 2 * x₂ * y₃ - x₁ * y₁ ^ 2 * y₂ ^ 3 * x₃ + x₁ * y₁ ^ 2 * y₂ * x₃ - x₁ * x₂ ^ 3 * y₃
    - x₁ * x₂ ^ 2 * y₂ * x₃ + x₁ * x₂ * y₂ ^ 2 * y₃ - x₁ * x₂ * y₃ + x₁ * y₂ ^ 3 * x₃ - x₁ * y₂
    * x₃ + y₁ ^ 3 * x₂ ^ 3 * x₃ + y₁ ^ 3 * x₂ ^ 2 * y₂ * y₃ - y₁ ^ 3 * x₂ * y₂ ^ 2 * x₃ + y₁ ^ 3
    * x₂ * x₃ - y₁ ^ 3 * y₂ ^ 3 * y₃ + y₁ ^ 3 * y₂ * y₃ - y₁ * x₂ ^ 3 * x₃ - y₁ * x₂ ^ 2 * y₂ *
    y₃ + y₁ * x₂ * y₂ ^ 2 * x₃ - y₁ * x₂ * x₃ + y₁ * y₂ ^ 3 * y₃ - y₁ * y₂ * y₃) * e₃

end Generic

/-! ## The group -/

/-- A point of the curve. -/
@[ext] structure Ed where
  x : Fq
  y : Fq
  on : OnCurve d x y

namespace Ed

theorem den_pos (P Q : Ed) : 1 + d * P.x * Q.x * P.y * Q.y ≠ 0 := by
  intro h
  apply complete i_sq d_not_square two_ne P.on Q.on
  linear_combination (d * P.x * Q.x * P.y * Q.y - 1) * h

theorem den_neg (P Q : Ed) : 1 - d * P.x * Q.x * P.y * Q.y ≠ 0 := by
  intro h
  apply complete i_sq d_not_square two_ne P.on Q.on
  linear_combination -(d * P.x * Q.x * P.y * Q.y + 1) * h

instance : Zero Ed := ⟨⟨0, 1, by unfold OnCurve; ring⟩⟩

instance : Neg Ed := ⟨fun P => ⟨-P.x, P.y, by have := P.on; unfold OnCurve at *; linear_combination this⟩⟩

instance : Add Ed := ⟨fun P Q =>
  ⟨(P.x * Q.y + Q.x * P.y) / (1 + d * P.x * Q.x * P.y * Q.y),
    (P.y * Q.y + P.x * Q.x) / (1 - d * P.x * Q.x * P.y * Q.y), by
    have c := closure_cert P.on Q.on
    have h1 := den_pos P Q
    have h2 := den_neg P Q
    unfold OnCurve
    generalize 1 + d * P.x * Q.x * P.y * Q.y = D at *
    generalize 1 - d * P.x * Q.x * P.y * Q.y = E at *
    generalize P.x * Q.y + Q.x * P.y = A at *
    generalize P.y * Q.y + P.x * Q.x = B at *
    field_simp
    linear_combination c⟩⟩

@[simp] theorem zero_x : (0 : Ed).x = 0 := rfl
@[simp] theorem zero_y : (0 : Ed).y = 1 := rfl
@[simp] theorem neg_x (P : Ed) : (-P).x = -P.x := rfl
@[simp] theorem neg_y (P : Ed) : (-P).y = P.y := rfl
theorem add_x (P Q : Ed) :
    (P + Q).x = (P.x * Q.y + Q.x * P.y) / (1 + d * P.x * Q.x * P.y * Q.y) := rfl
theorem add_y (P Q : Ed) :
    (P + Q).y = (P.y * Q.y + P.x * Q.x) / (1 - d * P.x * Q.x * P.y * Q.y) := rfl

theorem add_comm' (P Q : Ed) : P + Q = Q + P := by
  ext
  · rw [add_x, add_x]
    congr 1 <;> ring
  · rw [add_y, add_y]
    congr 1 <;> ring

theorem zero_add' (P : Ed) : 0 + P = P := by
  ext
  · simp [add_x]
  · simp [add_y]

theorem neg_add' (P : Ed) : -P + P = 0 := by
  ext
  · rw [add_x, neg_x, neg_y, zero_x]
    rw [div_eq_zero_iff]
    left; ring
  · have h := den_neg (-P) P
    have e := P.on
    unfold OnCurve at e
    rw [add_y]
    rw [neg_x, neg_y] at *
    rw [zero_y, div_eq_one_iff_eq h]
    linear_combination e

theorem add_assoc' (P Q R : Ed) : P + Q + R = P + (Q + R) := by
  have cx := assoc_cert_x P.on Q.on R.on
  have cy := assoc_cert_y P.on Q.on R.on
  have h1 := den_pos P Q
  have h2 := den_neg P Q
  have h3 := den_pos Q R
  have h4 := den_neg Q R
  have h5 := den_pos (P + Q) R
  have h6 := den_neg (P + Q) R
  have h7 := den_pos P (Q + R)
  have h8 := den_neg P (Q + R)
  ext
  · rw [add_x (P + Q), add_x P (Q + R), div_eq_div_iff h5 h7]
    rw [add_x P Q, add_y P Q, add_x Q R, add_y Q R]
    generalize 1 + d * P.x * Q.x * P.y * Q.y = D at *
    generalize 1 - d * P.x * Q.x * P.y * Q.y = E at *
    generalize 1 + d * Q.x * R.x * Q.y * R.y = D' at *
    generalize 1 - d * Q.x * R.x * Q.y * R.y = E' at *
    generalize P.x * Q.y + Q.x * P.y = A at *
    generalize P.y * Q.y + P.x * Q.x = B at *
    generalize Q.x * R.y + R.x * Q.y = A' at *
    generalize Q.y * R.y + Q.x * R.x = B' at *
    field_simp
    linear_combination cx
  · rw [add_y (P + Q), add_y P (Q + R), div_eq_div_iff h6 h8]
    rw [add_x P Q, add_y P Q, add_x Q R, add_y Q R]
    generalize 1 + d * P.x * Q.x * P.y * Q.y = D at *
    generalize 1 - d * P.x * Q.x * P.y * Q.y = E at *
    generalize 1 + d * Q.x * R.x * Q.y * R.y = D' at *
    generalize 1 - d * Q.x * R.x * Q.y * R.y = E' at *
    generalize P.x * Q.y + Q.x * P.y = A at *
    generalize P.y * Q.y + P.x * Q.x = B at *
    generalize Q.x * R.y + R.x * Q.y = A' at *
    generalize Q.y * R.y + Q.x * R.x = B' at *
    field_simp
    linear_combination cy

instance : AddCommGroup Ed where
  add_assoc := add_assoc'
  zero_add := zero_add'
  add_zero P := by rw [add_comm', zero_add']
  add_comm := add_comm'
  neg_add_cancel := neg_add'
  nsmul := nsmulRec
  zsmul := zsmulRec

end Ed

end Verif.Curve
