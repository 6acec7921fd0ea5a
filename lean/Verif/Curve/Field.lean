import Verif.Prime
import Mathlib.FieldTheory.Finite.Basic
import Mathlib.NumberTheory.LegendreSymbol.Basic

/-!
# The field of curve25519

`q = 2^255 - 19` is prime; which constants are squares is decided by Euler's criterion, with powers
evaluated by the kernel.
-/

namespace Verif.Curve

open _root_.Verif.Prime

/-- The order of the coordinate field. -/
def q : ℕ := 2 ^ 255 - 19

/-- Lucas' criterion with a list of the prime factors of `n - 1`. -/
theorem lucas (n a : ℕ) (fs : List ℕ) (hfs : ∀ f ∈ fs, f.Prime) (hn : n = fs.prod + 1)
    (hb : n < 2 ^ 256) (h1 : powMod a (n - 1) n = 1)
    (h2 : ∀ f ∈ fs, powMod a ((n - 1) / f) n < n ∧ powMod a ((n - 1) / f) n ≠ 1) : n.Prime := by
  have hpos : 0 < fs.prod := by
    rcases Nat.eq_zero_or_pos fs.prod with h | h
    · rw [List.prod_eq_zero_iff] at h
      exact absurd (hfs 0 h) (by norm_num)
    · exact h
  refine lucas_primality n ((a : ℕ) : ZMod n) ?_ ?_
  · rw [← powMod_cast a (n - 1) n (by omega), h1]
    simp
  · intro r hr hd
    have hd' : r ∣ fs.prod := by rwa [hn, Nat.add_sub_cancel] at hd
    obtain ⟨f, hf, hrf⟩ := (Prime.dvd_prod_iff hr.prime).1 hd'
    rw [(Nat.prime_dvd_prime_iff_eq hr (hfs f hf)).1 hrf]
    obtain ⟨h3, h4⟩ := h2 f hf
    rw [← powMod_cast a _ n (lt_of_le_of_lt (Nat.div_le_self _ _) (by omega))]
    intro h
    apply h4
    have h' : ((powMod a ((n - 1) / f) n : ℕ) : ZMod n) = ((1 : ℕ) : ZMod n) := by
      push_cast; exact h
    rw [ZMod.natCast_eq_natCast_iff] at h'
    exact Nat.ModEq.eq_of_lt_of_lt h' h3 (by omega)

theorem prime1 : Nat.Prime 31757755568855353 :=
  lucas _ 10 [2, 2, 2, 3, 31, 107, 223, 4153, 430751] (by norm_num) (by norm_num) (by norm_num)
    (by decide +kernel) (by decide +kernel)

theorem prime2 : Nat.Prime 2773320623 :=
  lucas _ 5 [2, 2437, 569003] (by norm_num) (by norm_num) (by norm_num)
    (by decide +kernel) (by decide +kernel)

theorem prime3 : Nat.Prime 72106336199 :=
  lucas _ 7 [2, 13, 2773320623]
    (by
      simp only [List.mem_cons, List.not_mem_nil, or_false, forall_eq_or_imp, forall_eq]
      exact ⟨by norm_num, by norm_num, prime2⟩)
    (by norm_num) (by norm_num) (by decide +kernel) (by decide +kernel)

theorem prime4 : Nat.Prime 1919519569386763 :=
  lucas _ 2 [2, 3, 7, 19, 47, 47, 127, 8574133] (by norm_num) (by norm_num) (by norm_num)
    (by decide +kernel) (by decide +kernel)

theorem prime5 : Nat.Prime 75445702479781427272750846543864801 :=
  lucas _ 7 [2, 2, 2, 2, 2, 3, 3, 5, 5, 75707, 72106336199, 1919519569386763]
    (by
      simp only [List.mem_cons, List.not_mem_nil, or_false, forall_eq_or_imp, forall_eq]
      refine ⟨?_, ?_, ?_, ?_, ?_, ?_, ?_, ?_, ?_, ?_, prime3, prime4⟩ <;> norm_num)
    (by norm_num) (by norm_num) (by decide +kernel) (by decide +kernel)

theorem prime6 :
    Nat.Prime 74058212732561358302231226437062788676166966415465897661863160754340907 :=
  lucas _ 2 [2, 3, 353, 57467, 132049, 1923133, 31757755568855353,
      75445702479781427272750846543864801]
    (by
      simp only [List.mem_cons, List.not_mem_nil, or_false, forall_eq_or_imp, forall_eq]
      refine ⟨?_, ?_, ?_, ?_, ?_, ?_, prime1, prime5⟩ <;> norm_num)
    (by norm_num) (by norm_num) (by decide +kernel) (by decide +kernel)

theorem q_prime : q.Prime :=
  lucas _ 2 [2, 2, 3, 65147,
      74058212732561358302231226437062788676166966415465897661863160754340907]
    (by
      simp only [List.mem_cons, List.not_mem_nil, or_false, forall_eq_or_imp, forall_eq]
      refine ⟨?_, ?_, ?_, ?_, prime6⟩ <;> norm_num)
    (by norm_num [q]) (by norm_num [q]) (by decide +kernel) (by decide +kernel)

instance : Fact q.Prime := ⟨q_prime⟩

instance : NeZero q := ⟨q_prime.pos.ne'⟩

/-- The coordinate field. -/
abbrev Fq := ZMod q

/-- The curve constant `-121665/121666`. -/
def dNat : ℕ := 37095705934669439343138083508754565189542113879843219016388785533085940283555

/-- A square root of `-1`. -/
def iNat : ℕ := 19681161376707505956807079304988542015446066515923890162744021073123829784752

/-- `d` and `i` as field elements. -/
def d : Fq := (dNat : Fq)
@[inherit_doc d] def i : Fq := (iNat : Fq)

theorem cast_eq {a b : ℕ} (h : a % q = b % q) : (a : Fq) = (b : Fq) :=
  (ZMod.natCast_eq_natCast_iff _ _ _).2 h

theorem cast_ne {a b : ℕ} (h : a % q ≠ b % q) : (a : Fq) ≠ (b : Fq) :=
  fun e => h ((ZMod.natCast_eq_natCast_iff _ _ _).1 e)

theorem d_eq : d * 121666 = -121665 := by
  have h : ((dNat * 121666 + 121665 : ℕ) : Fq) = ((0 : ℕ) : Fq) := cast_eq (by decide +kernel)
  push_cast at h
  rw [d]
  linear_combination h

theorem i_sq : i ^ 2 = -1 := by
  have h : ((iNat * iNat + 1 : ℕ) : Fq) = ((0 : ℕ) : Fq) := cast_eq (by decide +kernel)
  push_cast at h
  rw [i]
  linear_combination h

theorem two_ne : (2 : Fq) ≠ 0 := by
  have h : ((2 : ℕ) : Fq) ≠ ((0 : ℕ) : Fq) := cast_ne (by decide +kernel)
  simpa using h

/-- Euler's criterion, evaluated. -/
theorem not_square {a : ℕ} (h : powMod a (q / 2) q = q - 1) : ¬ IsSquare (a : Fq) := by
  have e : (a : Fq) ^ (q / 2) = -1 := by
    rw [← powMod_cast a (q / 2) q (by norm_num [q]), h, Nat.cast_sub (by norm_num [q])]
    simp
  have hm : (-1 : Fq) ≠ 1 := by
    intro h1
    apply two_ne
    linear_combination -h1
  have h0 : (a : Fq) ≠ 0 := by
    intro h0
    rw [h0, zero_pow (by norm_num [q])] at e
    have : (1 : Fq) = 0 := by linear_combination e
    exact one_ne_zero this
  rw [ZMod.euler_criterion q h0, e]
  exact hm

theorem d_not_square : ¬ IsSquare d := not_square (by decide +kernel)

theorem d_ne : d ≠ 0 := by
  intro h
  exact d_not_square (h ▸ IsSquare.zero)

theorem i_ne : i ≠ 0 := by
  intro h
  have := i_sq
  rw [h] at this
  have h1 : (1 : Fq) = 0 := by linear_combination this
  exact one_ne_zero h1

end Verif.Curve
