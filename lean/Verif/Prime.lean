import Mathlib.NumberTheory.LucasPrimality
import Mathlib.FieldTheory.Finite.Basic
import Mathlib.Tactic.NormNum.Prime

/-!
# The order of the Ristretto group is prime

`ell = 2^252 + 27742317777372353535851937790883648493` is the modulus of curve25519-dalek's
`Scalar` type. Its primality is used all over the protocol (division by challenges, hiding,
uniqueness), so it is proved here instead of being assumed. The certificate is a chain of
Pocklington steps ending in one Lucas step; modular powers are evaluated by the kernel.
-/

namespace Verif

/-- The order of the Ristretto group (curve25519-dalek `constants::BASEPOINT_ORDER`, not in /repo). -/
def ell : ℕ := 2 ^ 252 + 27742317777372353535851937790883648493

namespace Prime

/-- Square-and-multiply modular power; `fuel` bounds the number of bits of the exponent. -/
def powModAux : ℕ → ℕ → ℕ → ℕ → ℕ → ℕ
  | 0, _, _, _, acc => acc
  | fuel + 1, a, e, n, acc =>
    powModAux fuel (a * a % n) (e / 2) n (if e % 2 = 1 then acc * a % n else acc)

theorem powModAux_cast (n : ℕ) : ∀ (fuel a e acc : ℕ), e < 2 ^ fuel →
    ((powModAux fuel a e n acc : ℕ) : ZMod n) = (acc : ZMod n) * (a : ZMod n) ^ e
  | 0, a, e, acc, h => by
    have : e = 0 := by simpa using h
    subst this
    simp [powModAux]
  | fuel + 1, a, e, acc, h => by
    have h2 : e / 2 < 2 ^ fuel := by
      rw [Nat.div_lt_iff_lt_mul (by norm_num)]
      rw [pow_succ] at h
      exact h
    rw [powModAux, powModAux_cast n fuel _ _ _ h2]
    have hsq : ((a * a % n : ℕ) : ZMod n) = (a : ZMod n) ^ 2 := by
      simp [ZMod.natCast_mod, sq]
    rw [hsq, ← pow_mul]
    by_cases hodd : e % 2 = 1
    · rw [if_pos hodd]
      have he : e = 2 * (e / 2) + 1 := by omega
      conv_rhs => rw [he, pow_succ]
      simp only [ZMod.natCast_mod, Nat.cast_mul]
      ring
    · rw [if_neg hodd]
      have he : e = 2 * (e / 2) := by omega
      conv_rhs => rw [he]

/-- `a ^ e mod n`. -/
def powMod (a e n : ℕ) : ℕ := powModAux 256 a e n 1

theorem powMod_cast (a e n : ℕ) (h : e < 2 ^ 256) :
    ((powMod a e n : ℕ) : ZMod n) = (a : ZMod n) ^ e := by
  rw [powMod, powModAux_cast n 256 a e 1 h]; simp

/-- Pocklington's criterion with a single large prime factor `q` of `n - 1`. -/
theorem pocklington (n q r a : ℕ) (hq : q.Prime) (hn : n = q * r + 1) (hqr : r ≤ q) (hr : 0 < r)
    (hbound : n < 2 ^ 256) (h1 : powMod a (n - 1) n = 1)
    (h2 : Nat.gcd (powMod a r n + (n - 1)) n = 1) : n.Prime := by
  have hq2 := hq.two_le
  have hn1 : 1 < n := by
    rw [hn]
    have : 0 < q * r := by positivity
    omega
  by_contra hnp
  obtain ⟨p, hp, hpn, hpsq⟩ : ∃ p, p.Prime ∧ p ∣ n ∧ p * p ≤ n :=
    ⟨n.minFac, Nat.minFac_prime (by omega), Nat.minFac_dvd n, by
      have := Nat.minFac_sq_le_self (by omega) hnp
      rwa [sq] at this⟩
  have : Fact p.Prime := ⟨hp⟩
  have : Fact q.Prime := ⟨hq⟩
  have cast_hom : ∀ k m : ℕ, (k : ZMod n) = (m : ZMod n) → (k : ZMod p) = (m : ZMod p) := by
    intro k m h
    rw [ZMod.natCast_eq_natCast_iff] at h ⊢
    exact h.of_dvd hpn
  -- in `ZMod p`, `a ^ (n-1) = 1` and `a ^ r ≠ 1`
  have e1 : ((a : ZMod p)) ^ (n - 1) = 1 := by
    have := powMod_cast a (n - 1) n (by omega)
    rw [h1] at this
    have := cast_hom 1 (a ^ (n - 1)) (by push_cast at this ⊢; exact this)
    push_cast at this
    exact this.symm
  have hrn : r < n := by rw [hn]; nlinarith
  have e2 : ((a : ZMod p)) ^ r ≠ 1 := by
    intro hcon
    have h3 := powMod_cast a r n (by omega)
    have h4 := cast_hom (powMod a r n) (a ^ r) (by push_cast; exact h3)
    push_cast at h4
    rw [hcon] at h4
    have : ((powMod a r n + (n - 1) : ℕ) : ZMod p) = 0 := by
      have hnz : ((n : ℕ) : ZMod p) = 0 := (ZMod.natCast_eq_zero_iff n p).2 hpn
      have : ((1 + (n - 1) : ℕ) : ZMod p) = 0 := by
        rw [show 1 + (n - 1) = n by omega]; exact hnz
      push_cast at this ⊢
      rw [h4]; exact this
    have hdvd := (ZMod.natCast_eq_zero_iff _ p).1 this
    have := Nat.dvd_gcd hdvd hpn
    rw [h2] at this
    exact hp.one_lt.ne' (Nat.dvd_one.1 this)
  -- so `q` divides `p - 1`
  have hord : orderOf ((a : ZMod p) ^ r) = q := by
    apply orderOf_eq_prime
    · rw [← pow_mul, mul_comm, show q * r = n - 1 by omega]; exact e1
    · exact e2
  have ha0 : (a : ZMod p) ≠ 0 := by
    intro h0
    rw [h0, zero_pow (by omega)] at e1
    exact zero_ne_one e1
  have hdvd : q ∣ p - 1 := by
    rw [← hord]
    apply orderOf_dvd_of_pow_eq_one
    rw [← pow_mul, mul_comm, pow_mul, ZMod.pow_card_sub_one_eq_one ha0, one_pow]
  have hp2 := hp.two_le
  have hle : q ≤ p - 1 := Nat.le_of_dvd (by omega) hdvd
  have : q + 1 ≤ p := by omega
  nlinarith

theorem prime_p1 : Nat.Prime 1257559732178653 := by
  have hfac : 1257559732178653 - 1 = 2 ^ 2 * 3 * 7 * 23 * 531581 * 1224481 := by norm_num
  have key : ∀ e : ℕ, e < 2 ^ 256 → ∀ v : ℕ, powMod 2 e 1257559732178653 = v →
      ((2 : ℕ) : ZMod 1257559732178653) ^ e = (v : ZMod 1257559732178653) := by
    intro e he v hv
    rw [← powMod_cast 2 e _ he, hv]
  have ne1 : ∀ v : ℕ, v < 1257559732178653 → v ≠ 1 → ((v : ℕ) : ZMod 1257559732178653) ≠ 1 := by
    intro v hv hv1 h
    have h' : ((v : ℕ) : ZMod 1257559732178653) = ((1 : ℕ) : ZMod 1257559732178653) := by
      push_cast; exact h
    rw [ZMod.natCast_eq_natCast_iff] at h'
    have := Nat.ModEq.eq_of_lt_of_lt h' hv (by norm_num)
    exact hv1 this
  have neq : ∀ e : ℕ, e < 2 ^ 256 →
      (powMod 2 e 1257559732178653 < 1257559732178653 ∧ powMod 2 e 1257559732178653 ≠ 1) →
      ((2 : ℕ) : ZMod 1257559732178653) ^ e ≠ 1 := by
    intro e he h
    rw [key e he _ rfl]
    exact ne1 _ h.1 h.2
  refine lucas_primality _ ((2 : ℕ) : ZMod 1257559732178653) ?_ ?_
  · rw [key _ (by norm_num) 1 (by decide +kernel)]; simp
  · intro q hq hdvd
    rw [hfac] at hdvd
    have hcases : q = 2 ∨ q = 3 ∨ q = 7 ∨ q = 23 ∨ q = 531581 ∨ q = 1224481 := by
      have p2 : Nat.Prime 531581 := by norm_num
      have p3 : Nat.Prime 1224481 := by norm_num
      rcases (Nat.Prime.dvd_mul hq).1 hdvd with h | h
      · rcases (Nat.Prime.dvd_mul hq).1 h with h | h
        · rcases (Nat.Prime.dvd_mul hq).1 h with h | h
          · rcases (Nat.Prime.dvd_mul hq).1 h with h | h
            · rcases (Nat.Prime.dvd_mul hq).1 h with h | h
              · exact Or.inl ((Nat.prime_dvd_prime_iff_eq hq Nat.prime_two).1
                  (hq.dvd_of_dvd_pow h))
              · exact Or.inr (Or.inl ((Nat.prime_dvd_prime_iff_eq hq Nat.prime_three).1 h))
            · exact Or.inr (Or.inr (Or.inl ((Nat.prime_dvd_prime_iff_eq hq (by norm_num)).1 h)))
          · exact Or.inr (Or.inr (Or.inr (Or.inl
              ((Nat.prime_dvd_prime_iff_eq hq (by norm_num)).1 h))))
        · exact Or.inr (Or.inr (Or.inr (Or.inr (Or.inl
              ((Nat.prime_dvd_prime_iff_eq hq p2).1 h)))))
      · exact Or.inr (Or.inr (Or.inr (Or.inr (Or.inr
              ((Nat.prime_dvd_prime_iff_eq hq p3).1 h)))))
    rcases hcases with rfl | rfl | rfl | rfl | rfl | rfl <;>
      exact neq _ (by norm_num) (by decide +kernel)

theorem prime_p2 : Nat.Prime 4434155615661930479 :=
  pocklington _ 1257559732178653 (2 * 41 * 43) 2 prime_p1 (by norm_num) (by norm_num)
    (by norm_num) (by norm_num) (by decide +kernel) (by decide +kernel)

theorem prime_p3 : Nat.Prime 172054593956031949258510691 :=
  pocklington _ 4434155615661930479 (2 * 5 * 1361 * 2851) 2 prime_p2 (by norm_num) (by norm_num)
    (by norm_num) (by norm_num) (by decide +kernel) (by decide +kernel)

theorem prime_p4 : Nat.Prime 19757330305831588566944191468367130476339 :=
  pocklington _ 172054593956031949258510691 (2 * 269 * 213441916511) 2 prime_p3 (by norm_num)
    (by norm_num) (by norm_num) (by norm_num) (by decide +kernel) (by decide +kernel)

theorem prime_p5 : Nat.Prime 276602624281642239937218680557139826668747 :=
  pocklington _ 19757330305831588566944191468367130476339 (2 * 7) 2 prime_p4 (by norm_num)
    (by norm_num) (by norm_num) (by norm_num) (by decide +kernel) (by decide +kernel)

end Prime

theorem ell_prime : Nat.Prime ell :=
  Prime.pocklington _ 276602624281642239937218680557139826668747
    (2 ^ 2 * 3 * 11 * 198211423230930754013084525763697) 2 Prime.prime_p5
    (by norm_num [ell]) (by norm_num)
    (by norm_num) (by norm_num [ell]) (by decide +kernel) (by decide +kernel)

instance : Fact ell.Prime := ⟨ell_prime⟩

theorem ell_pos : 0 < ell := ell_prime.pos

theorem ell_gt : 2 ^ 252 < ell := by norm_num [ell]

theorem ell_lt : ell < 2 ^ 253 := by norm_num [ell]

instance : NeZero ell := ⟨ell_pos.ne'⟩

end Verif
