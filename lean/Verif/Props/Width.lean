import Verif.Model.Width
import Verif.Props.CodecBasic

/-!
# Key pairs on targets with other sizes of `usize` (C05, continued)
-/

namespace Verif

open Amacs

variable {G : Type} [AddCommGroup G] [Module F G] [Ristretto G]

/-- Subtraction without checks is subtraction modulo the number of values of a `usize`; with checks it is exact or panics. -/
theorem C05_wraps (bits : ℕ) {a b : ℕ} (ha : a < 2 ^ bits) (hb : b < 2 ^ bits) :
    (∃ d < 2 ^ bits, (usizeSubOn bits false a b : Res MacError ℕ) = .ok d ∧ d + b ≡ a [MOD 2 ^ bits]) ∧
    (∀ d, (usizeSubOn bits true a b : Res MacError ℕ) = .ok d ↔ d + b = a) ∧
    ((usizeSubOn bits true a b : Res MacError ℕ) = .panic ↔ a < b) := by
  by_cases h : b ≤ a
  · simp only [usizeSubOn, if_pos h]
    refine ⟨⟨a - b, by omega, rfl, by rw [Nat.sub_add_cancel h]⟩, fun d => ?_, ?_⟩
    · simp only [Res.ok.injEq]
      omega
    · simp only [reduceCtorEq, false_iff]
      omega
  · simp only [usizeSubOn, if_neg h]
    refine ⟨⟨a + 2 ^ bits - b, by omega, rfl, ?_⟩, fun d => ?_, ?_⟩
    · rw [Nat.sub_add_cancel (by omega)]
      simp [Nat.ModEq]
    · simp only [if_true, reduceCtorEq, false_iff]
      omega
    · simp only [if_true, true_iff]
      omega

/-- The subtraction of `Amacs` is that with 64 bits. -/
theorem C05_wraps_64 (checks : Bool) (a b : ℕ) : (usizeSubOn 64 checks a b : Res MacError ℕ) = usizeSub checks a b := by
  simp [usizeSubOn, usizeSub, usizeCount]

/-- 31 bytes minus 32, on 32 bits. -/
example : (usizeSubOn 32 false 31 32 : Res MacError ℕ) = .ok 4294967295 := by decide

/-- The size of `usize` makes no difference to the decoding of key pairs. -/
theorem C05_width {bits : ℕ} (hb : 7 ≤ bits) (checks : Bool) (b : Bytes) :
    (Keypair.fromBytesOn bits checks b : Res _ (Keypair G)) = Keypair.fromBytes checks b := by
  by_cases h : 32 ≤ b.length
  · have e : ∀ n ≤ b.length, (usizeSubOn bits checks b.length n : Res MacError ℕ) =
        usizeSub checks b.length n := by
      intro n hn
      rw [usizeSubOn, usizeSub, if_pos hn, if_pos hn]
    rw [Keypair.fromBytesOn, Keypair.fromBytes, e 32 h, usizeSub, if_pos h, Res.ok_bind, Res.ok_bind]
    dsimp only
    rw [e _ (by omega)]
  · have h : b.length < 32 := by omega
    cases checks with
    | true =>
      rw [C05_short_panics h, Keypair.fromBytesOn, usizeSubOn, if_neg (by omega), if_pos rfl]
      rfl
    | false =>
      rw [C05_short_err h, Keypair.fromBytesOn, usizeSubOn, if_neg (by omega), if_neg Bool.false_ne_true,
        Res.ok_bind]
      obtain ⟨k, hk⟩ : ∃ k, 2 ^ bits = 128 * k := ⟨2 ^ (bits - 7), by
        rw [show (128 : ℕ) = 2 ^ 7 from rfl, ← pow_add]
        congr 1
        omega⟩
      have hk1 : 1 ≤ k := by
        rcases Nat.eq_zero_or_pos k with h0 | h0
        · rw [h0] at hk
          exact absurd hk (by positivity)
        · exact h0
      dsimp only
      rw [hk, usizeSubOn, if_neg (by omega), if_neg Bool.false_ne_true, Res.ok_bind, if_pos (Or.inl (by omega))]

/-- On targets with 32 bits. -/
example (checks : Bool) (b : Bytes) :
    (Keypair.fromBytesOn 32 checks b : Res _ (Keypair G)) = Keypair.fromBytes checks b :=
  C05_width (by decide) checks b

end Verif
