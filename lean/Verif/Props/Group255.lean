import Verif.Curve.Pt
import Verif.Props.CodecBasic

/-!
# Group elements in byte strings (C72)

The other property files hold for every group with the laws of `Verif/Group.lean`. This one is about
the actual group, Ristretto255, which is constructed in `Verif/Curve`: which byte strings the code
accepts as group elements, and what the accepted elements are.
-/

set_option maxRecDepth 100000

namespace Verif

open Curve Amacs

namespace Group255

/-- The field of the curve. -/
abbrev K := ZMod (2 ^ 255 - 19)

/-- Nonnegative: the least nonnegative residue is even (RFC 9496, 3.1). -/
def Nonneg (a : K) : Prop := a.val % 2 = 0

/-- `b` is an encoding in the sense of RFC 9496, 4.3.1: the canonical form of a nonnegative `s` with
`s² = (1 - y) / (1 + y)` for a point `(x, y)` of the curve `-x² + y² = 1 - (121665/121666) x² y²` with
`x` and `x y` nonnegative and `y ≠ 0`. -/
structure Encodes (b : Bytes) (s x y : K) : Prop where
  length : b.length = 32
  canonical : leVal b = s.val
  nonneg : Nonneg s
  curve : 121666 * (y ^ 2 - x ^ 2 - 1) = -121665 * x ^ 2 * y ^ 2
  x_nonneg : Nonneg x
  xy_nonneg : Nonneg (x * y)
  y_ne : y ≠ 0
  ratio : s ^ 2 * (1 + y) = 1 - y

/-- `b` is an encoding of some point. -/
def Valid (b : Bytes) : Prop := ∃ s x y, Encodes b s x y

theorem nonneg_iff {a : Fq} : Nonneg a ↔ isNeg a = false := by
  simp only [Nonneg, isNeg, beq_eq_false_iff_ne]
  exact Nat.mod_two_ne_one.symm

theorem isNeg_cast {n : ℕ} (h : n < q) (h2 : n % 2 = 0) : isNeg (n : Fq) = false := by
  rw [isNeg, ZMod.val_cast_of_lt h, h2]
  rfl

theorem k_ne : (121666 : Fq) ≠ 0 := by
  have := cast_ne (a := 121666) (b := 0) (by decide +kernel)
  exact_mod_cast this

theorem curve_iff {x y : Fq} :
    121666 * (y ^ 2 - x ^ 2 - 1) = -121665 * x ^ 2 * y ^ 2 ↔ OnCurve d x y := by
  unfold OnCurve
  constructor
  · intro h
    apply mul_left_cancel₀ k_ne
    linear_combination h - x ^ 2 * y ^ 2 * d_eq
  · intro h
    linear_combination 121666 * h + x ^ 2 * y ^ 2 * d_eq

/-- The point is a double. -/
theorem even_of {R : Ed} {s : Fq} (h : s ^ 2 * (1 + R.y) = 1 - R.y) : R.Even := by
  have h1 : 1 + R.y ≠ 0 := by
    intro h1
    rw [h1, mul_zero] at h
    apply two_ne
    linear_combination h1 + h.symm
  by_cases hx : R.x = 0
  · have h2 := Ed.sq_x R
    rw [hx] at h2
    have h3 : (1 - R.y) * (1 + R.y) = 0 := by linear_combination h2
    have h4 : R.y = 1 := by
      rcases mul_eq_zero.1 h3 with h4 | h4
      · linear_combination -h4
      · exact absurd h4 h1
    rw [Ed.Even, h4]
    exact ⟨Ed.wNat, by linear_combination -Ed.w_sq⟩
  · refine Ed.isSquare_of_mul (pow_ne_zero 2 hx) ?_ (IsSquare.sq _)
    rw [show (1 + d * R.y ^ 2) * R.x ^ 2 = -1 * (s * (1 + R.y)) ^ 2 by
      linear_combination Ed.sq_x R + (1 + R.y) * h]
    exact isSquare_neg_one.mul (IsSquare.sq _)

/-- **C72.** A byte string is accepted as a group element exactly if it is an encoding. -/
theorem C72_accept (b : Bytes) : (∃ P : Ristretto255, dec b = some P) ↔ Valid b := by
  constructor
  · rintro ⟨P, h⟩
    have hb := encode_decode (b := b) (P := P) h
    have hc := encode_canonical P
    rw [hb] at hc
    obtain ⟨R, hR, -⟩ := decodePoint_encode P
    rw [hb, decodePoint, if_pos hc] at hR
    split at hR
    swap
    · simp at hR
    rename_i x y hd
    obtain ⟨S, hx, hy, -, h1, h2, h3, h4, -⟩ := decS_some hd
    exact ⟨(leVal b : Fq), x, y, hc.1, (ZMod.val_cast_of_lt hc.2.1).symm,
      nonneg_iff.2 (isNeg_cast hc.2.1 hc.2.2),
      curve_iff.2 (by rw [← hx, ← hy]; exact S.on), nonneg_iff.2 h1, nonneg_iff.2 h2, h3, h4⟩
  · rintro ⟨s, x, y, h⟩
    have hon := curve_iff.1 h.curve
    have hlt : leVal b < q := by
      rw [h.canonical]
      exact ZMod.val_lt (n := q) s
    have hc : b.length = 32 ∧ leVal b < q ∧ leVal b % 2 = 0 :=
      ⟨h.length, hlt, by rw [h.canonical]; exact h.nonneg⟩
    have hs : ((leVal b : ℕ) : Fq) = s := by
      rw [h.canonical]
      exact ZMod.natCast_zmod_val (n := q) s
    have he : (⟨x, y, hon⟩ : Ed).Even := even_of (s := s) h.ratio
    have := decodePoint_of hc hs (R := ⟨x, y, hon⟩)
      (decS_of he (nonneg_iff.1 h.x_nonneg) (nonneg_iff.1 h.xy_nonneg) h.y_ne h.ratio)
    exact ⟨_, by show (decodePoint b).map toPrime = _; rw [this]; rfl⟩

/-- **C72.** Each element has one encoding: no two byte strings are accepted as the same element. -/
theorem C72_unique {b c : Bytes} {P : Ristretto255} (hb : dec b = some P) (hc : dec c = some P) :
    b = c := by
  rw [← dec_eq_some.1 hb, dec_eq_some.1 hc]

/-- The number of elements of the group. -/
theorem card_group : Nat.card Ristretto255 = ell := by
  rw [← Nat.card_zmod ell]
  symm
  apply Nat.card_congr
  refine Equiv.ofBijective (fun s : F => s • basepoint Ristretto255) ⟨fun s t h => ?_, fun P => ?_⟩
  · exact (smul_right_inj' (Ristretto.base_ne (G := Ristretto255))).1 h
  · obtain ⟨s, hs⟩ := Ristretto.gen P
    exact ⟨s, hs.symm⟩

/-- The encodings of the elements of a group. -/
theorem card_enc {G : Type} [AddCommGroup G] [Module F G] [Ristretto G] {p : Bytes → Prop}
    (h : ∀ b, (∃ P : G, dec b = some P) ↔ p b) : Nat.card {b : Bytes // p b} = Nat.card G := by
  symm
  apply Nat.card_congr
  refine Equiv.ofBijective (fun P => ⟨enc P, (h _).1 ⟨P, dec_enc P⟩⟩) ⟨fun P Q e => ?_, fun b => ?_⟩
  · exact enc_inj (congrArg Subtype.val e)
  · obtain ⟨P, hP⟩ := (h b.1).2 b.2
    exact ⟨P, Subtype.ext (dec_eq_some.1 hP)⟩

theorem ell_eq : ell = 2 ^ 252 + 27742317777372353535851937790883648493 := rfl

/-- **C72.** Of the `2^256` strings of 32 bytes, `2^252 + 27742317777372353535851937790883648493` are
encodings. -/
theorem C72_count :
    Nat.card {b : Bytes // Valid b} = 2 ^ 252 + 27742317777372353535851937790883648493 := by
  rw [card_enc C72_accept, card_group, ell_eq]

/-- **C72.** No element of small order can be passed in: every accepted element other than the identity
has order `2^252 + 27742317777372353535851937790883648493`, a prime; only 32 zero bytes are the
identity. -/
theorem C72_order {b : Bytes} {P : Ristretto255} (h : dec b = some P) :
    (b = List.replicate 32 0 ∧ P = 0) ∨ (b ≠ List.replicate 32 0 ∧
      addOrderOf P = 2 ^ 252 + 27742317777372353535851937790883648493) := by
  have hb := dec_eq_some.1 h
  by_cases hP : P = 0
  · left
    refine ⟨?_, hP⟩
    rw [← hb, hP]
    exact Ristretto.enc_zero
  · right
    refine ⟨?_, by rw [← ell_eq]; exact addOrderOf_eq_prime (ell_smul P) hP⟩
    rw [← hb, ← Ristretto.enc_zero (G := Ristretto255)]
    exact fun he => hP (enc_inj he)

/-- **C72.** `compress` gives the same bytes for all the curve points that stand for one element: adding
a point killed by four to a double does not change what is written. -/
theorem C72_torsion (P T : Ed) (hT : 4 • T = 0) :
    encS (2 • P + T).x (2 • P + T).y = encS (2 • P).x (2 • P).y :=
  encS_coset (Ed.even_two P) (coset_iff.2 (by rw [add_sub_cancel_left, hT]))

/-- **C72.** What `Tag::from_bytes` accepts (amacs.rs:126-144). -/
theorem C72_tag (b : Bytes) :
    (∃ t : Tag Ristretto255, Tag.fromBytes b = .ok t) ↔
      b.length = 64 ∧ Valid (b.take 32) ∧ Valid (b.drop 32) := by
  constructor
  · rintro ⟨t, h⟩
    have := (C02_ok_iff b t).1 h
    subst this
    refine ⟨by simp, ?_, ?_⟩
    · rw [List.take_left' (enc_length _)]
      exact (C72_accept _).1 ⟨_, dec_enc _⟩
    · rw [List.drop_left' (enc_length _)]
      exact (C72_accept _).1 ⟨_, dec_enc _⟩
  · rintro ⟨-, h1, h2⟩
    obtain ⟨P, hP⟩ := (C72_accept _).2 h1
    obtain ⟨Q, hQ⟩ := (C72_accept _).2 h2
    refine ⟨⟨P, Q⟩, (C02_ok_iff _ _).2 ?_⟩
    rw [dec_eq_some.1 hP, dec_eq_some.1 hQ, List.take_append_drop]

/-- **C72.** What `SystemParameters::from_bytes` accepts (parameters.rs:47-79). -/
theorem C72_parameters (b : Bytes) :
    (∃ p : SystemParameters Ristretto255, SystemParameters.fromBytes b = .ok p) ↔
      b.length = 64 ∧ Valid (b.take 32) ∧ Valid (b.drop 32) := by
  constructor
  · rintro ⟨t, h⟩
    have := (C01_ok_iff b t).1 h
    subst this
    refine ⟨by simp, ?_, ?_⟩
    · rw [List.take_left' (enc_length _)]
      exact (C72_accept _).1 ⟨_, dec_enc _⟩
    · rw [List.drop_left' (enc_length _)]
      exact (C72_accept _).1 ⟨_, dec_enc _⟩
  · rintro ⟨-, h1, h2⟩
    obtain ⟨P, hP⟩ := (C72_accept _).2 h1
    obtain ⟨Q, hQ⟩ := (C72_accept _).2 h2
    refine ⟨⟨P, Q⟩, (C01_ok_iff _ _).2 ?_⟩
    rw [dec_eq_some.1 hP, dec_eq_some.1 hQ, List.take_append_drop]

/-- **C72.** What `PublicKey::from_bytes` accepts (amacs.rs:166-185): any number of encodings. -/
theorem C72_public_key (b : Bytes) :
    (∃ k : PublicKey Ristretto255, PublicKey.fromBytes b = .ok k) ↔
      ∃ cs : List Bytes, (∀ c ∈ cs, Valid c) ∧ b = cs.flatten := by
  constructor
  · rintro ⟨k, h⟩
    refine ⟨k.Xn.map enc, fun c hc => ?_, (C03_ok_iff b k).1 h⟩
    obtain ⟨X, -, rfl⟩ := List.mem_map.1 hc
    exact (C72_accept _).1 ⟨X, dec_enc X⟩
  · rintro ⟨cs, h, rfl⟩
    have : ∃ Xs : List Ristretto255, Xs.map enc = cs := by
      induction cs with
      | nil => exact ⟨[], rfl⟩
      | cons c cs ih =>
        obtain ⟨Xs, hX⟩ := ih fun c hc => h c (List.mem_cons_of_mem _ hc)
        obtain ⟨X, hc⟩ := (C72_accept c).2 (h c List.mem_cons_self)
        exact ⟨X :: Xs, by rw [List.map_cons, hX, dec_eq_some.1 hc]⟩
    obtain ⟨Xs, hX⟩ := this
    exact ⟨⟨Xs⟩, (C03_ok_iff _ _).2 (by rw [hX])⟩

/-- The byte array `RISTRETTO_BASEPOINT_COMPRESSED` of the tests (ffi/src/c.rs:290-294). -/
def baseBytes : Bytes :=
  [226, 242, 174, 10, 106, 188, 78, 113, 168, 132, 169, 97, 197, 0, 81, 95, 88, 227, 11, 106,
    165, 130, 221, 141, 182, 166, 89, 69, 224, 141, 45, 118]

/-- It is valid: it encodes the base point, which is not the identity. -/
example : Valid baseBytes ∧ (dec baseBytes : Option Ristretto255) = some (basepoint Ristretto255) ∧
    basepoint Ristretto255 ≠ 0 := by
  have h : enc (basepoint Ristretto255) = baseBytes := by
    show encode basePt = _
    rw [← Pt.toE_base, ← Pt.enc_eq]
    decide +kernel
  exact ⟨(C72_accept _).1 ⟨_, dec_eq_some.2 h⟩, dec_eq_some.2 h, Ristretto.base_ne⟩

theorem not_valid {b : Bytes} (h : (Pt.dec b).isNone = true) : ¬ Valid b := by
  rw [← C72_accept]
  rintro ⟨P, hP⟩
  have := (Pt.map_dec b).trans hP
  rw [Option.isNone_iff_eq_none.1 h] at this
  cases this

/-- The bytes of 1 are not valid, since 1 is odd; nor are those of 2, which has the right form but is
not the ratio of any point; nor those of `2^255 - 18`, which is not reduced. -/
example : ¬ Valid (1 :: List.replicate 31 0) ∧ ¬ Valid (2 :: List.replicate 31 0) ∧
    ¬ Valid (leBytes 32 (2 ^ 255 - 18)) := by
  refine ⟨not_valid ?_, not_valid ?_, not_valid ?_⟩ <;> decide +kernel

end Group255

end Verif
