import Verif.Curve.Encode
import Verif.Group
import Mathlib.Algebra.Module.ZMod

/-!
# Ristretto255

The group curve25519-dalek implements, and the proof that it has every law the model assumes of it
(`Verif/Group.lean`). An element is the coset of a double modulo the 4-torsion; the model type is the
representative of order dividing `ell`, of which each coset has exactly one. Nothing here is assumed:
the instance at the end of the file discharges the class hypotheses for the real group.
-/

namespace Verif.Curve

/-- The points killed by `ell`. -/
def prime : AddSubgroup Ed where
  carrier := {P | ell • P = 0}
  zero_mem' := smul_zero ell
  add_mem' := fun {P R} (hP : ell • P = 0) (hR : ell • R = 0) => by
    show ell • (P + R) = 0
    rw [smul_add, hP, hR, add_zero]
  neg_mem' := fun {P} (hP : ell • P = 0) => by
    show ell • (-P) = 0
    rw [smul_neg, hP, neg_zero]

/-- The group of the repository: `curve25519_dalek::ristretto::RistrettoPoint`. -/
abbrev Ristretto255 : Type := prime

theorem mem (P : Ristretto255) : ell • P.1 = 0 := P.2

theorem ell_smul (P : Ristretto255) : ell • P = 0 := Subtype.ext (by
  have := mem P
  simpa using this)

noncomputable instance : Module F Ristretto255 := AddCommGroup.zmodModule ell_smul

theorem smul_nat (n : ℕ) (P : Ristretto255) : (n : F) • P = n • P := Nat.cast_smul_eq_nsmul F n P

/-- A multiple of 8 that is 1 modulo `ell`: multiplication by it projects the curve onto the points
killed by `ell`. -/
def proj : ℕ := 8 * 2713877091499598330239944961141122840321418634767465352250731601857045344121

theorem proj_mod : ∃ k, proj = ell * k + 1 := ⟨proj / ell, by decide +kernel⟩

/-- The representative of order dividing `ell`. -/
def toPrime (P : Ed) : Ristretto255 := ⟨proj • P, by
  show ell • proj • P = 0
  obtain ⟨n, rfl⟩ := Ed.exists_gen P
  have : (8 * ell) • Ed.gen = 0 := by rw [← Ed.order_gen]; exact addOrderOf_nsmul_eq_zero _
  rw [smul_smul, smul_smul, proj, show ∀ c, ell * (8 * c) * n = (c * n) * (8 * ell) by intro c; ring,
    mul_smul, this, smul_zero]⟩

theorem toPrime_coset {R P : Ed} (hP : ell • P = 0) (h : Coset R P) : (toPrime R).1 = P := by
  have h4 := four_of_coset h
  have e : R = P + (R - P) := by abel
  show proj • R = P
  rw [e, smul_add]
  have h1 : proj • P = P := by
    obtain ⟨k, hk⟩ := proj_mod
    rw [hk, add_smul, one_smul, mul_comm, mul_smul, hP, smul_zero, zero_add]
  have h2 : proj • (R - P) = 0 := by
    rw [proj, show ∀ c, 8 * c = (2 * c) * 4 by intro c; ring, mul_smul, h4, smul_zero]
  rw [h1, h2, add_zero]

theorem coset_toPrime {R : Ed} (h : R.Even) : Coset R (toPrime R).1 := by
  obtain ⟨S, rfl⟩ := Ed.exists_two h
  rw [coset_iff]
  show 4 • (2 • S - proj • 2 • S) = 0
  obtain ⟨k, hk⟩ := proj_mod
  have h8 : (8 * ell) • S = 0 := by
    rw [← Ed.card_eq]
    exact card_nsmul_eq_zero'
  have : proj • 2 • S = 2 • S + (k * (2 * ell)) • S := by
    rw [hk, smul_smul, ← add_smul]
    congr 1
    ring
  rw [this, sub_add_cancel_left, smul_neg, smul_smul, show 4 * (k * (2 * ell)) = k * (8 * ell) by ring,
    mul_smul, h8, smul_zero, neg_zero]

/-- `RistrettoPoint::compress().to_bytes()`. -/
def encode (P : Ristretto255) : Bytes := leBytes 32 (encS P.1.x P.1.y).val

instance (x y : Fq) : Decidable (OnCurve d x y) :=
  inferInstanceAs (Decidable (-x ^ 2 + y ^ 2 = 1 + d * x ^ 2 * y ^ 2))

/-- The curve point computed by `decompress`, before passing to its coset. -/
def decodePoint (b : Bytes) : Option Ed :=
  if b.length = 32 ∧ leVal b < q ∧ leVal b % 2 = 0 then
    match decS (leVal b : Fq) with
    | some (x, y) => if h : OnCurve d x y then some ⟨x, y, h⟩ else none
    | none => none
  else none

/-- `CompressedRistretto(b).decompress()`. -/
def decode (b : Bytes) : Option Ristretto255 := (decodePoint b).map toPrime

theorem q_lt : q < 256 ^ 32 := by norm_num [q]

theorem leVal_encode (P : Ristretto255) : leVal (encode P) = (encS P.1.x P.1.y).val :=
  leVal_leBytes_of_lt (lt_trans (ZMod.val_lt _) q_lt)

theorem encS_nonneg {P : Ed} (he : P.Even) : isNeg (encS P.x P.y) = false := by
  by_cases h : P.x * P.y = 0
  · rw [encS_degenerate h, isNeg_zero]
  · obtain ⟨-, -, -, -, h⟩ := encS_spec he (left_ne_zero_of_mul h) (right_ne_zero_of_mul h)
    exact h

/-- Only the identity has order dividing `ell` and a vanishing coordinate. -/
theorem eq_zero_of_xy {P : Ed} (hP : ell • P = 0) (h : P.x * P.y = 0) : P = 0 := by
  have h2 : (2 • P).x = 0 := by
    rw [two_smul, Ed.add_x, div_eq_zero_iff]
    left; linear_combination 2 * h
  have h4 : 4 • P = 0 := by
    have : (2 • P : Ed) = -(2 • P) := by
      ext
      · rw [Ed.neg_x, h2, neg_zero]
      · rw [Ed.neg_y]
    rw [show 4 = 2 * 2 by rfl, mul_smul, two_smul]
    exact add_eq_zero_iff_eq_neg.2 this
  have hd4 := addOrderOf_dvd_iff_nsmul_eq_zero.2 h4
  have hdl := addOrderOf_dvd_iff_nsmul_eq_zero.2 hP
  have hc : Nat.Coprime 4 ell := Nat.Coprime.coprime_dvd_left (by norm_num) Ed.coprime_ell
  exact AddMonoid.addOrderOf_eq_one_iff.1 (Nat.eq_one_of_dvd_coprimes hc hd4 hdl)

theorem encode_canonical (P : Ristretto255) :
    (encode P).length = 32 ∧ leVal (encode P) < q ∧ leVal (encode P) % 2 = 0 := by
  refine ⟨leBytes_length _ _, ?_, ?_⟩
  · rw [leVal_encode]; exact ZMod.val_lt _
  · have := encS_nonneg (Ed.even_of_ell (mem P))
    rw [leVal_encode]
    simp only [isNeg, beq_eq_false_iff_ne] at this
    exact Nat.mod_two_ne_one.1 this

theorem decodePoint_of {b : Bytes} (hc : b.length = 32 ∧ leVal b < q ∧ leVal b % 2 = 0) {s : Fq}
    (hs : (leVal b : Fq) = s) {R : Ed} (hd : decS s = some (R.x, R.y)) :
    decodePoint b = some R := by
  rw [decodePoint, if_pos hc, hs, hd]
  exact dif_pos R.on

theorem cast_encode (P : Ristretto255) : ((leVal (encode P) : ℕ) : Fq) = encS P.1.x P.1.y := by
  rw [leVal_encode, ZMod.natCast_zmod_val]

theorem decodePoint_encode (P : Ristretto255) : ∃ R, decodePoint (encode P) = some R ∧ Coset R P.1 := by
  have he := Ed.even_of_ell (mem P)
  by_cases h : P.1.x * P.1.y = 0
  · refine ⟨0, ?_, Or.inl (eq_zero_of_xy (mem P) h).symm⟩
    refine decodePoint_of (encode_canonical P) (cast_encode P) ?_
    rw [encS_degenerate h, decS_zero, Ed.zero_x, Ed.zero_y]
  · obtain ⟨R, hR, hg, hs, -⟩ :=
      encS_spec he (left_ne_zero_of_mul h) (right_ne_zero_of_mul h)
    refine ⟨R, ?_, hR⟩
    exact decodePoint_of (encode_canonical P) (cast_encode P) (decS_good (hR.even he) hg hs)

theorem decode_encode (P : Ristretto255) : decode (encode P) = some P := by
  obtain ⟨R, h, hR⟩ := decodePoint_encode P
  rw [decode, h, Option.map_some]
  exact congrArg some (Subtype.ext (toPrime_coset (mem P) hR))

theorem encode_decode {b : Bytes} {P : Ristretto255} (h : decode b = some P) : encode P = b := by
  rw [decode, decodePoint] at h
  split at h
  swap
  · simp at h
  rename_i hc
  obtain ⟨hlen, hlt, hev⟩ := hc
  split at h
  swap
  · simp at h
  rename_i x y hd
  obtain ⟨R, hx, hy, he, hnx, hnxy, hy0, hs, h0⟩ := decS_some hd
  have hon : OnCurve d x y := by rw [← hx, ← hy]; exact R.on
  have hR : (⟨x, y, hon⟩ : Ed) = R := Ed.ext hx.symm hy.symm
  simp only [dif_pos hon, Option.map_some, Option.some.injEq, hR] at h
  have hco : Coset R P.1 := by rw [← h]; exact coset_toPrime he
  have hsn : isNeg (leVal b : Fq) = false := by
    simp only [isNeg, ZMod.val_cast_of_lt hlt, hev]
    rfl
  have hes : encS P.1.x P.1.y = (leVal b : Fq) := by
    rw [← encS_coset (Ed.even_of_ell (mem P)) hco]
    by_cases hx0 : x = 0
    · rw [encS_degenerate (by rw [hx, hx0, zero_mul]), h0 hx0]
    · exact encS_eq he (Or.inl rfl) ⟨by rw [hx, hnx], by rw [hx, hy, hnxy], by rwa [hx], by rwa [hy]⟩
        (by rw [hy]; exact hs) hsn (by rw [hx, hy]; exact mul_ne_zero hx0 hy0)
  rw [encode, hes, ZMod.val_cast_of_lt hlt, ← hlen, leBytes_leVal]

/-- `RISTRETTO_BASEPOINT_POINT`. -/
def basePt : Ristretto255 := ⟨Ed.B, Ed.ell_B⟩

/-- Every law the model assumes of `RistrettoPoint` holds of Ristretto255. -/
noncomputable instance : Ristretto Ristretto255 where
  base := basePt
  base_ne := fun h => Ed.B_ne (congrArg Subtype.val h)
  gen := fun P => by
    obtain ⟨n, hn⟩ := Ed.exists_base P.2
    exact ⟨n, by rw [smul_nat]; exact Subtype.ext (by simpa [basePt] using hn)⟩
  enc := encode
  dec := decode
  enc_length := fun P => leBytes_length _ _
  dec_enc := decode_encode
  enc_of_dec := fun _ _ h => encode_decode h
  enc_zero := by
    show leBytes 32 (encS 0 1).val = _
    rw [encS_degenerate (by simp), ZMod.val_zero, leBytes_zero]

end Verif.Curve
