import Verif.Props.Nizk
import Verif.Toy

/-!
# What a blind issuance proof certifies (C68)

The user holds the ElGamal key `d` with `D = d·B` and sends the ciphertext `(e0·B, m·B + e0·D)` of the
attribute. Blind issuance should hand back a ciphertext of `x1·m·P`, the attribute's share of the MAC
with nonce `P`, and `issuance_blinded` should prove it. It does not.
-/

set_option maxRecDepth 100000

namespace Verif

variable {G : Type} [AddCommGroup G] [Module F G]

/-- The statement's points belong to a run in which the user encrypted `m` under the key `d`. -/
structure Spec.BlindRequest (p : IssuanceBlinded.Publics G) (d m : F) : Prop where
  key : p.D = d • p.B
  ciphertext : ∃ e : F, p.encrypted_attribute_0_0 = e • p.B ∧
    p.encrypted_attribute_0_1 = m • p.B + e • p.D

/-- What the user decrypts. -/
def Spec.blindPlaintext (p : IssuanceBlinded.Publics G) (d : F) : G :=
  p.EQ_encryption - d • p.EQ_commitment

namespace IssuanceBlinded

/-- What is certified: the plaintext is the attribute times a factor `t0` of the issuer's choice. -/
theorem C68_decrypts_partial {p : Publics G} {s : Secrets} (h : Spec.IssuanceBlinded p s) {d m : F}
    (hr : Spec.BlindRequest p d m) : Spec.blindPlaintext p d = (s.t0.val * m) • p.B := by
  obtain ⟨-, -, -, -, -, h6, h7⟩ := h
  obtain ⟨hD, e, h0, h1⟩ := hr
  rw [Spec.blindPlaintext, h6, h7, h0, h1, hD]
  module

/-- The factor `t0` is tied to nothing: for every issuer key, nonce factor `b`, request and point `M`,
some true statement decrypts to `M`. The only condition is that the attribute is not zero. -/
theorem C68_any_plaintext (B A : G) (x0 x1 x0_tilde b sc d e m μ : F) (hm : m ≠ 0) :
    ∃ (p : Publics G) (s : Secrets), Spec.IssuanceBlinded p s ∧ Spec.BlindRequest p d m ∧
      p.B = B ∧ p.A = A ∧ p.X0 = x0 • B + x0_tilde • A ∧ p.X1 = x1 • A ∧ p.P = b • B ∧
      Spec.blindPlaintext p d = μ • B := by
  let X0 : G := x0 • B + x0_tilde • A
  let E0 : G := e • B
  let E1 : G := m • B + e • (d • B)
  let t0 : F := μ / m
  let p : Publics G :=
    { B := B, A := A, X0 := X0, X1 := x1 • A, D := d • B, P := b • B, T0_0 := b • X0, T0_1 := t0 • A
      EQ_commitment := sc • B + t0 • E0, EQ_encryption := sc • (d • B) + t0 • E1
      encrypted_attribute_0_0 := E0, encrypted_attribute_0_1 := E1 }
  let s : Secrets :=
    { x0_tilde := .ofF x0_tilde, x0 := .ofF x0, x1 := .ofF x1, s := .ofF sc, b := .ofF b, t0 := .ofF t0 }
  have h : Spec.IssuanceBlinded p s := by
    simp only [Spec.IssuanceBlinded, p, s, Scalar.val_ofF, X0, and_self]
  have hr : Spec.BlindRequest p d m := ⟨rfl, e, rfl, rfl⟩
  refine ⟨p, s, h, hr, rfl, rfl, rfl, rfl, rfl, ?_⟩
  rw [C68_decrypts_partial h hr]
  simp [s, t0, p, hm]

example : ∃ (p : Publics F) (s : Secrets), Spec.IssuanceBlinded p s ∧ Spec.BlindRequest p 3 4 ∧
    Spec.blindPlaintext p 3 = (9 : F) • p.B := by
  obtain ⟨p, s, h, hr, hB, _, _, _, _, hp⟩ :=
    C68_any_plaintext (1 : F) 4 5 6 7 8 2 3 11 4 9 (by decide +kernel)
  exact ⟨p, s, h, hr, hB ▸ hp⟩

variable [Ristretto G]

/-- So an accepted blind issuance need not encrypt the attribute's share of the MAC. -/
theorem C68_false (O : Oracle) (t : Transcript) (entropy : Bytes) (A : G)
    (x0 x1 x0_tilde b d m : F) (hm : m ≠ 0) :
    ∃ (p : Publics G) (s : Secrets), verify O t (create O t entropy p s) p = true ∧
      Spec.BlindRequest p d m ∧ p.B = basepoint G ∧ p.A = A ∧
      p.X0 = x0 • basepoint G + x0_tilde • A ∧ p.X1 = x1 • A ∧ p.P = b • basepoint G ∧
      Spec.blindPlaintext p d ≠ (x1 * m) • p.P := by
  obtain ⟨p, s, h, hr, hB, hA, hX0, hX1, hP, hM⟩ :=
    C68_any_plaintext (basepoint G) A x0 x1 x0_tilde b 0 d 0 m (x1 * m * b + 1) hm
  refine ⟨p, s, C29_complete O t entropy h, hr, hB, hA, hX0, hX1, hP, fun e => ?_⟩
  rw [hM, hP, smul_smul, add_smul, one_smul, add_eq_left] at e
  exact Ristretto.base_ne e

/-- A statement over the toy group with equal copies of `T0`. -/
def toyBlind : Publics F :=
  { B := 1, A := 2, X0 := 2, X1 := 2, D := 3, P := 1, T0_0 := 2, T0_1 := 2, EQ_commitment := 1
    EQ_encryption := 4, encrypted_attribute_0_0 := 1, encrypted_attribute_0_1 := 4 }

/-- Its secrets. -/
def toyBlindSecrets : Secrets :=
  { x0_tilde := 0, x0 := .ofF 2, x1 := 1, s := 0, b := 1, t0 := 1 }

example : Spec.IssuanceBlinded toyBlind toyBlindSecrets ∧ Spec.BlindRequest toyBlind 3 1 ∧
    toyBlind.T0_0 = toyBlind.T0_1 ∧ toyBlind.B ≠ 0 ∧ toyBlind.A = (2 : F) • toyBlind.B := by
  refine ⟨?_, ⟨?_, 1, ?_, ?_⟩, rfl, one_ne_zero, ?_⟩ <;>
    norm_num [Spec.IssuanceBlinded, toyBlind, toyBlindSecrets]

omit [Ristretto G] in
/-- Checking that the two copies of `T0` agree, as the comment above the declaration asks, does not
help, because the first copy is built from `X0` instead of `X1`: the plaintext is then a multiple of
`P` fixed by `x0` and `x0_tilde`, not by `x1`. -/
theorem C68_equal_copies {p : Publics G} {s : Secrets} (h : Spec.IssuanceBlinded p s) {d m η : F}
    (hr : Spec.BlindRequest p d m) (hT : p.T0_0 = p.T0_1) (hB : p.B ≠ 0) (hA : p.A = η • p.B)
    (hη : η ≠ 0) :
    Spec.blindPlaintext p d = ((s.x0.val / η + s.x0_tilde.val) * m) • p.P := by
  have e := C68_decrypts_partial h hr
  obtain ⟨h1, -, h3, h4, h5, -, -⟩ := h
  rw [e, h3, smul_smul]
  rw [h4, h5, h1, hA] at hT
  have h0 : (s.b.val * (s.x0.val + s.x0_tilde.val * η) - s.t0.val * η) • p.B = 0 := by
    have : s.b.val • (s.x0.val • p.B + s.x0_tilde.val • η • p.B) - s.t0.val • η • p.B = 0 :=
      sub_eq_zero.mpr hT
    rw [← this]
    module
  have h2 := (smul_eq_zero.mp h0).resolve_right hB
  congr 1
  field_simp
  linear_combination (-m) * h2

example : Spec.blindPlaintext toyBlind 3 =
    ((toyBlindSecrets.x0.val / 2 + toyBlindSecrets.x0_tilde.val) * 1) • toyBlind.P := by
  refine C68_equal_copies ?_ ⟨?_, 1, ?_, ?_⟩ rfl one_ne_zero ?_ (by decide +kernel) <;>
    norm_num [Spec.IssuanceBlinded, toyBlind, toyBlindSecrets]

omit [Ristretto G] in
/-- With both repairs, `T0_0 = b·X1` and equal copies, the proof would certify what is wanted. -/
theorem C68_repaired {p : Publics G} {s : Secrets} (h1 : p.X1 = s.x1.val • p.A)
    (h3 : p.P = s.b.val • p.B) (h4 : p.T0_0 = s.b.val • p.X1) (h5 : p.T0_1 = s.t0.val • p.A)
    (h6 : p.EQ_commitment = s.s.val • p.B + s.t0.val • p.encrypted_attribute_0_0)
    (h7 : p.EQ_encryption = s.s.val • p.D + s.t0.val • p.encrypted_attribute_0_1)
    {d m : F} (hr : Spec.BlindRequest p d m) (hT : p.T0_0 = p.T0_1) (hA : p.A ≠ 0) :
    Spec.blindPlaintext p d = (s.x1.val * m) • p.P := by
  obtain ⟨hD, e, h8, h9⟩ := hr
  have ht : s.t0.val = s.b.val * s.x1.val := by
    rw [h4, h5, h1, smul_smul] at hT
    exact (smul_left_injective F hA hT).symm
  rw [Spec.blindPlaintext, h6, h7, h8, h9, hD, h3, ht]
  module

example : Spec.blindPlaintext toyBlind 3 = (toyBlindSecrets.x1.val * 1) • toyBlind.P := by
  refine C68_repaired ?_ ?_ ?_ ?_ ?_ ?_ ⟨?_, 1, ?_, ?_⟩ rfl (by decide +kernel) <;>
    norm_num [toyBlind, toyBlindSecrets]

end IssuanceBlinded

end Verif
