import Verif.Curve.EncodeNat
import Mathlib.Algebra.Group.InjSurj
import Mathlib.Algebra.Module.Basic
import Mathlib.Algebra.Module.Defs

/-!
# Ristretto255 with computable points

The same group as `Verif/Curve/Ristretto255.lean`, with points stored as a pair of natural numbers,
so that the kernel can run the model on it. `Pt.toE` is an isomorphism onto `Ristretto255`, and the
structure is transported along it.
-/

namespace Verif.Curve

open _root_.Verif.Prime Proj

/-- A point of order dividing `ell`, by its reduced affine coordinates. -/
structure Pt where
  xy : ℕ × ℕ
  ok : (xy.1 < q ∧ xy.2 < q) ∧ ∃ P : Ristretto255, P.1.x = xy.1 ∧ P.1.y = xy.2

namespace Pt

instance : DecidableEq Pt := fun a b =>
  decidable_of_iff (a.xy = b.xy) ⟨fun h => by cases a; cases b; cases h; rfl, fun h => h ▸ rfl⟩

theorem on (p : Pt) : OnCurve d (p.xy.1 : Fq) (p.xy.2 : Fq) := by
  obtain ⟨P, hx, hy⟩ := p.ok.2
  rw [← hx, ← hy]
  exact P.1.on

def toEd (p : Pt) : Ed := ⟨p.xy.1, p.xy.2, p.on⟩

theorem toEd_mem (p : Pt) : p.toEd ∈ prime := by
  obtain ⟨P, hx, hy⟩ := p.ok.2
  have : p.toEd = P.1 := Ed.ext hx.symm hy.symm
  rw [this]
  exact P.2

/-- The point of `Ristretto255` it stands for. -/
def toE (p : Pt) : Ristretto255 := ⟨p.toEd, p.toEd_mem⟩

def toProj (p : Pt) : Proj := affine p.xy.1 p.xy.2

theorem rep (p : Pt) : p.toProj.Rep p.toE.1 := rep_affine rfl rfl

theorem toE_inj : Function.Injective toE := by
  intro p r h
  have hE : p.toEd = r.toEd := congrArg Subtype.val h
  have h1 : (p.xy.1 : Fq) = r.xy.1 := congrArg Ed.x hE
  have h2 : (p.xy.2 : Fq) = r.xy.2 := congrArg Ed.y hE
  rw [cast_inj_lt p.ok.1.1 r.ok.1.1] at h1
  rw [cast_inj_lt p.ok.1.2 r.ok.1.2] at h2
  cases p; cases r
  simp only [Pt.mk.injEq]
  exact Prod.ext h1 h2

/-- Reduced affine coordinates of a triple. -/
def norm (p : Proj) : ℕ × ℕ :=
  force (powMod p.Z (q - 2) q) fun zi =>
  force (mulN p.X zi) fun x =>
  force (mulN p.Y zi) fun y => (x, y)

theorem norm_spec {p : Proj} {P : Ed} (h : p.Rep P) :
    ((norm p).1 < q ∧ (norm p).2 < q) ∧ P.x = (norm p).1 ∧ P.y = (norm p).2 := by
  obtain ⟨hz, hx, hy⟩ := h
  simp only [norm, force_eq]
  refine ⟨⟨mulN_lt _ _, mulN_lt _ _⟩, ?_, ?_⟩
  · rw [mulN_cast, inv_cast hz, hx, mul_assoc, mul_inv_cancel₀ hz, mul_one]
  · rw [mulN_cast, inv_cast hz, hy, mul_assoc, mul_inv_cancel₀ hz, mul_one]

/-- The point denoted by a triple. -/
def ofProj (p : Proj) (h : ∃ P : Ristretto255, p.Rep P.1) : Pt :=
  ⟨norm p, by
    obtain ⟨P, hP⟩ := h
    exact ⟨(norm_spec hP).1, P, (norm_spec hP).2⟩⟩

theorem toE_ofProj {p : Proj} {P : Ristretto255} (hP : p.Rep P.1) :
    (ofProj p ⟨P, hP⟩).toE = P :=
  Subtype.ext (Ed.ext (norm_spec hP).2.1.symm (norm_spec hP).2.2.symm)

instance : Zero Pt := ⟨ofProj Proj.zero ⟨0, rep_zero⟩⟩
instance : Add Pt := ⟨fun p r => ofProj (Proj.add p.toProj r.toProj) ⟨p.toE + r.toE, rep_add p.rep r.rep⟩⟩
instance : Neg Pt := ⟨fun p => ofProj (Proj.neg p.toProj) ⟨-p.toE, rep_neg p.rep⟩⟩
instance : Sub Pt := ⟨fun p r => ofProj (Proj.add p.toProj (Proj.neg r.toProj))
  ⟨p.toE + -r.toE, rep_add p.rep (rep_neg r.rep)⟩⟩

theorem mod_smul (n : ℕ) (P : Ristretto255) : (n % ell) • P = n • P := by
  conv_rhs => rw [← Nat.mod_add_div n ell]
  rw [add_smul, mul_comm, mul_smul, ell_smul, smul_zero, add_zero]

theorem rep_smul' (n : ℕ) (p : Pt) : (Proj.smul (n % ell) p.toProj).Rep (n • p.toE).1 := by
  have h : n % ell < 2 ^ 256 := lt_trans (Nat.mod_lt _ ell_pos) (by norm_num [ell])
  have := Proj.rep_smul h p.rep
  rw [← mod_smul n p.toE]
  exact this

/-- `n` times a point. -/
def nsmul (n : ℕ) (p : Pt) : Pt := ofProj (Proj.smul (n % ell) p.toProj) ⟨n • p.toE, rep_smul' n p⟩

theorem toE_nsmul (n : ℕ) (p : Pt) : (nsmul n p).toE = n • p.toE := toE_ofProj (rep_smul' n p)

instance : SMul ℕ Pt := ⟨nsmul⟩
instance : SMul ℤ Pt := ⟨fun z p => nsmul (z % (ell : ℤ)).toNat p⟩
instance : SMul F Pt := ⟨fun s p => nsmul s.val p⟩

theorem smul_def (n : ℕ) (p : Pt) : n • p = nsmul n p := rfl
theorem zsmul_def (z : ℤ) (p : Pt) : z • p = nsmul (z % (ell : ℤ)).toNat p := rfl
theorem fsmul_def (s : F) (p : Pt) : s • p = nsmul s.val p := rfl
theorem toE_nsmul' (p : Pt) (n : ℕ) : (n • p).toE = n • p.toE := by
  rw [smul_def, toE_nsmul]

theorem toE_zero : (0 : Pt).toE = 0 := toE_ofProj (P := 0) rep_zero
theorem toE_add (p r : Pt) : (p + r).toE = p.toE + r.toE :=
  toE_ofProj (P := p.toE + r.toE) (rep_add p.rep r.rep)
theorem toE_neg (p : Pt) : (-p).toE = -p.toE := toE_ofProj (P := -p.toE) (rep_neg p.rep)
theorem toE_sub (p r : Pt) : (p - r).toE = p.toE - r.toE := by
  rw [sub_eq_add_neg]
  exact toE_ofProj (P := p.toE + -r.toE) (rep_add p.rep (rep_neg r.rep))
theorem toE_zsmul (p : Pt) (z : ℤ) : (z • p).toE = z • p.toE := by
  rw [zsmul_def]
  have h0 : (0 : ℤ) ≤ z % (ell : ℤ) := Int.emod_nonneg _ (by exact_mod_cast ell_pos.ne')
  rw [toE_nsmul, ← natCast_zsmul, Int.toNat_of_nonneg h0]
  conv_rhs => rw [← Int.emod_add_mul_ediv z ell]
  rw [add_smul, mul_comm, mul_smul, natCast_zsmul, ell_smul, smul_zero, add_zero]

instance : AddCommGroup Pt :=
  toE_inj.addCommGroup toE toE_zero toE_add toE_neg toE_sub toE_nsmul' toE_zsmul

def toEHom : Pt →+ Ristretto255 := ⟨⟨toE, toE_zero⟩, toE_add⟩

theorem toE_smul (s : F) (p : Pt) : (s • p).toE = s • p.toE := by
  rw [fsmul_def, toE_nsmul]
  conv_rhs => rw [← ZMod.natCast_zmod_val s]
  rw [smul_nat]

noncomputable instance : Module F Pt := toE_inj.module F toEHom toE_smul

/-- Every element of `Ristretto255` is the value of some `Pt`. -/
theorem toE_surj (P : Ristretto255) : ∃ p : Pt, p.toE = P := by
  refine ⟨⟨(P.1.x.val, P.1.y.val), ⟨ZMod.val_lt P.1.x, ZMod.val_lt P.1.y⟩, P, ?_, ?_⟩, ?_⟩
  · exact (ZMod.natCast_zmod_val _).symm
  · exact (ZMod.natCast_zmod_val _).symm
  · exact Subtype.ext (Ed.ext (ZMod.natCast_zmod_val P.1.x) (ZMod.natCast_zmod_val P.1.y))

theorem proj_lt : Curve.proj < 2 ^ 256 := by decide +kernel

theorem decP_rep {b : Bytes} {p : Proj} (h : decP b = some p) :
    ∃ P, decode b = some P ∧ (Proj.smul Curve.proj p).Rep P.1 := by
  obtain ⟨R, hR, hp⟩ := decP_some h
  exact ⟨toPrime R, by rw [decode, hR]; rfl, Proj.rep_smul proj_lt hp⟩

/-- `CompressedRistretto(b).decompress()`. -/
def dec (b : Bytes) : Option Pt :=
  match h : decP b with
  | some p => some (ofProj (Proj.smul Curve.proj p) (by
      obtain ⟨P, -, hP⟩ := decP_rep h
      exact ⟨P, hP⟩))
  | none => none

theorem map_dec (b : Bytes) : (dec b).map toE = decode b := by
  unfold dec
  split
  · rename_i p h
    obtain ⟨P, hd, hP⟩ := decP_rep h
    rw [hd, Option.map_some, toE_ofProj hP]
  · rename_i h
    rw [decP_none h]
    rfl

/-- `RistrettoPoint::compress().to_bytes()`. -/
def enc (p : Pt) : Bytes := leBytes 32 (encN p.xy.1 p.xy.2)

theorem enc_eq (p : Pt) : enc p = encode p.toE := by
  rw [enc, encode]
  obtain ⟨h1, h2⟩ := encN_spec p.xy.1 p.xy.2
  have e : encS p.toE.1.x p.toE.1.y = encS (p.xy.1 : Fq) (p.xy.2 : Fq) := rfl
  rw [e, ← h1, ZMod.val_cast_of_lt h2]

def base : Pt := ofProj Ed.bP ⟨basePt, Ed.rep_B⟩

theorem toE_base : base.toE = basePt := toE_ofProj (P := basePt) Ed.rep_B

noncomputable instance : Ristretto Pt where
  base := base
  base_ne := fun h => by
    have := congrArg toE h
    rw [toE_base, toE_zero] at this
    exact (Ristretto.base_ne (G := Ristretto255)) this
  gen := fun p => by
    obtain ⟨s, hs⟩ := Ristretto.gen p.toE
    exact ⟨s, toE_inj (by rw [hs, toE_smul, toE_base]; rfl)⟩
  enc := enc
  dec := dec
  enc_length := fun p => leBytes_length _ _
  dec_enc := fun p => by
    have := map_dec (enc p)
    rw [enc_eq p, decode_encode, ← enc_eq p] at this
    obtain ⟨r, hr, he⟩ := Option.map_eq_some_iff.1 this
    rw [hr, toE_inj he]
  enc_of_dec := fun b p h => by
    have := map_dec b
    rw [h, Option.map_some] at this
    rw [enc_eq]
    exact encode_decode this.symm
  enc_zero := by
    show enc 0 = _
    rw [enc_eq, toE_zero]
    exact Ristretto.enc_zero (G := Ristretto255)

end Pt

end Verif.Curve
