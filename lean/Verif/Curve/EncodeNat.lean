import Verif.Curve.Ristretto255

/-!
# Evaluating the Ristretto encoding

The algorithms of `Verif/Curve/Encode.lean` on natural numbers below `q`, so that the kernel can
evaluate them, and the proof that they compute the same thing.
-/

namespace Verif.Curve

open _root_.Verif.Prime Proj

/-- Negation of a reduced number. -/
def negN (a : ℕ) : ℕ := (q - a % q) % q

def absN (a : ℕ) : ℕ := if a % 2 = 1 then negN a else a

def mulN (a b : ℕ) : ℕ := a * b % q

def invsqrtN (v : ℕ) : Bool × ℕ :=
  force (mulN (v * v) v) fun v3 =>
  force (mulN (mulN v3 v3) v) fun v7 =>
  force (mulN v3 (powMod v7 ((q - 5) / 8) q)) fun r =>
  force (mulN v (mulN r r)) fun check =>
  force (if check = q - 1 ∨ check = q - iNat then mulN iNat r else r) fun r' =>
  (decide (check = 1 ∨ check = q - 1), absN r')

def encN (x y : ℕ) : ℕ :=
  force (mulN (1 + y) (1 + negN y)) fun u1 =>
  force (mulN x y) fun u2 =>
  force ((invsqrtN (mulN u1 (mulN u2 u2))).2) fun inv =>
  force (mulN inv u1) fun i1 =>
  force (mulN inv u2) fun i2 =>
  force (mulN i1 (mulN i2 u2)) fun zinv =>
  let rot := mulN u2 zinv % 2 == 1
  force (if rot then mulN y iNat else x) fun x' =>
  force (if rot then mulN x iNat else y) fun y' =>
  force (if rot then mulN i1 aNat else i2) fun den =>
  force (if mulN x' zinv % 2 == 1 then negN y' else y') fun y'' =>
  absN (mulN den (1 + negN y''))

def decN (s : ℕ) : Option (ℕ × ℕ) :=
  force (mulN s s) fun ss =>
  force ((1 + negN ss) % q) fun u1 =>
  force ((1 + ss) % q) fun u2 =>
  force ((negN (mulN dNat (mulN u1 u1)) + negN (mulN u2 u2)) % q) fun v =>
  let w := invsqrtN (mulN v (mulN u2 u2))
  force w.2 fun inv =>
  force (mulN inv u2) fun dx =>
  force (mulN inv (mulN dx v)) fun dy =>
  force (absN (mulN (s + s) dx)) fun x =>
  force (mulN u1 dy) fun y =>
  if w.1 && !(mulN x y % 2 == 1) && y ≠ 0 then some (x, y) else none

theorem q_pos : 0 < q := by norm_num [q]

theorem negN_lt (a : ℕ) : negN a < q := Nat.mod_lt _ q_pos
theorem mulN_lt (a b : ℕ) : mulN a b < q := Nat.mod_lt _ q_pos
theorem absN_lt {a : ℕ} (h : a < q) : absN a < q := by
  unfold absN
  split
  · exact negN_lt a
  · exact h

theorem negN_cast (a : ℕ) : ((negN a : ℕ) : Fq) = -(a : Fq) := by
  rw [negN, cast_mod, Nat.cast_sub (Nat.mod_lt _ q_pos).le, cast_mod, ZMod.natCast_self, zero_sub]

theorem mulN_cast (a b : ℕ) : ((mulN a b : ℕ) : Fq) = a * b := by
  rw [mulN, cast_mod, Nat.cast_mul]

theorem isNeg_cast {a : ℕ} (h : a < q) : isNeg (a : Fq) = (a % 2 == 1) := by
  rw [isNeg, ZMod.val_cast_of_lt h]

theorem absN_cast {a : ℕ} (h : a < q) : ((absN a : ℕ) : Fq) = absF a := by
  unfold absN absF
  rw [isNeg_cast h]
  by_cases h1 : a % 2 = 1
  · simp [h1, negN_cast]
  · simp [h1]

theorem ite_cast {p : Prop} [Decidable p] (a b : ℕ) :
    (((if p then a else b : ℕ)) : Fq) = if p then (a : Fq) else (b : Fq) := by
  split <;> rfl

theorem ite_lt {p : Prop} [Decidable p] {a b : ℕ} (ha : a < q) (hb : b < q) :
    (if p then a else b) < q := by
  split
  · exact ha
  · exact hb

theorem cast_inj_lt {a b : ℕ} (ha : a < q) (hb : b < q) : (a : Fq) = b ↔ a = b := by
  rw [nat_cast_inj, Nat.mod_eq_of_lt ha, Nat.mod_eq_of_lt hb]

theorem one_lt_q : 1 < q := by norm_num [q]
theorem iNat_lt : iNat < q := by decide +kernel
theorem iNat_pos : 0 < iNat := by decide +kernel

theorem cast_q_sub {a : ℕ} (h : a ≤ q) : ((q - a : ℕ) : Fq) = -(a : Fq) := by
  rw [Nat.cast_sub h, ZMod.natCast_self, zero_sub]

theorem eighth_lt : (q - 5) / 8 < 2 ^ 256 := by decide +kernel

theorem invsqrtN_spec (v : ℕ) :
    (invsqrtN v).1 = (invsqrt (v : Fq)).1 ∧ (((invsqrtN v).2 : ℕ) : Fq) = (invsqrt (v : Fq)).2
      ∧ (invsqrtN v).2 < q := by
  have hr : ((mulN (mulN (v * v) v)
      (powMod (mulN (mulN (mulN (v * v) v) (mulN (v * v) v)) v) ((q - 5) / 8) q) : ℕ) : Fq)
      = (v : Fq) ^ 3 * ((v : Fq) ^ 7) ^ ((q - 5) / 8) := by
    rw [mulN_cast, powMod_cast _ _ _ eighth_lt]
    simp only [mulN_cast, Nat.cast_mul]
    generalize (q - 5) / 8 = n
    ring
  simp only [invsqrtN, invsqrt, force_eq]
  generalize hN : mulN (mulN (v * v) v)
      (powMod (mulN (mulN (mulN (v * v) v) (mulN (v * v) v)) v) ((q - 5) / 8) q) = r at hr ⊢
  rw [← hr]
  have hrlt : r < q := by rw [← hN]; exact mulN_lt _ _
  have hck : ((mulN v (mulN r r) : ℕ) : Fq) = (v : Fq) * (r : Fq) ^ 2 := by
    rw [mulN_cast, mulN_cast, sq]
  have hclt := mulN_lt v (mulN r r)
  rw [← hck]
  generalize mulN v (mulN r r) = c at hclt ⊢
  have e1 : (c : Fq) = 1 ↔ c = 1 := by
    rw [← cast_inj_lt hclt one_lt_q, Nat.cast_one]
  have e2 : (c : Fq) = -1 ↔ c = q - 1 := by
    rw [← cast_inj_lt hclt (Nat.sub_lt q_pos one_pos), cast_q_sub one_lt_q.le, Nat.cast_one]
  have e3 : (c : Fq) = -i ↔ c = q - iNat := by
    rw [← cast_inj_lt hclt (Nat.sub_lt q_pos iNat_pos), cast_q_sub iNat_lt.le, i]
  have hlt : (if c = q - 1 ∨ c = q - iNat then mulN iNat r else r) < q := ite_lt (mulN_lt _ _) hrlt
  simp only [e1, e2, e3]
  refine ⟨trivial, ?_, absN_lt hlt⟩
  rw [absN_cast hlt, ite_cast, mulN_cast, i]

theorem bite_cast (p : Bool) (a b : ℕ) :
    (((if p then a else b : ℕ)) : Fq) = if p then (a : Fq) else (b : Fq) := ite_cast a b

theorem encN_spec (x y : ℕ) :
    ((encN x y : ℕ) : Fq) = encS x y ∧ encN x y < q := by
  simp only [encN, force_eq]
  refine ⟨?_, absN_lt (mulN_lt _ _)⟩
  obtain ⟨-, hi, -⟩ :=
    invsqrtN_spec (mulN (mulN (1 + y) (1 + negN y)) (mulN (mulN x y) (mulN x y)))
  rw [absN_cast (mulN_lt _ _), encS]
  have e1 : ((mulN (1 + y) (1 + negN y) : ℕ) : Fq) = (1 + (y : Fq)) * (1 - (y : Fq)) := by
    rw [mulN_cast]
    push_cast
    rw [negN_cast]
    ring
  have ei : ((mulN (mulN (1 + y) (1 + negN y)) (mulN (mulN x y) (mulN x y)) : ℕ) : Fq)
      = (1 + (y : Fq)) * (1 - (y : Fq)) * ((x : Fq) * (y : Fq)) ^ 2 := by
    rw [mulN_cast, e1, mulN_cast, mulN_cast]
    ring
  rw [ei] at hi
  simp only [← hi]
  generalize (invsqrtN (mulN (mulN (1 + y) (1 + negN y)) (mulN (mulN x y) (mulN x y)))).2 = inv
  have ez : ((mulN (mulN inv (mulN (1 + y) (1 + negN y))) (mulN (mulN inv (mulN x y)) (mulN x y)) : ℕ) : Fq)
      = (inv : Fq) * ((1 + (y : Fq)) * (1 - (y : Fq))) * ((inv : Fq) * ((x : Fq) * y) * ((x : Fq) * y)) := by
    simp only [mulN_cast, e1]
  rw [← ez]
  generalize hzN : mulN (mulN inv (mulN (1 + y) (1 + negN y)))
    (mulN (mulN inv (mulN x y)) (mulN x y)) = z
  have er : isNeg ((x : Fq) * y * z) = (mulN (mulN x y) z % 2 == 1) := by
    rw [← isNeg_cast (mulN_lt _ _), mulN_cast, mulN_cast]
  rw [er]
  have hfin (x' y' den : ℕ) :
      absF ((mulN den (1 + negN (if (mulN x' z % 2 == 1) = true then negN y' else y')) : ℕ) : Fq)
      = absF ((den : Fq) * (1 - if isNeg ((x' : Fq) * (z : Fq)) = true then -(y' : Fq) else (y' : Fq))) := by
    have e2 : isNeg ((x' : Fq) * (z : Fq)) = (mulN x' z % 2 == 1) := by
      rw [← isNeg_cast (mulN_lt _ _), mulN_cast]
    rw [e2, mulN_cast]
    congr 2
    push_cast
    rw [negN_cast, ite_cast, negN_cast]
    ring
  cases mulN (mulN x y) z % 2 == 1
  · simp only [Bool.false_eq_true, if_false]
    rw [hfin x y _, mulN_cast, mulN_cast]
  · simp only [if_true]
    rw [hfin]
    have hi' : (iNat : Fq) = i := rfl
    simp only [mulN_cast, e1, hi']

/-- The encoding of a projective triple. -/
def encP (p : Proj) : ℕ :=
  force (powMod p.Z (q - 2) q) fun zi => encN (mulN p.X zi) (mulN p.Y zi)

theorem inv_cast {z : ℕ} (h : (z : Fq) ≠ 0) : ((powMod z (q - 2) q : ℕ) : Fq) = (z : Fq)⁻¹ := by
  rw [powMod_cast _ _ _ (by decide +kernel)]
  apply eq_inv_of_mul_eq_one_left
  have := ZMod.pow_card_sub_one_eq_one h
  rw [← pow_succ, show q - 2 + 1 = q - 1 by decide +kernel]
  exact this

theorem encP_spec {p : Proj} {P : Ed} (h : p.Rep P) : (encS P.x P.y).val = encP p := by
  obtain ⟨hz, hx, hy⟩ := h
  obtain ⟨h1, h2⟩ := encN_spec (mulN p.X (powMod p.Z (q - 2) q)) (mulN p.Y (powMod p.Z (q - 2) q))
  simp only [encP, force_eq]
  rw [mulN_cast, mulN_cast, inv_cast hz, hx, hy, mul_assoc, mul_assoc, mul_inv_cancel₀ hz, mul_one,
    mul_one] at h1
  rw [← h1, ZMod.val_cast_of_lt h2]

theorem encode_of_rep {p : Proj} {P : Ristretto255} (h : p.Rep P.1) :
    encode P = leBytes 32 (encP p) := by
  rw [encode, encP_spec h]

theorem decN_spec (s : ℕ) :
    (decN s).map (fun p => ((p.1 : Fq), (p.2 : Fq))) = decS (s : Fq) := by
  simp only [decN, decS, force_eq]
  have e1 : (((1 + negN (mulN s s)) % q : ℕ) : Fq) = 1 - (s : Fq) ^ 2 := by
    rw [cast_mod]
    push_cast
    rw [negN_cast, mulN_cast]
    ring
  have e2 : (((1 + mulN s s) % q : ℕ) : Fq) = 1 + (s : Fq) ^ 2 := by
    rw [cast_mod]
    push_cast
    rw [mulN_cast]
    ring
  generalize (1 + negN (mulN s s)) % q = u1 at e1 ⊢
  generalize (1 + mulN s s) % q = u2 at e2 ⊢
  rw [← e1, ← e2]
  have ev : (((negN (mulN dNat (mulN u1 u1)) + negN (mulN u2 u2)) % q : ℕ) : Fq)
      = -(d * (u1 : Fq) ^ 2) - (u2 : Fq) ^ 2 := by
    rw [cast_mod]
    push_cast
    simp only [negN_cast, mulN_cast]
    rw [d]
    ring
  generalize (negN (mulN dNat (mulN u1 u1)) + negN (mulN u2 u2)) % q = v at ev ⊢
  rw [← ev]
  obtain ⟨h1, h2, -⟩ := invsqrtN_spec (mulN v (mulN u2 u2))
  rw [mulN_cast, mulN_cast, ← sq] at h1 h2
  rw [← h1, ← h2]
  generalize invsqrtN (mulN v (mulN u2 u2)) = w
  obtain ⟨ok, r⟩ := w
  simp only
  have ex : ((absN (mulN (s + s) (mulN r u2)) : ℕ) : Fq)
      = absF (((s : Fq) + s) * ((r : Fq) * u2)) := by
    rw [absN_cast (mulN_lt _ _), mulN_cast, mulN_cast, Nat.cast_add]
  have hylt := mulN_lt u1 (mulN r (mulN (mulN r u2) v))
  have ey : ((mulN u1 (mulN r (mulN (mulN r u2) v)) : ℕ) : Fq)
      = (u1 : Fq) * ((r : Fq) * ((r : Fq) * u2 * v)) := by
    simp only [mulN_cast]
  rw [← ex, ← ey]
  generalize absN (mulN (s + s) (mulN r u2)) = x
  generalize mulN u1 (mulN r (mulN (mulN r u2) v)) = y at hylt ⊢
  have en : isNeg ((x : Fq) * y) = (mulN x y % 2 == 1) := by
    rw [← isNeg_cast (mulN_lt _ _), mulN_cast]
  have e0 : (y : Fq) = 0 ↔ y = 0 := by
    rw [← cast_inj_lt hylt q_pos, Nat.cast_zero]
  simp only [en, ne_eq, e0]
  split <;> simp

/-- Decode 32 bytes to a projective triple. -/
def decP (b : Bytes) : Option Proj :=
  if b.length = 32 ∧ leVal b < q ∧ leVal b % 2 = 0 then
    match decN (leVal b) with
    | some (x, y) => some (affine x y)
    | none => none
  else none

theorem decP_some {b : Bytes} {p : Proj} (h : decP b = some p) :
    ∃ R, decodePoint b = some R ∧ p.Rep R := by
  unfold decP at h
  split at h
  swap
  · simp at h
  rename_i hc
  split at h
  swap
  · simp at h
  rename_i x y hd
  obtain rfl : affine x y = p := by simpa using h
  have hs := decN_spec (leVal b)
  rw [hd, Option.map_some] at hs
  obtain ⟨R, hx, hy, -⟩ := decS_some hs.symm
  refine ⟨R, decodePoint_of hc rfl ?_, rep_affine hx hy⟩
  rw [← hs, hx, hy]

theorem decP_none {b : Bytes} (h : decP b = none) : decode b = none := by
  rw [decode, decodePoint]
  unfold decP at h
  split at h
  · rename_i hc
    rw [if_pos hc]
    have hs := decN_spec (leVal b)
    split at h
    · simp at h
    · rename_i hd
      rw [hd, Option.map_none] at hs
      rw [← hs]
      rfl
  · rename_i hc
    rw [if_neg hc]
    rfl

end Verif.Curve
