import Verif.Curve.Edwards

/-!
# Evaluating the group law

Projective points with natural-number coordinates below `q`, so that the kernel can evaluate sums
and scalar multiples with its big-number arithmetic. `Rep p P` says that the triple `p` denotes the
curve point `P`; every operation is proved to respect it.

curve25519-dalek itself uses extended coordinates; only the denoted point is modelled.
-/

namespace Verif.Curve

/-- A projective triple `(X : Y : Z)`. -/
structure Proj where
  X : ℕ
  Y : ℕ
  Z : ℕ
  deriving DecidableEq

namespace Proj

/-- The triple denotes the point. -/
def Rep (p : Proj) (P : Ed) : Prop :=
  (p.Z : Fq) ≠ 0 ∧ (p.X : Fq) = P.x * p.Z ∧ (p.Y : Fq) = P.y * p.Z

/-- Hand a number to a continuation after evaluating it. -/
def force {α : Type} (n : ℕ) (k : ℕ → α) : α :=
  match n with
  | 0 => k 0
  | m + 1 => k (m + 1)

@[simp] theorem force_eq {α : Type} (n : ℕ) (k : ℕ → α) : force n k = k n := by
  cases n <;> rfl

def zero : Proj := ⟨0, 1, 1⟩

def affine (x y : ℕ) : Proj := ⟨x, y, 1⟩

/-- The unified projective addition. -/
def add (p r : Proj) : Proj :=
  force (p.Z * r.Z % q) fun a =>
  force (a * a % q) fun b =>
  force (p.X * r.X % q) fun c =>
  force (p.Y * r.Y % q) fun e =>
  force (dNat * (c * e % q) % q) fun g =>
  force (b + (q - g)) fun f =>
  force (b + g) fun h =>
  force (a * f % q * ((p.X * r.Y + r.X * p.Y) % q) % q) fun x =>
  force (a * h % q * (e + c) % q) fun y =>
  force (f * h % q) fun z => ⟨x, y, z⟩

def neg (p : Proj) : Proj := ⟨q - p.X % q, p.Y, p.Z⟩

/-- Double-and-add, low bit first. -/
def smulAux : ℕ → ℕ → Proj → Proj → Proj
  | 0, _, _, acc => acc
  | fuel + 1, n, p, acc =>
    if n = 0 then acc
    else smulAux fuel (n / 2) (add p p) (if n % 2 = 1 then add acc p else acc)

/-- `n` times a point, for `n < 2^256`. -/
def smul (n : ℕ) (p : Proj) : Proj := smulAux 256 n p zero

/-- The triple denotes the identity. -/
def isZero (p : Proj) : Bool := p.X % q == 0 && p.Y % q == p.Z % q

/-- Two triples denote the same point. -/
def same (p r : Proj) : Bool :=
  p.X * r.Z % q == r.X * p.Z % q && p.Y * r.Z % q == r.Y * p.Z % q

theorem cast_mod (a : ℕ) : ((a % q : ℕ) : Fq) = (a : Fq) := ZMod.natCast_mod a q

theorem rep_zero : Rep zero 0 := by
  refine ⟨?_, ?_, ?_⟩ <;> simp [zero]

theorem rep_affine {x y : ℕ} {P : Ed} (hx : P.x = x) (hy : P.y = y) : Rep (affine x y) P := by
  refine ⟨?_, ?_, ?_⟩ <;> simp [affine, hx, hy]

theorem rep_add {p r : Proj} {P R : Ed} (hp : Rep p P) (hr : Rep r R) :
    Rep (add p r) (P + R) := by
  obtain ⟨z1, x1, y1⟩ := hp
  obtain ⟨z2, x2, y2⟩ := hr
  have h1 := Ed.den_pos P R
  have h2 := Ed.den_neg P R
  have hg : dNat * (p.X * r.X % q * (p.Y * r.Y % q) % q) % q ≤ q := (Nat.mod_lt _ (by norm_num [q])).le
  have hq : ((q : ℕ) : Fq) = 0 := ZMod.natCast_self q
  have eF : ((p.Z * r.Z % q * (p.Z * r.Z % q) % q
      + (q - dNat * (p.X * r.X % q * (p.Y * r.Y % q) % q) % q) : ℕ) : Fq)
      = ((p.Z : Fq) * r.Z) ^ 2 * (1 - d * P.x * R.x * P.y * R.y) := by
    rw [Nat.cast_add, Nat.cast_sub hg]
    simp only [cast_mod, Nat.cast_mul, hq, x1, x2, y1, y2]
    rw [d]
    ring
  have eG : ((p.Z * r.Z % q * (p.Z * r.Z % q) % q
      + dNat * (p.X * r.X % q * (p.Y * r.Y % q) % q) % q : ℕ) : Fq)
      = ((p.Z : Fq) * r.Z) ^ 2 * (1 + d * P.x * R.x * P.y * R.y) := by
    rw [Nat.cast_add]
    simp only [cast_mod, Nat.cast_mul, x1, x2, y1, y2]
    rw [d]
    ring
  refine ⟨?_, ?_, ?_⟩
  · simp only [add, force_eq]
    rw [cast_mod, Nat.cast_mul, eF, eG]
    simp [z1, z2, h1, h2]
  · simp only [add, force_eq]
    simp only [cast_mod, Nat.cast_mul, eF, eG, Nat.cast_add (p.X * r.Y)]
    rw [Ed.add_x, x1, x2, y1, y2]
    field_simp
  · simp only [add, force_eq]
    simp only [cast_mod, Nat.cast_mul, eF, eG, Nat.cast_add (p.Y * r.Y % q)]
    rw [Ed.add_y, x1, x2, y1, y2]
    field_simp

theorem rep_neg {p : Proj} {P : Ed} (hp : Rep p P) : Rep (neg p) (-P) := by
  obtain ⟨z, x, y⟩ := hp
  refine ⟨z, ?_, y⟩
  have hq : ((q : ℕ) : Fq) = 0 := ZMod.natCast_self q
  simp only [neg]
  rw [Nat.cast_sub (Nat.mod_lt _ (by norm_num [q])).le, cast_mod, hq, x, Ed.neg_x]
  ring

theorem rep_smulAux : ∀ (fuel n : ℕ) {p acc : Proj} {P A : Ed}, n < 2 ^ fuel → Rep p P → Rep acc A →
    Rep (smulAux fuel n p acc) (A + n • P)
  | 0, n, p, acc, P, A, hn, _, ha => by
    have : n = 0 := by simpa using hn
    subst this
    simpa [smulAux] using ha
  | fuel + 1, n, p, acc, P, A, hn, hp, ha => by
    by_cases h0 : n = 0
    · subst h0
      simpa [smulAux] using ha
    have h2 : n / 2 < 2 ^ fuel := by
      rw [pow_succ] at hn
      omega
    simp only [smulAux, h0, if_false]
    have hd := rep_add hp hp
    by_cases h1 : n % 2 = 1
    · have := rep_smulAux fuel (n / 2) h2 hd (rep_add ha hp)
      rw [if_pos h1]
      have e : A + n • P = A + P + (n / 2) • (P + P) := by
        conv_lhs => rw [show n = 2 * (n / 2) + 1 by omega]
        rw [add_smul, mul_comm, mul_smul, one_smul, two_smul, _root_.add_assoc]
        congr 1
        exact _root_.add_comm _ _
      rw [e]
      exact this
    · have := rep_smulAux fuel (n / 2) h2 hd ha
      rw [if_neg h1]
      have e : A + n • P = A + (n / 2) • (P + P) := by
        conv_lhs => rw [show n = 2 * (n / 2) by omega]
        rw [mul_comm, mul_smul, two_smul]
      rw [e]
      exact this

theorem rep_smul {n : ℕ} {p : Proj} {P : Ed} (hn : n < 2 ^ 256) (hp : Rep p P) :
    Rep (smul n p) (n • P) := by
  have := rep_smulAux 256 n hn hp rep_zero
  rwa [_root_.zero_add] at this

theorem nat_cast_inj {a b : ℕ} : (a : Fq) = b ↔ a % q = b % q :=
  ZMod.natCast_eq_natCast_iff a b q

theorem isZero_iff {p : Proj} {P : Ed} (h : Rep p P) : p.isZero = true ↔ P = 0 := by
  obtain ⟨z, x, y⟩ := h
  simp only [isZero, Bool.and_eq_true, beq_iff_eq]
  rw [← nat_cast_inj, y, show p.X % q = 0 ↔ (p.X : Fq) = ((0 : ℕ) : Fq) by
    rw [nat_cast_inj]; simp, x]
  constructor
  · rintro ⟨hx, hy⟩
    ext
    · simpa [z] using hx
    · have : (P.y - 1) * (p.Z : Fq) = 0 := by linear_combination hy
      rcases mul_eq_zero.1 this with h | h
      · exact sub_eq_zero.1 h
      · exact absurd h z
  · rintro rfl
    simp

theorem same_iff {p r : Proj} {P R : Ed} (hp : Rep p P) (hr : Rep r R) :
    p.same r = true ↔ P = R := by
  obtain ⟨z, x, y⟩ := hp
  obtain ⟨z', x', y'⟩ := hr
  simp only [same, Bool.and_eq_true, beq_iff_eq]
  rw [← nat_cast_inj, ← nat_cast_inj]
  simp only [Nat.cast_mul, x, y, x', y']
  constructor
  · rintro ⟨hx, hy⟩
    ext
    · exact mul_right_cancel₀ (mul_ne_zero z z') (by linear_combination hx)
    · exact mul_right_cancel₀ (mul_ne_zero z z') (by linear_combination hy)
  · rintro rfl
    constructor <;> ring

end Proj

end Verif.Curve
