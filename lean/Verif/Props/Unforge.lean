import Mathlib.Algebra.MvPolynomial.SchwartzZippel
import Mathlib.Tactic.DeriveFintype
import Mathlib.Tactic.LinearCombination
import Verif.Lemmas.Protocol
import Verif.Props.Mac
import Verif.Toy

/-!
# C62: the MAC cannot be forged by combining group elements
-/

set_option maxRecDepth 100000

namespace Verif

open Amacs

variable {G : Type} [AddCommGroup G] [Module F G] [Ristretto G] [DecidableEq G]

/-! ## The game -/

namespace Spec

/-- What the adversary does not know: the secret key `x0`, `x i`, the discrete logarithm `eta` of `h`, and
for each issuance `j` the discrete logarithm `b j` of the nonce and the opening `t j` of the commitment
to `x0`. -/
inductive Var (k N : ℕ) where
  | x0
  | x (i : Fin k)
  | eta
  | b (j : Fin N)
  | t (j : Fin N)
  deriving DecidableEq, Fintype

/-- Values for all unknowns. -/
abbrev Hidden (k N : ℕ) := Var k N → F

/-- A message with `k` attributes. -/
abbrev Msg (k : ℕ) := Fin k → F

/-- A linear combination of the group elements that the adversary can have: the generators, the issuer
parameters, and nonce, MAC and commitment of each issuance. -/
structure Lin (k N : ℕ) where
  base : F
  h : F
  X : Fin k → F
  nonce : Fin N → F
  mac : Fin N → F
  com : Fin N → F

variable {k N : ℕ}

/-- The secret key. -/
def key (v : Hidden k N) : SecretKey := ⟨.ofF (v .x0), List.ofFn fun i => .ofF (v (.x i))⟩

/-- The system parameters. -/
def params (v : Hidden k N) : SystemParameters G := ⟨basepoint G, v .eta • basepoint G⟩

/-- The scalars of a message. -/
def scalars (m : Msg k) : List Scalar := List.ofFn fun i => .ofF (m i)

/-- The exponent of the MAC on `m`. -/
def factor (v : Hidden k N) (m : Msg k) : F := v .x0 + ∑ i, v (.x i) * m i

/-- The group element given by a linear combination, if the messages `ms` have been issued so far.
Elements of issuances that did not take place count as zero. -/
def Lin.point (L : Lin k N) (v : Hidden k N) (ms : List (Msg k)) : G :=
  L.base • basepoint G + L.h • (v .eta • basepoint G) +
    ∑ i, L.X i • (v (.x i) • (v .eta • basepoint G)) +
    ∑ j : Fin N, match ms[j.1]? with
      | none => 0
      | some m => L.nonce j • (v (.b j) • basepoint G) +
          L.mac j • (factor v m • (v (.b j) • basepoint G)) +
          L.com j • (v .x0 • basepoint G + v (.t j) • (v .eta • basepoint G))

/-- A strategy to forge. The next step depends on everything seen so far: on which of the tested
combinations are the identity (so also on which elements are equal) and on which tags the issuer
accepted. -/
inductive Strategy (k N : ℕ) where
  /-- have a message issued -/
  | issue (m : Msg k) (next : Strategy k N)
  /-- test whether a combination is the identity -/
  | test (L : Lin k N) (yes no : Strategy k N)
  /-- have a tag verified -/
  | verify (m : Msg k) (P Q : Lin k N) (yes no : Strategy k N)
  /-- output a forgery -/
  | output (m : Msg k) (P Q : Lin k N)

/-- The strategy wins: it outputs a tag with non-identity nonce on a message that was not issued, and the
code accepts it. A strategy that asks for more than `N` issuances loses. -/
def Strategy.Wins (G : Type) [AddCommGroup G] [Module F G] [Ristretto G] [DecidableEq G] {k N : ℕ}
    (v : Hidden k N) : List (Msg k) → Strategy k N → Prop
  | ms, .issue m next => ms.length < N ∧ next.Wins G v (ms ++ [m])
  | ms, .test L yes no =>
    ((L.point v ms : G) = 0 ∧ yes.Wins G v ms) ∨ ((L.point v ms : G) ≠ 0 ∧ no.Wins G v ms)
  | ms, .verify m P Q yes no =>
    ((key v).verify (⟨P.point v ms, Q.point v ms⟩ : Tag G) (scalars m) = .ok () ∧ yes.Wins G v ms) ∨
    ((key v).verify (⟨P.point v ms, Q.point v ms⟩ : Tag G) (scalars m) ≠ .ok () ∧ no.Wins G v ms)
  | ms, .output m P Q =>
    (key v).verify (⟨P.point v ms, Q.point v ms⟩ : Tag G) (scalars m) = .ok () ∧
      (P.point v ms : G) ≠ 0 ∧ m ∉ ms

/-- Two per test, three per verification, three for the output, along the longest path. -/
def Strategy.cost : Strategy k N → ℕ
  | .issue _ next => next.cost
  | .test _ yes no => 2 + max yes.cost no.cost
  | .verify _ _ _ yes no => 3 + max yes.cost no.cost
  | .output _ _ _ => 3

end Spec

open Spec

variable {k N : ℕ}

/-! ## Discrete logarithms -/

/-- The discrete logarithm of `Lin.point`. -/
def Spec.Lin.log (L : Lin k N) (v : Hidden k N) (ms : List (Msg k)) : F :=
  L.base + L.h * v .eta + ∑ i, L.X i * (v (.x i) * v .eta) +
    ∑ j : Fin N, match ms[j.1]? with
      | none => 0
      | some m => L.nonce j * v (.b j) + L.mac j * (factor v m * v (.b j)) +
          L.com j * (v .x0 + v (.t j) * v .eta)

omit [DecidableEq G] in
theorem point_eq (L : Lin k N) (v : Hidden k N) (ms : List (Msg k)) :
    (L.point v ms : G) = L.log v ms • basepoint G := by
  simp only [Lin.point, Lin.log, add_smul, Finset.sum_smul, mul_smul]
  congr 1
  refine Finset.sum_congr rfl fun j _ => ?_
  split
  · rw [zero_smul]
  · simp only [add_smul, mul_smul, smul_add]

omit [DecidableEq G] in
theorem smul_base_eq_zero {a : F} : a • basepoint G = 0 ↔ a = 0 := by
  rw [← zero_smul F (basepoint G), smul_right_inj' Ristretto.base_ne]

theorem macFactor_ofFn : ∀ {k : ℕ} (x0 : F) (x m : Fin k → F),
    Spec.macFactor x0 (List.ofFn x) (List.ofFn m) = x0 + ∑ i, x i * m i
  | 0, x0, x, m => by simp [Spec.macFactor]
  | k + 1, x0, x, m => by
    rw [List.ofFn_succ, List.ofFn_succ, Spec.macFactor, macFactor_ofFn, Fin.sum_univ_succ]
    ring

omit [DecidableEq G] in
theorem smul_base_inj {a b : F} : a • basepoint G = b • basepoint G ↔ a = b :=
  smul_right_inj' Ristretto.base_ne

omit [DecidableEq G] in
theorem valid_log (v : Hidden k N) (ms : List (Msg k)) (m : Msg k) (P Q : Lin k N) :
    Spec.MacValid (key v) (⟨P.point v ms, Q.point v ms⟩ : Tag G) (scalars m) ↔
      Q.log v ms = factor v m * P.log v ms := by
  rw [Spec.MacValid, key, scalars]
  simp only [List.map_ofFn, Function.comp_def, Scalar.val_ofF]
  rw [macFactor_ofFn, point_eq, point_eq, smul_smul]
  exact smul_base_inj

/-- What `verify` says, in terms of discrete logarithms. -/
theorem verify_log (v : Hidden k N) (ms : List (Msg k)) (m : Msg k) (P Q : Lin k N) :
    (key v).verify (⟨P.point v ms, Q.point v ms⟩ : Tag G) (scalars m) = .ok () ↔
      P.log v ms ≠ 1 ∧ Q.log v ms = factor v m * P.log v ms := by
  rw [C22_verify_iff, valid_log]
  refine and_congr (not_congr ?_) Iff.rfl
  rw [← smul_base_inj (G := G), one_smul, point_eq]

/-! ## Comparing coefficients -/

/-- The discrete logarithm with coefficients that are zero for issuances that did not take place. -/
def form (p0 ph : F) (pX : Fin k → F) (p q c : Fin N → F) (M : Fin N → Fin k → F) (v : Hidden k N) :
    F :=
  p0 + ph * v .eta + ∑ i, pX i * (v (.x i) * v .eta) +
    ∑ j, (p j * v (.b j) + q j * (factor v (M j) * v (.b j)) + c j * (v .x0 + v (.t j) * v .eta))

/-- `a j` for issuances that took place. -/
def active (ms : List (Msg k)) (a : Fin N → F) (j : Fin N) : F := if j.1 < ms.length then a j else 0

/-- The message of an issuance. -/
def message (ms : List (Msg k)) (j : Fin N) : Msg k := ms[j.1]?.getD 0

theorem log_eq_form (L : Lin k N) (v : Hidden k N) (ms : List (Msg k)) :
    L.log v ms = form L.base L.h L.X (active ms L.nonce) (active ms L.mac) (active ms L.com)
      (message ms) v := by
  simp only [Lin.log, form]
  congr 1
  refine Finset.sum_congr rfl fun j _ => ?_
  simp only [active, message]
  by_cases hj : j.1 < ms.length
  · rw [List.getElem?_eq_getElem hj, if_pos hj, if_pos hj, if_pos hj]
    rfl
  · rw [List.getElem?_eq_none (by omega), if_neg hj, if_neg hj, if_neg hj]
    simp

/-- A point on a five-dimensional family of values. -/
def probe (y : Fin k → F) (β τ : Fin N → F) (s r e u w : F) : Hidden k N
  | .x0 => s
  | .x i => r * y i
  | .eta => e
  | .b j => u * β j
  | .t j => w * τ j

theorem form_probe (p0 ph : F) (pX : Fin k → F) (p q c : Fin N → F) (M : Fin N → Fin k → F)
    (y : Fin k → F) (β τ : Fin N → F) (s r e u w : F) :
    form p0 ph pX p q c M (probe y β τ s r e u w) =
      p0 + ph * e + (∑ i, pX i * y i) * r * e + (∑ j, p j * β j) * u + (∑ j, q j * β j) * s * u +
        (∑ j, q j * β j * ∑ i, y i * M j i) * r * u + (∑ j, c j) * s + (∑ j, c j * τ j) * w * e := by
  have h1 : ∑ i, pX i * (r * y i * e) = (∑ i, pX i * y i) * r * e := by
    rw [Finset.sum_mul, Finset.sum_mul]
    exact Finset.sum_congr rfl fun i _ => by ring
  have h2 : ∀ j, ∑ i, r * y i * M j i = r * ∑ i, y i * M j i := by
    intro j
    rw [Finset.mul_sum]
    exact Finset.sum_congr rfl fun i _ => by ring
  simp only [form, probe, factor, h1, h2]
  have h3 : ∑ j, (p j * (u * β j) + q j * ((s + r * ∑ i, y i * M j i) * (u * β j)) +
      c j * (s + w * τ j * e)) =
      (∑ j, p j * β j) * u + (∑ j, q j * β j) * s * u +
        (∑ j, q j * β j * ∑ i, y i * M j i) * r * u + (∑ j, c j) * s + (∑ j, c j * τ j) * w * e := by
    simp only [Finset.sum_mul, ← Finset.sum_add_distrib]
    exact Finset.sum_congr rfl fun j _ => by ring
  rw [h3]
  ring

theorem coefficients {a0 ah aX aB bB bM c cT p0 ph pX pB qB qM d dT μ : F}
    (h : ∀ s r e u w : F,
      a0 + ah * e + aX * r * e + aB * u + bB * s * u + bM * r * u + c * s + cT * w * e =
        (s + r * μ) *
          (p0 + ph * e + pX * r * e + pB * u + qB * s * u + qM * r * u + d * s + dT * w * e)) :
    ph = 0 ∧ pX = 0 ∧ qB = 0 ∧ d = 0 ∧ dT = 0 ∧ cT = 0 ∧ c = p0 ∧ bB = pB ∧ bM = μ * pB := by
  have h2 : (2 : F) ≠ 0 := by decide +kernel
  have e0 := h 0 0 0 0 0
  have e1 := h 1 0 0 0 0
  have e2 := h (-1) 0 0 0 0
  have f0 := h 0 0 1 0 0
  have f1 := h 1 0 1 0 0
  have f2 := h 0 1 1 0 0
  have f3 := h 1 1 1 0 0
  have f4 := h 0 1 0 0 0
  have f5 := h 1 1 0 0 0
  have g0 := h 0 0 1 0 1
  have g1 := h 1 0 1 0 1
  have k0 := h 0 0 0 1 0
  have k1 := h 1 0 0 1 0
  have k2 := h (-1) 0 0 1 0
  have k3 := h 0 1 0 1 0
  have k4 := h 0 (-1) 0 1 0
  have f6 := h 0 (-1) 0 0 0
  simp only [mul_zero, mul_one, add_zero, zero_add, zero_mul, one_mul, mul_neg, neg_mul] at *
  have hd : d = 0 := by
    have : 2 * d = 0 := by linear_combination -e1 - e2 + 2 * e0
    exact (mul_eq_zero.1 this).resolve_left h2
  have hdT : dT = 0 := by linear_combination -g1 + g0 + f1 - f0
  have hcT : cT = 0 := by linear_combination g0 - f0
  have hph : ph = 0 := by linear_combination -f1 + f0 + e1 - e0
  have hqB : qB = 0 := by
    have : 2 * qB = 0 := by linear_combination -k1 - k2 + 2 * k0 + e1 + e2 - 2 * e0
    exact (mul_eq_zero.1 this).resolve_left h2
  have hc : c = p0 := by linear_combination e1 - e0 + hd
  have hbB : bB = pB := by linear_combination k1 - k0 - e1 + e0 + hqB
  have hpX : pX = 0 := by linear_combination -f3 + f2 + f5 - f4 - hph
  have hqM : μ * qM = 0 := by
    have : 2 * (μ * qM) = 0 := by linear_combination -k3 - k4 + 2 * k0 + f4 + f6 - 2 * e0
    exact (mul_eq_zero.1 this).resolve_left h2
  have hbM : bM = μ * pB := by linear_combination k3 - k0 - f4 + e0 + hqM
  exact ⟨hph, hpX, hqB, hd, hdT, hcT, hc, hbB, hbM⟩

theorem form_forgery {p0 ph a0 ah : F} {pX aX : Fin k → F} {p q c a b d : Fin N → F}
    {M : Fin N → Fin k → F} {m : Fin k → F}
    (h : ∀ v : Hidden k N, form a0 ah aX a b d M v = factor v m * form p0 ph pX p q c M v)
    (hm : ∀ j, p j = 0 ∨ M j ≠ m) (v : Hidden k N) : form p0 ph pX p q c M v = 0 := by
  have key : ∀ (y : Fin k → F) (β τ : Fin N → F), ph = 0 ∧ ∑ i, pX i * y i = 0 ∧ ∑ j, q j * β j = 0 ∧
      ∑ j, c j = 0 ∧ ∑ j, c j * τ j = 0 ∧ ∑ j, d j * τ j = 0 ∧ ∑ j, d j = p0 ∧
      ∑ j, b j * β j = ∑ j, p j * β j ∧
      ∑ j, b j * β j * ∑ i, y i * M j i = (∑ i, y i * m i) * ∑ j, p j * β j := fun y β τ =>
    coefficients (a0 := a0) (ah := ah) (aX := ∑ i, aX i * y i) (aB := ∑ j, a j * β j)
      (qM := ∑ j, q j * β j * ∑ i, y i * M j i) fun s r e u w => by
      have := h (probe y β τ s r e u w)
      rw [form_probe, form_probe] at this
      rw [this]
      congr 1
      simp only [factor, probe, Finset.mul_sum, mul_assoc]
  have single : ∀ {n : ℕ} (f : Fin n → F) (i : Fin n), ∑ j, f j * (Pi.single i 1 : Fin n → F) j = f i := by
    intro n f i
    simp [Pi.single_apply]
  have hq : ∀ j, q j = 0 := fun j => by
    have := (key 0 (Pi.single j 1) 0).2.2.1
    rwa [single] at this
  have hc : ∀ j, c j = 0 := fun j => by
    have := (key 0 0 (Pi.single j 1)).2.2.2.2.1
    rwa [single] at this
  have hd : ∀ j, d j = 0 := fun j => by
    have := (key 0 0 (Pi.single j 1)).2.2.2.2.2.1
    rwa [single] at this
  have hX : ∀ i, pX i = 0 := fun i => by
    have := (key (Pi.single i 1) 0 0).2.1
    rwa [single] at this
  have hh := (key 0 0 0).1
  have h0 := (key 0 0 0).2.2.2.2.2.2.1
  have hb : ∀ j, b j = p j := fun j => by
    have := (key 0 (Pi.single j 1) 0).2.2.2.2.2.2.2.1
    rwa [single, single] at this
  have hp : ∀ j, p j = 0 := fun j => by
    refine (hm j).elim id fun hne => ?_
    obtain ⟨i, hi⟩ := Function.ne_iff.1 hne
    have := (key (Pi.single i 1) (Pi.single j 1) 0).2.2.2.2.2.2.2.2
    have e1 : ∀ f : Fin k → F, ∑ l, (Pi.single i 1 : Fin k → F) l * f l = f i := fun f => by
      simp [Pi.single_apply]
    have e2 : ∑ l, p l * (Pi.single j 1 : Fin N → F) l * M l i = p j * M j i := by
      simp [Pi.single_apply]
    simp only [e1, single, hb] at this
    rw [e2] at this
    have : p j * (M j i - m i) = 0 := by linear_combination this
    exact (mul_eq_zero.1 this).resolve_right (sub_ne_zero.2 hi)
  simp only [form, hq, hc, hX, hh, hp, zero_mul, add_zero, Finset.sum_const_zero]
  rw [← h0]
  simp [hd]

/-- A valid tag on a new message, made by combining group elements: its nonce is the identity. -/
theorem log_forgery {P Q : Lin k N} {ms : List (Msg k)} {m : Msg k} (hm : m ∉ ms)
    (h : ∀ v, Q.log v ms = factor v m * P.log v ms) (v : Hidden k N) : P.log v ms = 0 := by
  rw [log_eq_form]
  refine form_forgery (m := m) (fun v => ((log_eq_form Q v ms).symm.trans (h v)).trans
    (congrArg _ (log_eq_form P v ms))) (fun j => ?_) v
  by_cases hj : j.1 < ms.length
  · right
    intro he
    rw [message, List.getElem?_eq_getElem hj, Option.getD_some] at he
    exact hm (he ▸ List.getElem_mem hj)
  · left
    simp [active, hj]

/-! ## Counting -/

section
open MvPolynomial

theorem clear_denominators {l c D d n : ℕ} (hl : 0 < l) (h : (c : ℚ≥0) / (l : ℚ≥0) ^ n ≤ D / l)
    (hD : D ≤ d) : c * l ≤ d * l ^ n := by
  have hl : (0 : ℚ≥0) < l := by exact_mod_cast hl
  rw [div_le_div_iff₀ (pow_pos hl _) hl] at h
  have h' : c * l ≤ D * l ^ n := by exact_mod_cast h
  exact h'.trans (Nat.mul_le_mul_right _ hD)

/-- A polynomial of degree `d` that is not zero everywhere is zero for at most `d` out of `ℓ` values. -/
theorem density {σ : Type} [Fintype σ] [DecidableEq σ] {p : MvPolynomial σ F} {d : ℕ}
    (hd : p.totalDegree ≤ d) {v : σ → F} (hv : eval v p ≠ 0) :
    (Finset.univ.filter fun v : σ → F => eval v p = 0).card * ell ≤ d * Fintype.card (σ → F) := by
  let e := Fintype.equivFin σ
  have hq : rename e p ≠ 0 := by
    intro h
    rw [← map_zero (rename e), (rename_injective e e.injective).eq_iff] at h
    rw [h, map_zero] at hv
    exact hv rfl
  have h := schwartz_zippel_totalDegree hq (Finset.univ : Finset F)
  have hcard : ((Fintype.piFinset fun _ : Fin (Fintype.card σ) => (Finset.univ : Finset F)).filter
      fun f => eval f (rename e p) = 0).card =
      (Finset.univ.filter fun v : σ → F => eval v p = 0).card := by
    refine Finset.card_equiv (Equiv.arrowCongr e.symm (Equiv.refl F)) fun f => ?_
    simp only [Finset.mem_filter, Fintype.mem_piFinset, Finset.mem_univ, implies_true, true_and,
      eval_rename]
    rfl
  have hF : (Finset.univ : Finset F).card = ell := by rw [Finset.card_univ, ZMod.card]
  have hA : Fintype.card (σ → F) = ell ^ Fintype.card σ := by rw [Fintype.card_fun, ZMod.card]
  have hpos : 0 < ell := by norm_num [ell]
  have hle : (rename e p).totalDegree ≤ d := (totalDegree_rename_le e p).trans hd
  rw [hcard, hF] at h
  rw [hA]
  exact clear_denominators hpos h hle

/-- `Spec.factor` as a polynomial. -/
noncomputable def factorPoly (N : ℕ) (m : Msg k) : MvPolynomial (Var k N) F :=
  X .x0 + ∑ i, X (.x i) * C (m i)

/-- `Spec.Lin.log` as a polynomial. -/
noncomputable def logPoly (L : Lin k N) (ms : List (Msg k)) : MvPolynomial (Var k N) F :=
  C L.base + C L.h * X .eta + ∑ i, C (L.X i) * (X (.x i) * X .eta) +
    ∑ j : Fin N, match ms[j.1]? with
      | none => 0
      | some m => C (L.nonce j) * X (.b j) + C (L.mac j) * (factorPoly N m * X (.b j)) +
          C (L.com j) * (X .x0 + X (.t j) * X .eta)

theorem eval_factorPoly (m : Msg k) (v : Hidden k N) : eval v (factorPoly N m) = factor v m := by
  simp [factorPoly, factor]

theorem eval_logPoly (L : Lin k N) (ms : List (Msg k)) (v : Hidden k N) :
    eval v (logPoly L ms) = L.log v ms := by
  simp only [logPoly, Lin.log, map_add, map_mul, map_sum, eval_C, eval_X]
  congr 1
  refine Finset.sum_congr rfl fun j _ => ?_
  split <;> simp [eval_factorPoly]

theorem degree_add {σ : Type} {p q : MvPolynomial σ F} {d : ℕ} (hp : p.totalDegree ≤ d)
    (hq : q.totalDegree ≤ d) : (p + q).totalDegree ≤ d :=
  (totalDegree_add p q).trans (max_le hp hq)

theorem degree_mul {σ : Type} {p q : MvPolynomial σ F} {d e f : ℕ} (hp : p.totalDegree ≤ d)
    (hq : q.totalDegree ≤ e) (hf : d + e ≤ f) : (p * q).totalDegree ≤ f :=
  (totalDegree_mul p q).trans ((Nat.add_le_add hp hq).trans hf)

theorem degree_C {σ : Type} (a : F) : (C a : MvPolynomial σ F).totalDegree ≤ 0 := by simp

theorem degree_X {σ : Type} (i : σ) : (X i : MvPolynomial σ F).totalDegree ≤ 1 := by simp

theorem degree_factor (m : Msg k) : (factorPoly N m).totalDegree ≤ 1 :=
  degree_add (degree_X _) (totalDegree_finsetSum_le fun _ _ => degree_mul (degree_X _) (degree_C _) le_rfl)

theorem degree_log (L : Lin k N) (ms : List (Msg k)) : (logPoly L ms).totalDegree ≤ 2 := by
  refine degree_add (degree_add (degree_add ((degree_C _).trans (by omega))
    (degree_mul (degree_C _) (degree_X _) (by omega)))
    (totalDegree_finsetSum_le fun _ _ => degree_mul (degree_C _)
      (degree_mul (degree_X _) (degree_X _) le_rfl) (by omega)))
    (totalDegree_finsetSum_le fun j _ => ?_)
  split
  · simp
  · exact degree_add (degree_add (degree_mul (degree_C _) (degree_X _) (by omega))
      (degree_mul (degree_C _) (degree_mul (degree_factor _) (degree_X _) le_rfl) (by omega)))
      (degree_mul (degree_C _) (degree_add ((degree_X _).trans (by omega))
        (degree_mul (degree_X _) (degree_X _) le_rfl)) (by omega))

end

/-! ## C62 -/

/-- How many values of the unknowns have a property. -/
noncomputable def Spec.count {k N : ℕ} (p : Hidden k N → Prop) : ℕ := {v | p v}.ncard

theorem count_le {p q : Hidden k N → Prop} (h : ∀ v, p v → q v) : Spec.count p ≤ Spec.count q :=
  Set.ncard_le_ncard h (Set.toFinite _)

theorem count_or (p q : Hidden k N → Prop) :
    Spec.count (fun v => p v ∨ q v) ≤ Spec.count p + Spec.count q :=
  Set.ncard_union_le _ _

theorem count_false {p : Hidden k N → Prop} (h : ∀ v, ¬ p v) : Spec.count p = 0 := by
  rw [Spec.count, Set.ncard_eq_zero (Set.toFinite _), Set.eq_empty_iff_forall_notMem]
  exact h

theorem count_eq (p : Hidden k N → Prop) [DecidablePred p] :
    Spec.count p = (Finset.univ.filter p).card := by
  rw [Spec.count, Set.ncard_eq_toFinset_card', Set.toFinset_ofPred]

/-- An event that is rare, or a smaller bound for the rest. -/
theorem count_step {p q r : Hidden k N → Prop} {a b c : ℕ}
    (h : ∀ v, p v → q v ∨ r v)
    (hq : Spec.count q * ell ≤ a * Fintype.card (Hidden k N))
    (hr : Spec.count r * ell ≤ b * Fintype.card (Hidden k N)) (hc : a + b ≤ c) :
    Spec.count p * ell ≤ c * Fintype.card (Hidden k N) := by
  refine (Nat.mul_le_mul_right _ ((count_le h).trans (count_or q r))).trans ?_
  refine le_trans ?_ (Nat.mul_le_mul_right _ hc)
  rw [add_mul, add_mul]
  exact Nat.add_le_add hq hr

theorem count_test {L : Lin k N} {ms : List (Msg k)} {c : F} {v : Hidden k N} (hv : L.log v ms ≠ c) :
    Spec.count (fun v => L.log v ms = c) * ell ≤ 2 * Fintype.card (Hidden k N) := by
  have h := density (p := logPoly L ms - MvPolynomial.C c) (d := 2) (v := v)
    ((MvPolynomial.totalDegree_sub _ _).trans (max_le (degree_log L ms) ((degree_C c).trans (by omega))))
    (by rw [map_sub, eval_logPoly, MvPolynomial.eval_C]; exact sub_ne_zero.2 hv)
  refine le_trans (Nat.mul_le_mul_right _ (le_of_eq ?_)) h
  simp only [count_eq, map_sub, eval_logPoly, MvPolynomial.eval_C, sub_eq_zero]

theorem count_valid {P Q : Lin k N} {ms : List (Msg k)} {m : Msg k} {v : Hidden k N}
    (hv : Q.log v ms ≠ factor v m * P.log v ms) :
    Spec.count (fun v => Q.log v ms = factor v m * P.log v ms) * ell ≤
      3 * Fintype.card (Hidden k N) := by
  have h := density (p := logPoly Q ms - factorPoly N m * logPoly P ms) (d := 3) (v := v)
    ((MvPolynomial.totalDegree_sub _ _).trans (max_le ((degree_log Q ms).trans (by omega))
      (degree_mul (degree_factor m) (degree_log P ms) (by omega))))
    (by rw [map_sub, map_mul, eval_logPoly, eval_logPoly, eval_factorPoly]; exact sub_ne_zero.2 hv)
  refine le_trans (Nat.mul_le_mul_right _ (le_of_eq ?_)) h
  simp only [count_eq, map_sub, map_mul, eval_logPoly, eval_factorPoly, sub_eq_zero]

/-- **C62**: whatever strategy an adversary uses to combine the group elements it is given, to test
combinations and to have tags verified, with any number of messages issued and of attributes: it outputs
a tag that the code accepts, with non-identity nonce and on a message that was not issued, for at most
`cost` out of every `ℓ` values of the unknowns, where `cost` counts 2 for each test and 3 for each
verification on the longest path, and 3 for the output. -/
theorem C62_unforgeable : ∀ (s : Strategy k N) (ms : List (Msg k)),
    Spec.count (fun v => s.Wins G v ms) * ell ≤ s.cost * Fintype.card (Hidden k N)
  | .issue m next, ms => by
    refine le_trans (Nat.mul_le_mul_right _ (count_le fun v hv => ?_))
      (C62_unforgeable next (ms ++ [m]))
    exact hv.2
  | .test L yes no, ms => by
    by_cases h : ∀ v : Hidden k N, L.log v ms = 0
    · refine le_trans (le_trans (Nat.mul_le_mul_right _ (count_le fun v hv => ?_))
        (C62_unforgeable yes ms)) (Nat.mul_le_mul_right _ (by simp only [Strategy.cost]; omega))
      rcases hv with hv | hv
      · exact hv.2
      · rw [point_eq, h v, zero_smul] at hv
        exact absurd rfl hv.1
    · push Not at h
      obtain ⟨w, hw⟩ := h
      refine count_step (fun v hv => ?_) (count_test hw) (C62_unforgeable no ms)
        (by simp only [Strategy.cost]; omega)
      rcases hv with hv | hv
      · left
        rw [point_eq, smul_base_eq_zero] at hv
        exact hv.1
      · exact .inr hv.2
  | .verify m P Q yes no, ms => by
    by_cases h : ∀ v : Hidden k N, Q.log v ms = factor v m * P.log v ms
    · by_cases h1 : ∀ v : Hidden k N, P.log v ms = 1
      · refine le_trans (le_trans (Nat.mul_le_mul_right _ (count_le fun v hv => ?_))
          (C62_unforgeable no ms)) (Nat.mul_le_mul_right _ (by simp only [Strategy.cost]; omega))
        rcases hv with hv | hv
        · exact absurd (h1 v) ((verify_log v ms m P Q).1 hv.1).1
        · exact hv.2
      · push Not at h1
        obtain ⟨w, hw⟩ := h1
        refine count_step (fun v hv => ?_) (count_test hw) (C62_unforgeable yes ms)
          (by simp only [Strategy.cost]; omega)
        rcases hv with hv | hv
        · exact .inr hv.2
        · left
          by_contra h2
          exact hv.1 ((verify_log v ms m P Q).2 ⟨h2, h v⟩)
    · push Not at h
      obtain ⟨w, hw⟩ := h
      refine count_step (fun v hv => ?_) (count_valid hw) (C62_unforgeable no ms)
        (by simp only [Strategy.cost]; omega)
      rcases hv with hv | hv
      · exact .inl ((verify_log v ms m P Q).1 hv.1).2
      · exact .inr hv.2
  | .output m P Q, ms => by
    by_cases h : m ∉ ms ∧ ∃ v : Hidden k N, Q.log v ms ≠ factor v m * P.log v ms
    · obtain ⟨_, w, hw⟩ := h
      refine le_trans (Nat.mul_le_mul_right _ (count_le fun v hv => ?_)) (count_valid hw)
      exact ((verify_log v ms m P Q).1 hv.1).2
    · rw [count_false]
      · simp
      · rintro v ⟨h1, h2, h3⟩
        push Not at h
        rw [point_eq, log_forgery h3 (h h3) v, zero_smul] at h2
        exact h2 rfl

omit [DecidableEq G] in
/-- **C62 (for all keys)**: a combination that is a valid tag on `m` whatever the unknowns are has the
identity as nonce, or is on a message that was issued. -/
theorem C62_all_keys {P Q : Lin k N} {ms : List (Msg k)} {m : Msg k}
    (h : ∀ v : Hidden k N,
      Spec.MacValid (key v) (⟨P.point v ms, Q.point v ms⟩ : Tag G) (scalars m)) :
    (∀ v : Hidden k N, (P.point v ms : G) = 0) ∨ m ∈ ms := by
  by_cases hm : m ∈ ms
  · exact .inr hm
  · left
    intro v
    rw [point_eq, log_forgery hm (fun v => (valid_log v ms m P Q).1 (h v)) v, zero_smul]

omit [DecidableEq G] in
/-- **C62 (the game is about the code)**: the elements that a strategy combines are those that the code
gives out. The issuer parameters are `x i • h`; and whatever `issue` returns consists of a nonce
`b • base`, the MAC on it, the commitment `x0 • g + t • h`, and a proof (which has no group elements). -/
theorem C62_view {R : Type} [RngCore R] (O : Oracle) (v : Hidden k N) (m : Msg k) (rng : R) (e : Bytes)
    {c : CredentialIssuance G}
    (hc : (Issuer.issue O ⟨params v, ⟨(key v).getPublicKey (params v).h, key v⟩⟩ ⟨scalars m⟩ rng e).1 =
      .ok c) :
    ((key v).getPublicKey (params v).h : PublicKey G).Xn =
        List.ofFn (fun i => v (.x i) • (v .eta • basepoint G)) ∧
      c.credential.mac.nonce = (issueDraws O rng).1.val • basepoint G ∧
      c.credential.mac.mac = factor v m • ((issueDraws O rng).1.val • basepoint G) ∧
      c.secretKeyCommitment = v .x0 • basepoint G +
        (issueDraws O rng).2.val • (v .eta • basepoint G) := by
  refine ⟨?_, ?_⟩
  · simp only [SecretKey.getPublicKey, key, params, List.map_ofFn, Function.comp_def, Scalar.smul_def,
      Scalar.val_ofF]
  have hn : c.credential.mac.nonce = (issueDraws O rng).1.val • basepoint G := by
    rw [C25_nonce_of_issue hc]
    simp only [issueDraws, Scalar.random, Scalar.fromWide, Scalar.val_ofF]
    rfl
  have hv := (C25_issue_valid hc).2
  refine ⟨hn, ?_, ?_⟩
  · rw [Spec.MacValid] at hv
    rw [hv, hn]
    simp only [key, scalars, List.map_ofFn, Function.comp_def, Scalar.val_ofF]
    rw [macFactor_ofFn, factor]
  · rw [Issuer.issue] at hc
    split at hc
    · cases hc
    · split at hc
      · cases hc
      · dsimp only at hc
        rw [Res.bind_eq_ok] at hc
        obtain ⟨tag, h1, hc⟩ := hc
        rw [Res.bind_eq_ok] at hc
        obtain ⟨m0, _, hc⟩ := hc
        obtain rfl := Res.ok.inj hc
        have hlen : ¬ (key v).xn.length ≠ (scalars m).length := by simp [key, scalars]
        dsimp only
        rw [SecretKey.mac, if_neg hlen]
        simp only [Pedersen.commit, Ephemeral.new, params, Scalar.smul_def, key, Scalar.val_ofF]
        rfl

-- a lucky guess wins: with no issuance at all, if the key happens to be x0 = 1, x1 = 0
example : Strategy.Wins F (fun u => if u = .x0 then 1 else 0 : Hidden 1 0) []
    (.output 0 ⟨2, 0, 0, 0, 0, 0⟩ ⟨2, 0, 0, 0, 0, 0⟩) := by
  refine ⟨(verify_log _ _ _ _ _).2 ?_, ?_, by simp⟩ <;> decide +kernel

-- the hypothesis of C62_all_keys, for a message that was issued: the tag of that message, times two
example (m : Msg 1) (v : Hidden 1 1) : Spec.MacValid (key v)
    (⟨(⟨0, 0, 0, 2, 0, 0⟩ : Lin 1 1).point v [m], (⟨0, 0, 0, 0, 2, 0⟩ : Lin 1 1).point v [m]⟩ : Tag F)
    (scalars m) := by
  rw [valid_log]
  simp [Lin.log]
  ring

-- the hypothesis of C62_view
example : ∃ c, (Issuer.issue toyOracle (⟨params (fun _ => 3 : Hidden 1 0),
    ⟨(key (fun _ => 3 : Hidden 1 0)).getPublicKey (params (fun _ => 3 : Hidden 1 0)).h,
      key (fun _ => 3 : Hidden 1 0)⟩⟩ : Issuer F) ⟨scalars (fun _ => 5 : Msg 1)⟩ (⟨0⟩ : ToyRng) []).1 =
    .ok c := ⟨_, rfl⟩

end Verif
