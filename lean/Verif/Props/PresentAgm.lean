import Verif.Props.Unforge
import Verif.Props.NizkQuery

/-!
# C70: presentations cannot be made for values that were not issued
-/

set_option maxRecDepth 100000

namespace Verif

open Amacs

variable {G : Type} [AddCommGroup G] [Module F G] [Ristretto G]

/-! ## The game -/

namespace Spec.Present

/-- What the adversary does not know: the secret key `x0`, `x1`, the discrete logarithm `eta` of `h`; for
each issuance to the adversary the discrete logarithm `b` of the nonce and the opening `t` of the
commitment to `x0`; for each presentation by another user the discrete logarithm `rho` of the nonce and
the openings `zeta`, `xi` of the attribute and of the MAC; for each roster entry of another user its
opening `y`. -/
inductive Var (N : ℕ) where
  | x0
  | x1
  | eta
  | b (j : Fin N)
  | t (j : Fin N)
  | rho (j : Fin N)
  | zeta (j : Fin N)
  | xi (j : Fin N)
  | y (j : Fin N)
  deriving DecidableEq, Fintype

/-- Values for all unknowns. -/
abbrev Hidden (N : ℕ) := Var N → F

/-- The attributes issued to the adversary, those of the presentations it watched, and those of the roster
entries it has seen, oldest first. -/
@[ext] structure View where
  issued : List F
  watched : List F
  enrolled : List F

/-- A later view. -/
def View.Le (s s' : View) : Prop :=
  s.issued <+: s'.issued ∧ s.watched <+: s'.watched ∧ s.enrolled <+: s'.enrolled

/-- A linear combination of the group elements that the adversary can have. -/
structure Lin (N : ℕ) where
  /-- the generators `g` and `h` and the issuer parameter -/
  base : F
  h : F
  X : F
  /-- nonce, MAC and key commitment of an issuance -/
  nonce : Fin N → F
  mac : Fin N → F
  com : Fin N → F
  /-- nonce, committed attribute and committed MAC of a presentation by another user -/
  showP : Fin N → F
  showC : Fin N → F
  showQ : Fin N → F
  /-- roster entry of another user -/
  entry : Fin N → F

variable {N : ℕ}

/-- The generator `h`. -/
def hPoint (v : Hidden N) : G := v .eta • basepoint G

/-- The group element given by a linear combination. Elements that were not given out so far count as
zero. -/
def Lin.point (L : Lin N) (v : Hidden N) (s : View) : G :=
  L.base • basepoint G + L.h • hPoint v + L.X • (v .x1 • hPoint v) +
    (∑ j : Fin N, match s.issued[j.1]? with
      | none => 0
      | some m => L.nonce j • (v (.b j) • basepoint G) +
          L.mac j • ((v .x0 + v .x1 * m) • (v (.b j) • basepoint G)) +
          L.com j • (v .x0 • basepoint G + v (.t j) • hPoint v)) +
    (∑ j : Fin N, match s.watched[j.1]? with
      | none => 0
      | some m => L.showP j • (v (.rho j) • basepoint G) +
          L.showC j • (m • (v (.rho j) • basepoint G) + v (.zeta j) • hPoint v) +
          L.showQ j • ((v .x0 + v .x1 * m) • (v (.rho j) • basepoint G) + v (.xi j) • hPoint v)) +
    (∑ j : Fin N, match s.enrolled[j.1]? with
      | none => 0
      | some m => L.entry j • (m • hPoint v + v (.y j) • basepoint G))

/-- A hash query. -/
inductive Query (N : ℕ) where
  /-- of a presentation proof: `P`, `V`, `Cm0` and the two commitments -/
  | valid (P V C R₁ R₂ : Lin N)
  /-- of a roster proof: `P`, `Cm0`, `Cm1` and the two commitments -/
  | equal (P C D S₁ S₂ : Lin N)

/-- A hash query, the view when it was made, and its answer. -/
structure Record (N : ℕ) where
  query : Query N
  view : View
  c : F

/-- The presentation with MAC commitment `CQ` and responses `m`, `z`, `w` is accepted with the hash answer
in the record. -/
def Record.Valid (G : Type) [AddCommGroup G] [Module F G] [Ristretto G] (v : Hidden N) (s : View)
    (r : Record N) (CQ : Lin N) (m z w : F) : Prop :=
  match r.query with
  | .valid P V C R₁ R₂ =>
    (V.point v r.view + CQ.point v s : G) = v .x0 • P.point v r.view + v .x1 • C.point v r.view ∧
    (R₁.point v r.view : G) = m • P.point v r.view + z • hPoint v - r.c • C.point v r.view ∧
    (R₂.point v r.view : G) = z • (v .x1 • hPoint v) + w • hPoint v - r.c • V.point v r.view
  | .equal .. => False

/-- The roster proof with responses `m`, `z`, `z₁` is accepted with the hash answer in the record. -/
def Record.Equal (G : Type) [AddCommGroup G] [Module F G] [Ristretto G] (v : Hidden N) (r : Record N)
    (m z z₁ : F) : Prop :=
  match r.query with
  | .valid .. => False
  | .equal P C D S₁ S₂ =>
    (S₁.point v r.view : G) = m • P.point v r.view + z • hPoint v - r.c • C.point v r.view ∧
    (S₂.point v r.view : G) = m • hPoint v + z₁ • basepoint G - r.c • D.point v r.view

/-- A strategy. Each step depends on everything seen so far. -/
inductive Strategy (N : ℕ) where
  /-- have an attribute issued -/
  | issue (m : F) (next : Strategy N)
  /-- see a presentation of another user, with attribute `m` -/
  | watch (m : F) (next : Strategy N)
  /-- see a roster entry of another user, for the number `m` -/
  | enrol (m : F) (next : Strategy N)
  /-- test whether a combination is the identity -/
  | test (L : Lin N) (yes no : Strategy N)
  /-- query the hash -/
  | hash (q : Query N) (next : F → Strategy N)
  /-- have a presentation verified, whose hash query was the `i`-th -/
  | present (i : ℕ) (CQ : Lin N) (m z w : F) (yes no : Strategy N)
  /-- have a roster proof verified, whose hash query was the `i`-th -/
  | member (i : ℕ) (m z z₁ : F) (yes no : Strategy N)
  /-- output a presentation -/
  | outputShow (i : ℕ) (CQ : Lin N) (m z w : F)
  /-- output a presentation with a roster proof -/
  | outputMember (i : ℕ) (CQ : Lin N) (m z w : F) (i' : ℕ) (m' z' z₁ : F)

/-- The committed attribute of the query was issued to the adversary: it is the commitment to some
issued `m` whose opening is the adversary's own coefficient of `h`. -/
def OpensShow (G : Type) [AddCommGroup G] [Module F G] [Ristretto G] (v : Hidden N) (s : View)
    (r : Record N) (m : F) : Prop :=
  match r.query with
  | .valid P _ C _ _ => m ∈ s.issued ∧ (C.point v r.view : G) = m • P.point v r.view + C.h • hPoint v
  | .equal .. => False

/-- The roster entry of the query is the commitment to `m` whose opening is the adversary's own
coefficient of `g`. -/
def OpensEntry (G : Type) [AddCommGroup G] [Module F G] [Ristretto G] (v : Hidden N)
    (r : Record N) (m : F) : Prop :=
  match r.query with
  | .valid .. => False
  | .equal _ _ D _ _ => (D.point v r.view : G) = m • hPoint v + D.base • basepoint G

/-- Two queries are about the same presentation, and its nonce is not the identity. -/
def Same (G : Type) [AddCommGroup G] [Module F G] [Ristretto G] (v : Hidden N) (r r' : Record N) : Prop :=
  match r.query, r'.query with
  | .valid P _ C _ _, .equal P' C' _ _ _ =>
    (P.point v r.view : G) = P'.point v r'.view ∧ (C.point v r.view : G) = C'.point v r'.view
  | _, _ => False

/-- The nonce is not the identity. -/
def Nontrivial (G : Type) [AddCommGroup G] [Module F G] [Ristretto G] (v : Hidden N) (r : Record N) :
    Prop :=
  match r.query with
  | .valid P _ _ _ _ => (P.point v r.view : G) ≠ 0
  | .equal .. => False

/-- The strategy wins: it outputs an accepted presentation with non-identity nonce whose committed
attribute was not issued to it, or an accepted presentation and roster proof that are not for the same
attribute issued to it. Hash answers come from the tape; a strategy that asks for more loses. -/
def Strategy.Wins (G : Type) [AddCommGroup G] [Module F G] [Ristretto G] {N : ℕ} (v : Hidden N) :
    View → List (Record N) → List F → Strategy N → Prop
  | s, rs, tape, .issue m next => next.Wins G v { s with issued := s.issued ++ [m] } rs tape
  | s, rs, tape, .watch m next => next.Wins G v { s with watched := s.watched ++ [m] } rs tape
  | s, rs, tape, .enrol m next => next.Wins G v { s with enrolled := s.enrolled ++ [m] } rs tape
  | s, rs, tape, .test L yes no =>
    ((L.point v s : G) = 0 ∧ yes.Wins G v s rs tape) ∨ ((L.point v s : G) ≠ 0 ∧ no.Wins G v s rs tape)
  | s, rs, tape, .hash q next =>
    match tape with
    | [] => False
    | c :: tape => (next c).Wins G v s (rs ++ [⟨q, s, c⟩]) tape
  | s, rs, tape, .present i CQ m z w yes no =>
    ∃ r, rs[i]? = some r ∧ ((r.Valid G v s CQ m z w ∧ yes.Wins G v s rs tape) ∨
      (¬ r.Valid G v s CQ m z w ∧ no.Wins G v s rs tape))
  | s, rs, tape, .member i m z z₁ yes no =>
    ∃ r, rs[i]? = some r ∧ ((r.Equal G v m z z₁ ∧ yes.Wins G v s rs tape) ∨
      (¬ r.Equal G v m z z₁ ∧ no.Wins G v s rs tape))
  | s, rs, _, .outputShow i CQ m z w =>
    ∃ r, rs[i]? = some r ∧ r.Valid G v s CQ m z w ∧ Nontrivial G v r ∧ ∀ m, ¬ OpensShow G v s r m
  | s, rs, _, .outputMember i CQ m z w i' m' z' z₁ =>
    ∃ r r', rs[i]? = some r ∧ rs[i']? = some r' ∧ r.Valid G v s CQ m z w ∧ r'.Equal G v m' z' z₁ ∧
      Same G v r r' ∧ Nontrivial G v r ∧ ∀ m, ¬ (OpensShow G v s r m ∧ OpensEntry G v r' m)

/-- Two per test, one per hash query, three per verification and for the output, along the longest
path. -/
noncomputable def Strategy.cost : Strategy N → ℕ
  | .issue _ next => next.cost
  | .watch _ next => next.cost
  | .enrol _ next => next.cost
  | .test _ yes no => 2 + max yes.cost no.cost
  | .hash _ next => 1 + Finset.univ.sup fun c => (next c).cost
  | .present _ _ _ _ _ yes no => 3 + max yes.cost no.cost
  | .member _ _ _ _ yes no => 3 + max yes.cost no.cost
  | .outputShow .. => 3
  | .outputMember .. => 3

/-- How many values of the unknowns and of the hash answers have a property. -/
noncomputable def count {N : ℕ} (Q : ℕ) (p : Hidden N → List F → Prop) : ℕ :=
  {x : Hidden N × (Fin Q → F) | p x.1 (List.ofFn x.2)}.ncard

end Spec.Present

/-! ## Discrete logarithms -/

namespace Present

open Spec.Present

variable {N : ℕ}

/-- The discrete logarithm of `Lin.point`. -/
def log (L : Lin N) (v : Hidden N) (s : View) : F :=
  L.base + L.h * v .eta + L.X * (v .x1 * v .eta) +
    (∑ j : Fin N, match s.issued[j.1]? with
      | none => 0
      | some m => L.nonce j * v (.b j) + L.mac j * ((v .x0 + v .x1 * m) * v (.b j)) +
          L.com j * (v .x0 + v (.t j) * v .eta)) +
    (∑ j : Fin N, match s.watched[j.1]? with
      | none => 0
      | some m => L.showP j * v (.rho j) + L.showC j * (m * v (.rho j) + v (.zeta j) * v .eta) +
          L.showQ j * ((v .x0 + v .x1 * m) * v (.rho j) + v (.xi j) * v .eta)) +
    (∑ j : Fin N, match s.enrolled[j.1]? with
      | none => 0
      | some m => L.entry j * (m * v .eta + v (.y j)))

theorem point_eq (L : Lin N) (v : Hidden N) (s : View) :
    (L.point v s : G) = log L v s • basepoint G := by
  simp only [Lin.point, log, hPoint, add_smul, mul_smul, Finset.sum_smul]
  congr 1
  · congr 1
    · congr 1
      refine Finset.sum_congr rfl fun j _ => ?_
      split <;> simp [add_smul, mul_smul, smul_add]
    · refine Finset.sum_congr rfl fun j _ => ?_
      split <;> simp [add_smul, mul_smul, smul_add]
  · refine Finset.sum_congr rfl fun j _ => ?_
    split <;> simp [add_smul, mul_smul, smul_add]

/-- A combination without the elements that were not given out yet. -/
def trunc (s : View) (L : Lin N) : Lin N where
  base := L.base
  h := L.h
  X := L.X
  nonce j := if j.1 < s.issued.length then L.nonce j else 0
  mac j := if j.1 < s.issued.length then L.mac j else 0
  com j := if j.1 < s.issued.length then L.com j else 0
  showP j := if j.1 < s.watched.length then L.showP j else 0
  showC j := if j.1 < s.watched.length then L.showC j else 0
  showQ j := if j.1 < s.watched.length then L.showQ j else 0
  entry j := if j.1 < s.enrolled.length then L.entry j else 0

/-- The sum of two combinations. -/
def plus (L K : Lin N) : Lin N where
  base := L.base + K.base
  h := L.h + K.h
  X := L.X + K.X
  nonce j := L.nonce j + K.nonce j
  mac j := L.mac j + K.mac j
  com j := L.com j + K.com j
  showP j := L.showP j + K.showP j
  showC j := L.showC j + K.showC j
  showQ j := L.showQ j + K.showQ j
  entry j := L.entry j + K.entry j

/-- An entry of a list. -/
def attr (l : List F) (j : Fin N) : F := l[j.1]?.getD 0

/-- `log` with an attribute for every index. -/
def form (L : Lin N) (M W E : Fin N → F) (v : Hidden N) : F :=
  L.base + L.h * v .eta + L.X * (v .x1 * v .eta) +
    (∑ j : Fin N, (L.nonce j * v (.b j) + L.mac j * ((v .x0 + v .x1 * M j) * v (.b j)) +
          L.com j * (v .x0 + v (.t j) * v .eta))) +
    (∑ j : Fin N, (L.showP j * v (.rho j) + L.showC j * (W j * v (.rho j) + v (.zeta j) * v .eta) +
          L.showQ j * ((v .x0 + v .x1 * W j) * v (.rho j) + v (.xi j) * v .eta))) +
    (∑ j : Fin N, L.entry j * (E j * v .eta + v (.y j)))

theorem attr_of_prefix {l l' : List F} (h : l <+: l') {j : Fin N} {m : F} (hj : l[j.1]? = some m) :
    j.1 < l.length ∧ attr l' j = m := by
  obtain ⟨r, rfl⟩ := h
  have hlt : j.1 < l.length := by
    by_contra hc
    rw [List.getElem?_eq_none (by omega)] at hj
    cases hj
  refine ⟨hlt, ?_⟩
  rw [attr, List.getElem?_append_left hlt, hj, Option.getD_some]

theorem not_lt_of_none {l : List F} {j : Fin N} (h : l[j.1]? = none) : ¬ j.1 < l.length := by
  simpa using h

theorem log_eq_form (L : Lin N) (v : Hidden N) {s s' : View} (hs : s.Le s') :
    log L v s = form (trunc s L) (attr s'.issued) (attr s'.watched) (attr s'.enrolled) v := by
  simp only [log, form]
  congr 1
  · congr 1
    · congr 1
      refine Finset.sum_congr rfl fun j _ => ?_
      split
      · rename_i h
        simp [trunc, not_lt_of_none h]
      · rename_i h
        obtain ⟨h1, h2⟩ := attr_of_prefix hs.1 h
        simp [trunc, h1, h2]
    · refine Finset.sum_congr rfl fun j _ => ?_
      split
      · rename_i h
        simp [trunc, not_lt_of_none h]
      · rename_i h
        obtain ⟨h1, h2⟩ := attr_of_prefix hs.2.1 h
        simp [trunc, h1, h2]
  · refine Finset.sum_congr rfl fun j _ => ?_
    split
    · rename_i h
      simp [trunc, not_lt_of_none h]
    · rename_i h
      obtain ⟨h1, h2⟩ := attr_of_prefix hs.2.2 h
      simp [trunc, h1, h2]

theorem form_plus (L K : Lin N) (M W E : Fin N → F) (v : Hidden N) :
    form (plus L K) M W E v = form L M W E v + form K M W E v := by
  have h : ∀ f g f' g' f'' g'' : Fin N → F, ∀ a b : F,
      a + ∑ j, f j + ∑ j, f' j + ∑ j, f'' j + (b + ∑ j, g j + ∑ j, g' j + ∑ j, g'' j) =
      a + b + ∑ j, (f j + g j) + ∑ j, (f' j + g' j) + ∑ j, (f'' j + g'' j) := by
    intro f g f' g' f'' g'' a b
    simp only [Finset.sum_add_distrib]
    ring
  simp only [form]
  rw [h]
  congr 1
  · congr 1
    · congr 1
      · simp only [plus]
        ring
      · exact Finset.sum_congr rfl fun j _ => by simp only [plus]; ring
    · exact Finset.sum_congr rfl fun j _ => by simp only [plus]; ring
  · exact Finset.sum_congr rfl fun j _ => by simp only [plus]; ring

/-! ## Comparing coefficients -/

/-- Values for the unknowns. -/
def probe (x0 x1 e : F) (β τ ρ ζ ξ υ : Fin N → F) : Hidden N
  | .x0 => x0
  | .x1 => x1
  | .eta => e
  | .b j => β j
  | .t j => τ j
  | .rho j => ρ j
  | .zeta j => ζ j
  | .xi j => ξ j
  | .y j => υ j

theorem sum_single (f : Fin N → F) (i : Fin N) : ∑ j, f j * (Pi.single i 1 : Fin N → F) j = f i := by
  simp [Pi.single_apply]

theorem form_const (L : Lin N) (M W E : Fin N → F) (x0 x1 : F) :
    form L M W E (probe x0 x1 0 0 0 0 0 0 0) = L.base + (∑ j, L.com j) * x0 := by
  simp [form, probe, Finset.sum_mul]

theorem form_eta (L : Lin N) (M W E : Fin N → F) (x0 x1 : F) :
    form L M W E (probe x0 x1 1 0 0 0 0 0 0) =
      L.base + L.h + L.X * x1 + (∑ j, L.com j) * x0 + ∑ j, L.entry j * E j := by
  simp [form, probe, Finset.sum_mul]

theorem form_b (L : Lin N) (M W E : Fin N → F) (x0 x1 : F) (i : Fin N) :
    form L M W E (probe x0 x1 0 (Pi.single i 1) 0 0 0 0 0) =
      L.base + (∑ j, L.com j) * x0 + L.nonce i + L.mac i * (x0 + x1 * M i) := by
  have h : ∑ j, (L.nonce j * (Pi.single i 1 : Fin N → F) j +
      L.mac j * ((x0 + x1 * M j) * (Pi.single i 1 : Fin N → F) j) + L.com j * x0) =
      L.nonce i + L.mac i * (x0 + x1 * M i) + (∑ j, L.com j) * x0 := by
    simp only [Finset.sum_add_distrib, ← mul_assoc]
    rw [sum_single, sum_single (fun j => L.mac j * (x0 + x1 * M j)), Finset.sum_mul]
  simp only [form, probe, Pi.zero_apply, mul_zero, add_zero, Finset.sum_const_zero]
  rw [h]
  ring

theorem form_t (L : Lin N) (M W E : Fin N → F) (x0 x1 : F) (i : Fin N) :
    form L M W E (probe x0 x1 1 0 (Pi.single i 1) 0 0 0 0) =
      L.base + L.h + L.X * x1 + (∑ j, L.com j) * x0 + ∑ j, L.entry j * E j + L.com i := by
  have h : ∑ j, L.com j * (x0 + (Pi.single i 1 : Fin N → F) j) = (∑ j, L.com j) * x0 + L.com i := by
    simp only [mul_add, Finset.sum_add_distrib]
    rw [sum_single, Finset.sum_mul]
  simp only [form, probe, Pi.zero_apply, mul_zero, add_zero, zero_add, mul_one, Finset.sum_const_zero]
  rw [h]
  ring

theorem form_rho (L : Lin N) (M W E : Fin N → F) (x0 x1 : F) (i : Fin N) :
    form L M W E (probe x0 x1 0 0 0 (Pi.single i 1) 0 0 0) =
      L.base + (∑ j, L.com j) * x0 + L.showP i + L.showC i * W i + L.showQ i * (x0 + x1 * W i) := by
  have h : ∑ j, (L.showP j * (Pi.single i 1 : Fin N → F) j +
      L.showC j * (W j * (Pi.single i 1 : Fin N → F) j) +
      L.showQ j * ((x0 + x1 * W j) * (Pi.single i 1 : Fin N → F) j)) =
      L.showP i + L.showC i * W i + L.showQ i * (x0 + x1 * W i) := by
    simp only [Finset.sum_add_distrib, ← mul_assoc]
    rw [sum_single, sum_single (fun j => L.showC j * W j),
      sum_single (fun j => L.showQ j * (x0 + x1 * W j))]
  simp only [form, probe, Pi.zero_apply, mul_zero, add_zero, zero_add, Finset.sum_const_zero]
  rw [h, Finset.sum_mul]
  ring

theorem form_zeta (L : Lin N) (M W E : Fin N → F) (x0 x1 : F) (i : Fin N) :
    form L M W E (probe x0 x1 1 0 0 0 (Pi.single i 1) 0 0) =
      L.base + L.h + L.X * x1 + (∑ j, L.com j) * x0 + ∑ j, L.entry j * E j + L.showC i := by
  simp only [form, probe, Pi.zero_apply, mul_zero, add_zero, zero_add, mul_one]
  rw [sum_single, Finset.sum_mul]
  ring

theorem form_xi (L : Lin N) (M W E : Fin N → F) (x0 x1 : F) (i : Fin N) :
    form L M W E (probe x0 x1 1 0 0 0 0 (Pi.single i 1) 0) =
      L.base + L.h + L.X * x1 + (∑ j, L.com j) * x0 + ∑ j, L.entry j * E j + L.showQ i := by
  simp only [form, probe, Pi.zero_apply, mul_zero, add_zero, zero_add, mul_one]
  rw [sum_single, Finset.sum_mul]
  ring

theorem form_y (L : Lin N) (M W E : Fin N → F) (x0 x1 : F) (i : Fin N) :
    form L M W E (probe x0 x1 0 0 0 0 0 0 (Pi.single i 1)) =
      L.base + (∑ j, L.com j) * x0 + L.entry i := by
  simp only [form, probe, Pi.zero_apply, mul_zero, add_zero, zero_add, Finset.sum_const_zero]
  rw [sum_single, Finset.sum_mul]

/-- What the equation `A = x0 * P + x1 * C` says about the coefficients of `P` and `C`. -/
theorem structure_of_valid {A P C : Lin N} {M W E : Fin N → F}
    (h : ∀ v : Hidden N, form A M W E v = v .x0 * form P M W E v + v .x1 * form C M W E v) :
    (∀ v, form P M W E v = ∑ j, P.nonce j * v (.b j)) ∧
    (∀ v, form C M W E v = C.h * v .eta + ∑ j, M j * P.nonce j * v (.b j)) := by
  have h2 : (2 : F) ≠ 0 := by decide +kernel
  have c0 : ∀ x0 x1 : F, A.base + (∑ j, A.com j) * x0 =
      x0 * (P.base + (∑ j, P.com j) * x0) + x1 * (C.base + (∑ j, C.com j) * x0) := fun x0 x1 => by
    have := h (probe x0 x1 0 0 0 0 0 0 0)
    simpa only [form_const, probe] using this
  have ce : ∀ x0 x1 : F, A.base + A.h + A.X * x1 + (∑ j, A.com j) * x0 + ∑ j, A.entry j * E j =
      x0 * (P.base + P.h + P.X * x1 + (∑ j, P.com j) * x0 + ∑ j, P.entry j * E j) +
      x1 * (C.base + C.h + C.X * x1 + (∑ j, C.com j) * x0 + ∑ j, C.entry j * E j) := fun x0 x1 => by
    have := h (probe x0 x1 1 0 0 0 0 0 0)
    simpa only [form_eta, probe] using this
  -- one index of one family at a time
  have ht : ∀ (x0 x1 : F) i, A.com i = x0 * P.com i + x1 * C.com i := fun x0 x1 i => by
    have := h (probe x0 x1 1 0 (Pi.single i 1) 0 0 0 0)
    simp only [form_t, probe] at this
    linear_combination this - ce x0 x1
  have hz : ∀ (x0 x1 : F) i, A.showC i = x0 * P.showC i + x1 * C.showC i := fun x0 x1 i => by
    have := h (probe x0 x1 1 0 0 0 (Pi.single i 1) 0 0)
    simp only [form_zeta, probe] at this
    linear_combination this - ce x0 x1
  have hx : ∀ (x0 x1 : F) i, A.showQ i = x0 * P.showQ i + x1 * C.showQ i := fun x0 x1 i => by
    have := h (probe x0 x1 1 0 0 0 0 (Pi.single i 1) 0)
    simp only [form_xi, probe] at this
    linear_combination this - ce x0 x1
  have hy : ∀ (x0 x1 : F) i, A.entry i = x0 * P.entry i + x1 * C.entry i := fun x0 x1 i => by
    have := h (probe x0 x1 0 0 0 0 0 0 (Pi.single i 1))
    simp only [form_y, probe] at this
    linear_combination this - c0 x0 x1
  have hr : ∀ (x0 x1 : F) i,
      A.showP i + A.showC i * W i + A.showQ i * (x0 + x1 * W i) =
      x0 * (P.showP i + P.showC i * W i + P.showQ i * (x0 + x1 * W i)) +
      x1 * (C.showP i + C.showC i * W i + C.showQ i * (x0 + x1 * W i)) := fun x0 x1 i => by
    have := h (probe x0 x1 0 0 0 (Pi.single i 1) 0 0 0)
    simp only [form_rho, probe] at this
    linear_combination this - c0 x0 x1
  have hb : ∀ (x0 x1 : F) i, A.nonce i + A.mac i * (x0 + x1 * M i) =
      x0 * (P.nonce i + P.mac i * (x0 + x1 * M i)) +
      x1 * (C.nonce i + C.mac i * (x0 + x1 * M i)) := fun x0 x1 i => by
    have := h (probe x0 x1 0 (Pi.single i 1) 0 0 0 0 0)
    simp only [form_b, probe] at this
    linear_combination this - c0 x0 x1
  have lin : ∀ {a p c : Fin N → F}, (∀ (x0 x1 : F) i, a i = x0 * p i + x1 * c i) →
      (∀ i, a i = 0) ∧ (∀ i, p i = 0) ∧ ∀ i, c i = 0 := fun {a p c} hl =>
    ⟨fun i => by linear_combination hl 0 0 i, fun i => by linear_combination hl 0 0 i - hl 1 0 i,
      fun i => by linear_combination hl 0 0 i - hl 0 1 i⟩
  obtain ⟨ac, pc, dc⟩ := lin ht
  obtain ⟨az, pz, dz⟩ := lin hz
  obtain ⟨ax, px, dx⟩ := lin hx
  obtain ⟨-, py, dy⟩ := lin hy
  simp only [ac, pc, dc, Finset.sum_const_zero, zero_mul, add_zero] at c0 ce
  simp only [az, pz, dz, ax, px, dx, zero_mul, add_zero] at hr
  obtain ⟨-, pr, dr⟩ := lin hr
  simp only [py, dy, zero_mul, Finset.sum_const_zero, add_zero] at ce
  have p0 : P.base = 0 := by linear_combination c0 0 0 - c0 1 0
  have d0 : C.base = 0 := by linear_combination c0 0 0 - c0 0 1
  have ph : P.h = 0 := by linear_combination ce 0 0 - ce 1 0 - p0
  have dX : C.X = 0 := by
    have : 2 * C.X = 0 := by linear_combination 2 * ce 0 0 - ce 0 1 - ce 0 (-1)
    exact (mul_eq_zero.1 this).resolve_left h2
  have pX : P.X = 0 := by linear_combination ce 0 1 - ce 1 1 - p0 - ph
  have an : ∀ i, A.nonce i = 0 := fun i => by linear_combination hb 0 0 i
  have pm : ∀ i, P.mac i = 0 := fun i => by
    have : 2 * P.mac i = 0 := by linear_combination 2 * an i - hb 1 0 i - hb (-1) 0 i
    exact (mul_eq_zero.1 this).resolve_left h2
  have am : ∀ i, A.mac i = P.nonce i := fun i => by linear_combination hb 1 0 i - an i + pm i
  have dM : ∀ i, C.mac i * M i = 0 := fun i => by
    have : 2 * (C.mac i * M i) = 0 := by linear_combination 2 * an i - hb 0 1 i - hb 0 (-1) i
    exact (mul_eq_zero.1 this).resolve_left h2
  have dn : ∀ i, C.nonce i = M i * P.nonce i := fun i => by
    linear_combination -hb 0 1 i + an i - dM i + M i * am i
  have dm : ∀ i, C.mac i = 0 := fun i => by
    linear_combination -hb 1 1 i + an i + (1 + M i) * am i - (1 + M i) * pm i - dn i - dM i
  constructor
  · intro v
    simp only [form, p0, ph, pX, pm, pc, pz, px, pr, py, zero_mul, add_zero, zero_add,
      Finset.sum_const_zero]
  · intro v
    simp only [form, d0, dX, dm, dc, dz, dx, dr, dy, dn, zero_mul, add_zero, zero_add,
      Finset.sum_const_zero]

/-- The same for combinations made at different times: `P` combines only nonces of issuances, and `C` is
the commitment that belongs to it, with the issued attributes. -/
theorem log_structure {P V C CQ : Lin N} {s s' : View} (hs : s.Le s')
    (h : ∀ v : Hidden N, log V v s + log CQ v s' = v .x0 * log P v s + v .x1 * log C v s) :
    (∀ v, log P v s = ∑ j, (trunc s P).nonce j * v (.b j)) ∧
    (∀ v, log C v s = C.h * v .eta + ∑ j, attr s'.issued j * (trunc s P).nonce j * v (.b j)) := by
  have hs' : s'.Le s' := ⟨List.prefix_rfl, List.prefix_rfl, List.prefix_rfl⟩
  simp only [log_eq_form _ _ hs, log_eq_form _ _ hs', ← form_plus] at h ⊢
  exact structure_of_valid h

/-- An equation of a presentation proof, for two challenges. -/
theorem two_challenges {R P C : Hidden N → F} {c c' m m' z z' : F} (hc : c ≠ c')
    (h : ∀ v, R v = m * P v + z * v .eta - c * C v) (h' : ∀ v, R v = m' * P v + z' * v .eta - c' * C v)
    (v : Hidden N) :
    C v = (m - m') / (c - c') * P v + (z - z') / (c - c') * v .eta := by
  have hne : c - c' ≠ 0 := sub_ne_zero.2 hc
  field_simp
  linear_combination h v - h' v

/-! ## Hash queries -/

/-- What acceptance for all values of the unknowns says about a query. -/
def Sound (r : Record N) : Prop :=
  match r.query with
  | .valid P V C R₁ _ => ∀ (s' : View) (CQ : Lin N) (m z : F), r.view.Le s' →
      (∀ v : Hidden N, log V v r.view + log CQ v s' =
        v .x0 * log P v r.view + v .x1 * log C v r.view) →
      (∀ v : Hidden N, log R₁ v r.view =
        m * log P v r.view + z * v .eta - r.c * log C v r.view) →
      (∀ v : Hidden N, log P v r.view = 0) ∨
        ((∃ v : Hidden N, v .eta = 0 ∧ log P v r.view ≠ 0) ∧ ∃ m ∈ r.view.issued, ∀ v : Hidden N,
          log C v r.view = m * log P v r.view + C.h * v .eta)
  | .equal P C D S₁ S₂ => ∀ m z z₁ : F,
      (∀ v : Hidden N, log S₁ v r.view =
        m * log P v r.view + z * v .eta - r.c * log C v r.view) →
      (∀ v : Hidden N, log S₂ v r.view = m * v .eta + z₁ - r.c * log D v r.view) →
      ∃ m z : F, (∀ v : Hidden N, log C v r.view = m * log P v r.view + z * v .eta) ∧
        ∀ v : Hidden N, log D v r.view = m * v .eta + D.base

theorem log_h (a b x : F) (v : Hidden N) (s : View) :
    log ⟨a, b, x, 0, 0, 0, 0, 0, 0, 0⟩ v s = a + b * v .eta + x * (v .x1 * v .eta) := by
  have h : ∀ {l : List F} {j : Fin N}, (match l[j.1]? with | none => (0 : F) | some _ => 0) = 0 := by
    intro l j
    split <;> rfl
  simp [log, h]

theorem log_zero (L : Lin N) (s : View) : log L (fun _ => 0) s = L.base := by
  simp only [log, mul_zero, add_zero, zero_mul]
  have h : ∀ {l : List F} {j : Fin N}, (match l[j.1]? with | none => (0 : F) | some _ => 0) = 0 := by
    intro l j
    split <;> rfl
  simp [h]

/-- A query with two answers for which it is not sound. -/
theorem unsound_unique {q : Query N} {s : View} {c c' : F} (h : ¬ Sound ⟨q, s, c⟩)
    (h' : ¬ Sound ⟨q, s, c'⟩) : c = c' := by
  by_contra hc
  cases q with
  | valid P V C R₁ R₂ =>
    simp only [Sound] at h h'
    push Not at h h'
    obtain ⟨s', CQ, m, z, hs, h1, h2, h3, h4⟩ := h
    obtain ⟨_, _, m', z', -, -, h2', -⟩ := h'
    obtain ⟨hP, hC⟩ := log_structure hs h1
    have hD := two_challenges hc h2 h2'
    have hM : ∀ j, (trunc s P).nonce j ≠ 0 → attr s'.issued j = (m - m') / (c - c') := by
      intro j hj
      have := hD (probe 0 0 0 (Pi.single j 1) 0 0 0 0 0)
      rw [hP, hC] at this
      simp only [probe, mul_zero, zero_add, add_zero, sum_single] at this
      exact mul_right_cancel₀ hj this
    obtain ⟨w, hw⟩ := h3
    obtain ⟨j, hj⟩ : ∃ j, (trunc s P).nonce j ≠ 0 := by
      by_contra hn
      push Not at hn
      rw [hP] at hw
      simp [hn] at hw
    have hlt : j.1 < s.issued.length := by
      by_contra hn
      exact hj (by simp [trunc, hn])
    obtain ⟨v, hv⟩ := h4 ⟨probe 0 0 0 (Pi.single j 1) 0 0 0 0 0, rfl, by
      rw [hP]
      simpa only [probe, sum_single] using hj⟩ (s.issued[j.1]) (List.getElem_mem hlt)
    refine hv ?_
    have hm := (attr_of_prefix hs.1 (List.getElem?_eq_getElem hlt)).2
    rw [hP, hC, ← hm, hM j hj, Finset.mul_sum, add_comm]
    congr 1
    refine Finset.sum_congr rfl fun i _ => ?_
    by_cases hi : (trunc s P).nonce i = 0
    · simp [hi]
    · rw [hM i hi]
      ring
  | equal P C D S₁ S₂ =>
    simp only [Sound] at h h'
    push Not at h h'
    obtain ⟨m, z, z₁, h1, h2, h3⟩ := h
    obtain ⟨m', z', z₁', h1', h2', -⟩ := h'
    have hne : c - c' ≠ 0 := sub_ne_zero.2 hc
    have hD : ∀ v : Hidden N, log D v s = (m - m') / (c - c') * v .eta + (z₁ - z₁') / (c - c') := by
      intro v
      field_simp
      linear_combination h2 v - h2' v
    obtain ⟨v, hv⟩ := h3 _ _ (two_challenges hc h1 h1')
    refine hv ?_
    have := hD fun _ => 0
    rw [log_zero, mul_zero, zero_add] at this
    rw [hD, this]

/-! ## Counting -/

section
open MvPolynomial

/-- A polynomial function of bounded degree. -/
def Poly (d : ℕ) (f : Hidden N → F) : Prop :=
  ∃ p : MvPolynomial (Var N) F, p.totalDegree ≤ d ∧ ∀ v, eval v p = f v

theorem Poly.mono {d e : ℕ} {f : Hidden N → F} (h : Poly d f) (hd : d ≤ e) : Poly e f :=
  let ⟨p, hp, hf⟩ := h
  ⟨p, hp.trans hd, hf⟩

theorem poly_const (d : ℕ) (a : F) : Poly d (fun _ : Hidden N => a) :=
  ⟨C a, (degree_C a).trans (Nat.zero_le _), fun _ => eval_C _⟩

theorem poly_var (u : Var N) : Poly 1 (fun v => v u) := ⟨X u, degree_X u, fun _ => eval_X _⟩

theorem Poly.add {d : ℕ} {f g : Hidden N → F} (hf : Poly d f) (hg : Poly d g) :
    Poly d (fun v => f v + g v) :=
  let ⟨p, hp, hf⟩ := hf
  let ⟨q, hq, hg⟩ := hg
  ⟨p + q, degree_add hp hq, fun v => by rw [map_add, hf, hg]⟩

theorem Poly.mul {d e : ℕ} {f g : Hidden N → F} (hf : Poly d f) (hg : Poly e g) :
    Poly (d + e) (fun v => f v * g v) :=
  let ⟨p, hp, hf⟩ := hf
  let ⟨q, hq, hg⟩ := hg
  ⟨p * q, degree_mul hp hq le_rfl, fun v => by rw [map_mul, hf, hg]⟩

theorem Poly.smul {d : ℕ} {f : Hidden N → F} (a : F) (hf : Poly d f) : Poly d (fun v => a * f v) := by
  have := (poly_const 0 a).mul hf
  rwa [zero_add] at this

theorem Poly.sub {d : ℕ} {f g : Hidden N → F} (hf : Poly d f) (hg : Poly d g) :
    Poly d (fun v => f v - g v) := by
  have := hf.add (hg.smul (-1))
  simpa only [neg_one_mul, ← sub_eq_add_neg] using this

theorem Poly.sum {d n : ℕ} {f : Fin n → Hidden N → F} (hf : ∀ j, Poly d (f j)) :
    Poly d (fun v => ∑ j, f j v) := by
  choose p hp hf using hf
  exact ⟨∑ j, p j, totalDegree_finsetSum_le fun j _ => hp j, fun v => by simp only [map_sum, hf]⟩

theorem poly_log (L : Lin N) (s : View) : Poly 2 (fun v => log L v s) := by
  have e := poly_var (N := N) .eta
  have x0 := poly_var (N := N) .x0
  have x1 := poly_var (N := N) .x1
  refine Poly.add (Poly.add (Poly.add (Poly.add (Poly.add (poly_const _ _)
    ((e.smul _).mono (by omega))) ((x1.mul e).smul _)) (Poly.sum fun j => ?_))
    (Poly.sum fun j => ?_)) (Poly.sum fun j => ?_)
  · cases s.issued[j.1]? with
    | none => exact poly_const _ _
    | some m =>
      have b := poly_var (Var.b j)
      have t := poly_var (Var.t j)
      exact (((b.smul _).mono (by omega)).add
        (((x0.add ((x1.mul (poly_const 0 m)).mono le_rfl)).mul b).smul _)).add
        (((x0.mono (by omega)).add (t.mul e)).smul _)
  · cases s.watched[j.1]? with
    | none => exact poly_const _ _
    | some m =>
      have r := poly_var (Var.rho j)
      have z := poly_var (Var.zeta j)
      have x := poly_var (Var.xi j)
      exact (((r.smul _).mono (by omega)).add
        ((((r.smul m).mono (by omega)).add (z.mul e)).smul _)).add
        ((((x0.add ((x1.mul (poly_const 0 m)).mono le_rfl)).mul r).add (x.mul e)).smul _)
  · cases s.enrolled[j.1]? with
    | none => exact poly_const _ _
    | some m =>
      exact (((e.smul m).add (poly_var (Var.y j))).smul _).mono (by omega)

/-- Always, or for at most 3 out of `ℓ` values. -/
def Dich (p : Hidden N → Prop) : Prop :=
  (∀ v, p v) ∨ {v | p v}.ncard * ell ≤ 3 * Fintype.card (Hidden N)

theorem ncard_zero {d : ℕ} {f : Hidden N → F} (hf : Poly d f) {v : Hidden N} (hv : f v ≠ 0) :
    {v | f v = 0}.ncard * ell ≤ d * Fintype.card (Hidden N) := by
  obtain ⟨p, hp, he⟩ := hf
  have h := density hp (v := v) (by rwa [he])
  rw [Set.ncard_eq_toFinset_card', Set.toFinset_ofPred]
  simpa only [he] using h

theorem dich_eq {f g : Hidden N → F} (hf : Poly 3 f) (hg : Poly 3 g) : Dich (fun v => f v = g v) := by
  by_cases h : ∀ v, f v = g v
  · exact .inl h
  · right
    push Not at h
    obtain ⟨v, hv⟩ := h
    simpa only [sub_eq_zero] using ncard_zero (hf.sub hg) (v := v) (sub_ne_zero.2 hv)

theorem Dich.and {p q : Hidden N → Prop} (hp : Dich p) (hq : Dich q) : Dich (fun v => p v ∧ q v) := by
  rcases hp with hp | hp
  · rcases hq with hq | hq
    · exact .inl fun v => ⟨hp v, hq v⟩
    · exact .inr (le_trans (Nat.mul_le_mul_right _ (Set.ncard_le_ncard (fun v h => h.2)
        (Set.toFinite _))) hq)
  · exact .inr (le_trans (Nat.mul_le_mul_right _ (Set.ncard_le_ncard (fun v h => h.1)
      (Set.toFinite _))) hp)

theorem dich_false : Dich (fun _ : Hidden N => False) := .inr (by simp)

end

theorem count_le {Q : ℕ} {p q : Hidden N → List F → Prop} (h : ∀ v t, p v t → q v t) :
    count Q p ≤ count Q q :=
  Set.ncard_le_ncard (fun _ hx => h _ _ hx) (Set.toFinite _)

theorem count_or (Q : ℕ) (p q : Hidden N → List F → Prop) :
    count Q (fun v t => p v t ∨ q v t) ≤ count Q p + count Q q :=
  Set.ncard_union_le _ _

theorem count_false {Q : ℕ} {p : Hidden N → List F → Prop} (h : ∀ v t, ¬ p v t) : count Q p = 0 := by
  rw [count, Set.ncard_eq_zero (Set.toFinite _), Set.eq_empty_iff_forall_notMem]
  exact fun _ => h _ _

theorem count_none {p : Hidden N → List F → Prop} (h : ∀ v, ¬ p v []) : count 0 p = 0 := by
  rw [count, Set.ncard_eq_zero (Set.toFinite _), Set.eq_empty_iff_forall_notMem]
  exact fun _ => h _

/-- The number of all values. -/
def total (N Q : ℕ) : ℕ := Fintype.card (Hidden N) * ell ^ Q

theorem count_hidden (Q : ℕ) (p : Hidden N → Prop) :
    count Q (fun v _ => p v) = {v | p v}.ncard * ell ^ Q := by
  have : {x : Hidden N × (Fin Q → F) | p x.1} = {v | p v} ×ˢ Set.univ := by
    ext x
    simp
  rw [count, this, Set.ncard_prod, Set.ncard_univ, Nat.card_eq_fintype_card, Fintype.card_fun,
    ZMod.card, Fintype.card_fin]

theorem count_total (Q : ℕ) (p : Hidden N → List F → Prop) : count Q p ≤ total N Q := by
  refine (count_le (q := fun _ _ => True) fun _ _ _ => trivial).trans (le_of_eq ?_)
  have h : {_v : Hidden N | True}.ncard = Fintype.card (Hidden N) := by
    rw [show {_v : Hidden N | True} = Set.univ from rfl, Set.ncard_univ, Nat.card_eq_fintype_card]
  rw [count_hidden, total, h]

theorem ncard_succ {A K : Type} [Fintype A] [Fintype K] (Q : ℕ) (p : A → List K → Prop) :
    {x : A × (Fin (Q + 1) → K) | p x.1 (List.ofFn x.2)}.ncard =
      ∑ c : K, {x : A × (Fin Q → K) | p x.1 (c :: List.ofFn x.2)}.ncard := by
  classical
  simp only [Set.ncard_eq_toFinset_card', Set.toFinset_ofPred, Finset.card_filter]
  simp only [Fintype.sum_prod_type]
  rw [Finset.sum_comm (s := (Finset.univ : Finset K))]
  refine Finset.sum_congr rfl fun v _ => ?_
  rw [← (Fin.consEquiv fun _ => K).sum_comp, Fintype.sum_prod_type]
  refine Finset.sum_congr rfl fun c _ => Finset.sum_congr rfl fun t _ => ?_
  simp [Fin.consEquiv, List.ofFn_succ]

theorem count_succ (Q : ℕ) (p : Hidden N → List F → Prop) :
    count (Q + 1) p = ∑ c : F, count Q fun v t => p v (c :: t) := ncard_succ Q p

theorem count_step {Q : ℕ} {p r : Hidden N → List F → Prop} {q : Hidden N → Prop} {a b c : ℕ}
    (h : ∀ v t, p v t → q v ∨ r v t)
    (hq : {v | q v}.ncard * ell ≤ a * Fintype.card (Hidden N))
    (hr : count Q r * ell ≤ b * total N Q) (hc : a + b ≤ c) :
    count Q p * ell ≤ c * total N Q := by
  refine (Nat.mul_le_mul_right _ ((count_le h).trans (count_or Q (fun v _ => q v) r))).trans ?_
  refine le_trans ?_ (Nat.mul_le_mul_right _ hc)
  rw [add_mul, add_mul, count_hidden]
  refine Nat.add_le_add ?_ hr
  rw [total, ← mul_assoc, mul_right_comm]
  exact Nat.mul_le_mul_right _ hq

theorem count_rare {Q : ℕ} {p : Hidden N → List F → Prop} {q : Hidden N → Prop} {a : ℕ}
    (h : ∀ v t, p v t → q v) (hq : {v | q v}.ncard * ell ≤ a * Fintype.card (Hidden N)) :
    count Q p * ell ≤ a * total N Q :=
  count_step (r := fun _ _ => False) (b := 0) (fun v t hp => .inl (h v t hp)) hq
    (by rw [count_false fun _ _ h => h]; simp) le_rfl

/-! ## Acceptance -/

theorem hPoint_eq (v : Hidden N) : (hPoint v : G) = v .eta • basepoint G := rfl

theorem valid_log {P V C R₁ R₂ : Lin N} {s₀ : View} {c : F} (v : Hidden N) (s : View) (CQ : Lin N)
    (m z w : F) : (⟨.valid P V C R₁ R₂, s₀, c⟩ : Record N).Valid G v s CQ m z w ↔
      log V v s₀ + log CQ v s = v .x0 * log P v s₀ + v .x1 * log C v s₀ ∧
      log R₁ v s₀ = m * log P v s₀ + z * v .eta - c * log C v s₀ ∧
      log R₂ v s₀ = z * (v .x1 * v .eta) + w * v .eta - c * log V v s₀ := by
  simp only [Record.Valid, point_eq, hPoint_eq, smul_smul, ← add_smul, ← sub_smul, smul_base_inj]

theorem equal_log {P C D S₁ S₂ : Lin N} {s₀ : View} {c : F} (v : Hidden N) (m z z₁ : F) :
    (⟨.equal P C D S₁ S₂, s₀, c⟩ : Record N).Equal G v m z z₁ ↔
      log S₁ v s₀ = m * log P v s₀ + z * v .eta - c * log C v s₀ ∧
      log S₂ v s₀ = m * v .eta + z₁ - c * log D v s₀ := by
  simp only [Record.Equal, point_eq, hPoint_eq, smul_smul, ← add_smul, ← sub_smul, smul_base_inj]

theorem dich_valid (r : Record N) (s : View) (CQ : Lin N) (m z w : F) :
    Dich (fun v => r.Valid G v s CQ m z w) := by
  obtain ⟨q, s₀, c⟩ := r
  cases q with
  | equal => exact dich_false
  | valid P V C R₁ R₂ =>
    have e := poly_var (N := N) .eta
    have l : ∀ (L : Lin N) (s : View), Poly 3 (fun v => log L v s) := fun L s =>
      (poly_log L s).mono (by omega)
    have := ((dich_eq ((l V s₀).add (l CQ s)) (((poly_var .x0).mul (poly_log P s₀)).add
      ((poly_var .x1).mul (poly_log C s₀)))).and (dich_eq (l R₁ s₀) ((((l P s₀).smul m).add
      ((e.smul z).mono (by omega))).sub ((l C s₀).smul c)))).and (dich_eq (l R₂ s₀)
      ((((((poly_var .x1).mul e).smul z).mono (by omega)).add ((e.smul w).mono (by omega))).sub
      ((l V s₀).smul c)))
    simpa only [valid_log, and_assoc] using this

theorem dich_equal (r : Record N) (m z z₁ : F) : Dich (fun v => r.Equal G v m z z₁) := by
  obtain ⟨q, s₀, c⟩ := r
  cases q with
  | valid => exact dich_false
  | equal P C D S₁ S₂ =>
    have e := poly_var (N := N) .eta
    have l : ∀ (L : Lin N) (s : View), Poly 3 (fun v => log L v s) := fun L s =>
      (poly_log L s).mono (by omega)
    have := (dich_eq (l S₁ s₀) ((((l P s₀).smul m).add ((e.smul z).mono (by omega))).sub
      ((l C s₀).smul c))).and (dich_eq (l S₂ s₀)
      ((((e.smul m).mono (by omega)).add (poly_const 3 z₁)).sub ((l D s₀).smul c)))
    simpa only [equal_log] using this

theorem dich_same (r r' : Record N) : Dich (fun v => Same G v r r') := by
  obtain ⟨q, s₀, c⟩ := r
  obtain ⟨q', s₀', c'⟩ := r'
  cases q with
  | equal => exact dich_false
  | valid P V C R₁ R₂ =>
    cases q' with
    | valid => exact dich_false
    | equal P' C' D S₁ S₂ =>
      have l : ∀ (L : Lin N) (s : View), Poly 3 (fun v => log L v s) := fun L s =>
        (poly_log L s).mono (by omega)
      have := (dich_eq (l P s₀) (l P' s₀')).and (dich_eq (l C s₀) (l C' s₀'))
      simpa only [Same, point_eq, smul_base_inj] using this

/-- The adversary's hash queries are sound, and were made before. -/
def Inv (s : View) (rs : List (Record N)) : Prop := ∀ r ∈ rs, Sound r ∧ r.view.Le s

theorem View.Le.refl (s : View) : s.Le s := ⟨List.prefix_rfl, List.prefix_rfl, List.prefix_rfl⟩

theorem View.Le.trans {s s' s'' : View} (h : s.Le s') (h' : s'.Le s'') : s.Le s'' :=
  ⟨h.1.trans h'.1, h.2.1.trans h'.2.1, h.2.2.trans h'.2.2⟩

theorem Inv.later {s s' : View} {rs : List (Record N)} (h : Inv s rs) (hs : s.Le s') : Inv s' rs :=
  fun r hr => ⟨(h r hr).1, View.Le.trans (h r hr).2 hs⟩

theorem mem_of_getElem? {rs : List (Record N)} {i : ℕ} {r : Record N} (h : rs[i]? = some r) : r ∈ rs :=
  List.mem_of_getElem? h

/-- A sound query accepted for all values of the unknowns opens to an issued attribute. -/
theorem opens_show {r : Record N} {s : View} {CQ : Lin N} {m z w : F} (hr : Sound r) (hs : r.view.Le s)
    (h : ∀ v : Hidden N, r.Valid G v s CQ m z w) {v : Hidden N} (hv : Nontrivial G v r) :
    ∃ m ∈ s.issued, (∀ v : Hidden N, OpensShow G v s r m) ∧
      ∃ (P V C R₁ R₂ : Lin N), r.query = .valid P V C R₁ R₂ ∧
        (∃ v : Hidden N, v .eta = 0 ∧ log P v r.view ≠ 0) ∧
        ∀ v : Hidden N, log C v r.view = m * log P v r.view + C.h * v .eta := by
  obtain ⟨q, s₀, c⟩ := r
  cases q with
  | equal => exact absurd hv id
  | valid P V C R₁ R₂ =>
    simp only [valid_log] at h
    rcases hr s CQ m z hs (fun v => (h v).1) (fun v => (h v).2.1) with h0 | ⟨h1, μ, hμ, h2⟩
    · refine absurd ?_ hv
      rw [point_eq, h0 v, zero_smul]
    · have hm : μ ∈ s.issued := hs.1.subset hμ
      refine ⟨μ, hm, fun v => ⟨hm, ?_⟩, P, V, C, R₁, R₂, rfl, h1, h2⟩
      simp only [point_eq, hPoint_eq, smul_smul, ← add_smul, smul_base_inj]
      exact h2 v

/-- The same with a roster proof. -/
theorem opens_member {r r' : Record N} {s : View} {CQ : Lin N} {m z w m' z' z₁ : F} (hr : Sound r)
    (hs : r.view.Le s) (hr' : Sound r') (h : ∀ v : Hidden N, r.Valid G v s CQ m z w)
    (h' : ∀ v : Hidden N, r'.Equal G v m' z' z₁) (hsame : ∀ v : Hidden N, Same G v r r')
    {v : Hidden N} (hv : Nontrivial G v r) :
    ∃ m, ∀ v : Hidden N, OpensShow G v s r m ∧ OpensEntry G v r' m := by
  obtain ⟨μ, hμ, ho, P, V, C, R₁, R₂, hq, ⟨u, hu, hPu⟩, hC⟩ := opens_show hr hs h hv
  obtain ⟨q, s₀, c⟩ := r
  obtain ⟨q', s₀', c'⟩ := r'
  cases hq
  cases q' with
  | valid => exact absurd (h' v) id
  | equal P' C' D S₁ S₂ =>
    simp only [equal_log] at h'
    simp only [Same, point_eq, smul_base_inj] at hsame
    obtain ⟨μ', ζ, hC', hD⟩ := hr' m' z' z₁ (fun v => (h' v).1) (fun v => (h' v).2)
    have hμμ : μ = μ' := by
      have e1 := hC u
      have e2 := hC' u
      simp only at e1 e2
      rw [← (hsame u).1, ← (hsame u).2, hu, mul_zero, add_zero] at e2
      rw [hu, mul_zero, add_zero, e2] at e1
      exact (mul_right_cancel₀ hPu e1).symm
    subst hμμ
    refine ⟨μ, fun v => ⟨ho v, ?_⟩⟩
    simp only [OpensEntry, point_eq, hPoint_eq, smul_smul, ← add_smul, smul_base_inj]
    exact hD v

/-! ## C70 -/

theorem le_issue (s : View) (m : F) : s.Le { s with issued := s.issued ++ [m] } :=
  ⟨List.prefix_append _ _, List.prefix_rfl, List.prefix_rfl⟩

theorem le_watch (s : View) (m : F) : s.Le { s with watched := s.watched ++ [m] } :=
  ⟨List.prefix_rfl, List.prefix_append _ _, List.prefix_rfl⟩

theorem le_enrol (s : View) (m : F) : s.Le { s with enrolled := s.enrolled ++ [m] } :=
  ⟨List.prefix_rfl, List.prefix_rfl, List.prefix_append _ _⟩

theorem sum_bound {K : Type} [Fintype K] [DecidableEq K] {f : K → ℕ} {good : K → Prop} {l B T : ℕ}
    (hl : Fintype.card K = l) (hgood : ∀ c, good c → f c * l ≤ B * T) (hT : ∀ c, f c ≤ T)
    (hbad : ∀ c c', ¬ good c → ¬ good c' → c = c') :
    (∑ c, f c) * l ≤ (1 + B) * (T * l) := by
  classical
  have hterm : ∀ c, f c * l ≤ B * T + if good c then 0 else T * l := by
    intro c
    split
    · rename_i h
      simpa using hgood c h
    · exact (Nat.mul_le_mul_right _ (hT c)).trans (Nat.le_add_left _ _)
  have hone : ∑ c, (if good c then 0 else T * l) ≤ T * l := by
    by_cases h : ∃ c, ¬ good c
    · obtain ⟨c, hc⟩ := h
      rw [Finset.sum_eq_single c]
      · rw [if_neg hc]
      · intro c' _ hne
        rw [if_pos]
        by_contra h'
        exact hne (hbad c' c h' hc)
      · exact fun h => absurd (Finset.mem_univ c) h
    · push Not at h
      simp [h]
  rw [Finset.sum_mul]
  refine (Finset.sum_le_sum fun c _ => hterm c).trans ?_
  rw [Finset.sum_add_distrib, Finset.sum_const, Finset.card_univ, hl, smul_eq_mul]
  calc l * (B * T) + ∑ c, (if good c then 0 else T * l) ≤ l * (B * T) + T * l :=
        Nat.add_le_add_left hone _
    _ = (1 + B) * (T * l) := by ring

/-- A step that branches on a property that holds always or rarely. -/
theorem branch {Q a y n c : ℕ} {p : Hidden N → Prop} {W Y E : Hidden N → List F → Prop}
    (hp : (∀ v, p v) ∨ {v | p v}.ncard * ell ≤ a * Fintype.card (Hidden N))
    (hW : ∀ v t, W v t → p v ∧ Y v t ∨ ¬ p v ∧ E v t) (hY : count Q Y * ell ≤ y * total N Q)
    (hE : count Q E * ell ≤ n * total N Q) (hc : a + max y n ≤ c) :
    count Q W * ell ≤ c * total N Q := by
  rcases hp with hp | hp
  · refine le_trans (le_trans (Nat.mul_le_mul_right _ (count_le fun v t hv => ?_)) hY)
      (Nat.mul_le_mul_right _ (by omega))
    exact (hW v t hv).elim (fun h => h.2) (fun h => absurd (hp v) h.1)
  · refine count_step (fun v t hv => ?_) hp hE (by omega)
    exact (hW v t hv).elim (fun h => .inl h.1) (fun h => .inr h.2)

/-- A final step. -/
theorem final {Q a : ℕ} {p : Hidden N → Prop} {W : Hidden N → List F → Prop}
    (hp : (∀ v, p v) ∨ {v | p v}.ncard * ell ≤ a * Fintype.card (Hidden N))
    (hW : ∀ v t, W v t → p v) (hn : (∀ v, p v) → ∀ v t, ¬ W v t) :
    count Q W * ell ≤ a * total N Q := by
  rcases hp with hp | hp
  · rw [count_false (hn hp)]
    simp
  · exact count_rare hW hp

theorem dich_test (L : Lin N) (s : View) : (∀ v : Hidden N, (L.point v s : G) = 0) ∨
    {v : Hidden N | (L.point v s : G) = 0}.ncard * ell ≤ 2 * Fintype.card (Hidden N) := by
  simp only [point_eq, smul_base_eq_zero]
  by_cases h : ∀ v : Hidden N, log L v s = 0
  · exact .inl h
  · push Not at h
    exact .inr (ncard_zero (poly_log L s) h.choose_spec)

theorem bound_show {s : View} {rs : List (Record N)} (Q i : ℕ) (CQ : Lin N) (m z w : F)
    (hI : Inv s rs) : count Q (fun v t => (Strategy.outputShow i CQ m z w).Wins G v s rs t) * ell ≤
      3 * total N Q := by
  cases hr : rs[i]? with
  | none =>
    rw [count_false]
    · simp
    · rintro v t ⟨r, h, -⟩
      rw [hr] at h
      cases h
  | some r =>
    obtain ⟨hsound, hs⟩ := hI r (List.mem_of_getElem? hr)
    refine final (dich_valid (G := G) r s CQ m z w) ?_ ?_
    · rintro v t ⟨r', hr', hv, -⟩
      obtain rfl := Option.some.inj (hr.symm.trans hr')
      exact hv
    · rintro h v t ⟨r', hr', -, hn, ho⟩
      obtain rfl := Option.some.inj (hr.symm.trans hr')
      obtain ⟨μ, -, hμ, -⟩ := opens_show hsound hs h hn
      exact ho μ (hμ v)

theorem bound_member {s : View} {rs : List (Record N)} (Q i : ℕ) (CQ : Lin N) (m z w : F) (i' : ℕ)
    (m' z' z₁ : F) (hI : Inv s rs) :
    count Q (fun v t => (Strategy.outputMember i CQ m z w i' m' z' z₁).Wins G v s rs t) * ell ≤
      3 * total N Q := by
  cases hr : rs[i]? with
  | none =>
    rw [count_false]
    · simp
    · rintro v t ⟨r, r', h, -⟩
      rw [hr] at h
      cases h
  | some r =>
    cases hr' : rs[i']? with
    | none =>
      rw [count_false]
      · simp
      · rintro v t ⟨r, r', -, h, -⟩
        rw [hr'] at h
        cases h
    | some r' =>
      obtain ⟨hsound, hs⟩ := hI r (List.mem_of_getElem? hr)
      obtain ⟨hsound', -⟩ := hI r' (List.mem_of_getElem? hr')
      refine final (((dich_valid (G := G) r s CQ m z w).and (dich_equal (G := G) r' m' z' z₁)).and
        (dich_same (G := G) r r')) ?_ ?_
      · rintro v t ⟨q, q', hq, hq', h1, h2, h3, -⟩
        obtain rfl := Option.some.inj (hr.symm.trans hq)
        obtain rfl := Option.some.inj (hr'.symm.trans hq')
        exact ⟨⟨h1, h2⟩, h3⟩
      · rintro h v t ⟨q, q', hq, hq', -, -, -, hn, ho⟩
        obtain rfl := Option.some.inj (hr.symm.trans hq)
        obtain rfl := Option.some.inj (hr'.symm.trans hq')
        obtain ⟨μ, hμ⟩ := opens_member hsound hs hsound' (fun v => (h v).1.1)
          (fun v => (h v).1.2) (fun v => (h v).2) hn
        exact ho μ (hμ v)

theorem bound_hash {s : View} {rs : List (Record N)} (q : Query N) {next : F → Strategy N}
    (ih : ∀ c (rs : List (Record N)) Q, Inv s rs →
      count Q (fun v t => (next c).Wins G v s rs t) * ell ≤ (next c).cost * total N Q)
    (Q : ℕ) (hI : Inv s rs) :
    count Q (fun v t => (Strategy.hash q next).Wins G v s rs t) * ell ≤
      (Strategy.hash q next).cost * total N Q := by
  cases Q with
  | zero =>
    rw [count_none fun v h => h]
    simp
  | succ Q =>
    rw [count_succ, show total N (Q + 1) = total N Q * ell by rw [total, total, pow_succ, mul_assoc],
      Strategy.cost]
    refine sum_bound (good := fun c => Sound ⟨q, s, c⟩) (ZMod.card ell) (fun c hc => ?_)
      (fun c => count_total _ _) (fun c c' => unsound_unique)
    have hI' : Inv s (rs ++ [⟨q, s, c⟩]) := by
      intro r hr
      rcases List.mem_append.1 hr with hr | hr
      · exact hI r hr
      · rw [List.mem_singleton.1 hr]
        exact ⟨hc, View.Le.refl s⟩
    have hsup : (next c).cost ≤ Finset.univ.sup fun c => (next c).cost :=
      Finset.le_sup (f := fun c => (next c).cost) (Finset.mem_univ c)
    have h := (ih c (rs ++ [⟨q, s, c⟩]) Q hI').trans (Nat.mul_le_mul_right _ hsup)
    exact h

theorem bound (S : Strategy N) (s : View) (rs : List (Record N)) (Q : ℕ) (hI : Inv s rs) :
    count Q (fun v t => S.Wins G v s rs t) * ell ≤ S.cost * total N Q := by
  induction S generalizing s rs Q with
  | issue m next ih => exact ih _ rs Q (hI.later (le_issue s m))
  | watch m next ih => exact ih _ rs Q (hI.later (le_watch s m))
  | enrol m next ih => exact ih _ rs Q (hI.later (le_enrol s m))
  | test L yes no ihy ihn =>
    exact branch (dich_test (G := G) L s) (fun v t hv => hv) (ihy s rs Q hI) (ihn s rs Q hI) le_rfl
  | hash q next ih => exact bound_hash q (fun c rs Q hI => ih c s rs Q hI) Q hI
  | present i CQ m z w yes no ihy ihn =>
    cases hr : rs[i]? with
    | none =>
      rw [count_false]
      · simp
      · rintro v t ⟨r, h, -⟩
        rw [hr] at h
        cases h
    | some r =>
      refine branch (dich_valid (G := G) r s CQ m z w) ?_ (ihy s rs Q hI) (ihn s rs Q hI) le_rfl
      rintro v t ⟨r', hr', hv⟩
      obtain rfl := Option.some.inj (hr.symm.trans hr')
      exact hv
  | member i m z z₁ yes no ihy ihn =>
    cases hr : rs[i]? with
    | none =>
      rw [count_false]
      · simp
      · rintro v t ⟨r, h, -⟩
        rw [hr] at h
        cases h
    | some r =>
      refine branch (dich_equal (G := G) r m z z₁) ?_ (ihy s rs Q hI) (ihn s rs Q hI) le_rfl
      rintro v t ⟨r', hr', hv⟩
      obtain rfl := Option.some.inj (hr.symm.trans hr')
      exact hv
  | outputShow i CQ m z w => exact bound_show Q i CQ m z w hI
  | outputMember i CQ m z w i' m' z' z₁ => exact bound_member Q i CQ m z w i' m' z' z₁ hI

end Present

open Spec.Present

variable {N : ℕ}

/-- **C70**: whatever strategy an adversary uses, combining the group elements it is given, with any number
of issuances to it, of presentations and roster entries of other users it has seen, of tests, hash queries
and verifications: it outputs an accepted presentation whose committed attribute was not issued to it, or an
accepted presentation with a roster proof that are not both for one attribute issued to it, for at most
`cost` out of every `ℓ` values of the unknowns and of the (at most `Q`) hash answers.

Full property: no adversary can have a presentation accepted unless its committed attribute, and the roster
entry if there is one, are for an attribute issued to it, or it repeats a presentation of another user.
Missing here: the nonce must not be the identity (otherwise false, `C70_false`); the adversary is algebraic
and the hash is a random function; the scalars in the proofs of the issuer and of other users are not part
of its view (they are in C84). -/
theorem C70_unforgeable_partial (S : Strategy N) (Q : ℕ) :
    count Q (fun v tape => S.Wins G v ⟨[], [], []⟩ [] tape) * ell ≤
      S.cost * (Fintype.card (Hidden N) * ell ^ Q) :=
  Present.bound S _ [] Q fun _ h => absurd h List.not_mem_nil

/-- **C70 is false without the condition on the nonce**: with nothing issued and nothing seen, a
presentation with the identity as nonce and a roster proof for any number `m` are accepted, whatever the
unknowns and the hash answers are. -/
theorem C70_false (v : Hidden N) (s : View) (m c c' : F) :
    ∃ (P V C R₁ R₂ D S₁ S₂ CQ : Lin N) (a z w a' z' z₁ : F), (D.point v s : G) = m • hPoint v ∧
      (⟨.valid P V C R₁ R₂, s, c⟩ : Record N).Valid G v s CQ a z w ∧
      (⟨.equal P C D S₁ S₂, s, c'⟩ : Record N).Equal G v a' z' z₁ ∧
      Same G v ⟨.valid P V C R₁ R₂, s, c⟩ ⟨.equal P C D S₁ S₂, s, c'⟩ := by
  refine ⟨⟨0, 0, 0, 0, 0, 0, 0, 0, 0, 0⟩, ⟨0, 0, 1, 0, 0, 0, 0, 0, 0, 0⟩, ⟨0, 1, 0, 0, 0, 0, 0, 0, 0, 0⟩,
    ⟨0, 0, 0, 0, 0, 0, 0, 0, 0, 0⟩, ⟨0, 0, 0, 0, 0, 0, 0, 0, 0, 0⟩, ⟨0, m, 0, 0, 0, 0, 0, 0, 0, 0⟩,
    ⟨0, 0, 0, 0, 0, 0, 0, 0, 0, 0⟩, ⟨0, 0, 0, 0, 0, 0, 0, 0, 0, 0⟩, ⟨0, 0, 0, 0, 0, 0, 0, 0, 0, 0⟩,
    0, c, 0, c' * m, c', 0, ?_, ?_, ?_, rfl, rfl⟩
  · rw [Present.point_eq, Present.hPoint_eq, smul_smul, smul_base_inj]
    simp [Present.log_h]
  · rw [Present.valid_log]
    simp [Present.log_h]
  · rw [Present.equal_log]
    simp [Present.log_h]
    ring

/-- The issuer with the unknown key. -/
def Spec.Present.issuer (G : Type) [AddCommGroup G] [Module F G] [Ristretto G] (v : Hidden N) : Issuer G :=
  ⟨⟨basepoint G, hPoint v⟩, ⟨⟨[v .x1 • hPoint v]⟩, ⟨.ofF (v .x0), [.ofF (v .x1)]⟩⟩⟩

/-- **C70 (the game is about the code)**: a presentation is accepted exactly when the equations of
`Record.Valid` hold for some `V`, `R₁`, `R₂` and its challenge is the hash answer for these. -/
theorem C70_presentation_accepted (O : Oracle) (v : Hidden N) (CQ P C : G) (c m z w : Scalar) :
    (∃ x, Issuer.verify O (issuer G v) ⟨CQ, P, [], [C], ⟨c, ⟨m, z, w⟩⟩⟩ = .ok x) ↔
      ∃ V R₁ R₂ : G, V + CQ = v .x0 • P + v .x1 • C ∧
        R₁ = m.val • P + z.val • hPoint v - c.val • C ∧
        R₂ = z.val • (v .x1 • hPoint v) + w.val • hPoint v - c.val • V ∧
        c = Scalar.fromWide (O.chal (Spec.Query.validCredential "AEONFLUX SHOW"
          ⟨basepoint G, hPoint v, v .x1 • hPoint v, P, V, C⟩ ⟨R₁, R₂⟩).ops "chal" 64) := by
  rw [issuer, verify_one]
  have hq := (C32_query_made (G := G) O "AEONFLUX SHOW").2.2.2.1
  have key : ∀ V : G, ValidCredential.recommit
      ⟨basepoint G, hPoint v, v .x1 • hPoint v, P, V, C⟩ ⟨c, ⟨m, z, w⟩⟩ =
      ⟨m.val • P + z.val • hPoint v - c.val • C,
        z.val • (v .x1 • hPoint v) + w.val • hPoint v - c.val • V⟩ := by
    intro V
    simp [ValidCredential.recommit, msm, Scalar.smul_def, add_assoc, sub_eq_add_neg]
  constructor
  · rintro ⟨x, h⟩
    split at h
    · rename_i hv
      refine ⟨v .x0 • P + v .x1 • C - CQ, _, _, sub_add_cancel _ _, rfl, rfl, ?_⟩
      have := (hq _ _).1 hv
      simp only [Scalar.smul_def, Scalar.val_ofF] at this
      rw [key] at this
      exact this
    · cases h
  · rintro ⟨V, R₁, R₂, h1, rfl, rfl, h4⟩
    obtain rfl : V = v .x0 • P + v .x1 • C - CQ := eq_sub_of_add_eq h1
    refine ⟨_, if_pos ((hq _ _).2 ?_)⟩
    simp only [Scalar.smul_def, Scalar.val_ofF]
    rw [key]
    exact h4

/-- `SignalIssuer::verify` accepts a presentation under the same condition, whatever the roster
entry and its proof are. -/
theorem C70_signal_accepted (O : Oracle) (v : Hidden N) (CQ P C D : G) (c m z w : Scalar)
    (π : CommittedValuesEqual.Proof) :
    (∃ x, SignalIssuer.verify O ⟨issuer G v⟩ ⟨D, ⟨CQ, P, [], [C], ⟨c, ⟨m, z, w⟩⟩⟩, π⟩ = .ok x) ↔
      ∃ V R₁ R₂ : G, V + CQ = v .x0 • P + v .x1 • C ∧
        R₁ = m.val • P + z.val • hPoint v - c.val • C ∧
        R₂ = z.val • (v .x1 • hPoint v) + w.val • hPoint v - c.val • V ∧
        c = Scalar.fromWide (O.chal (Spec.Query.validCredential "AEONFLUX SHOW"
          ⟨basepoint G, hPoint v, v .x1 • hPoint v, P, V, C⟩ ⟨R₁, R₂⟩).ops "chal" 64) := by
  rw [← C70_presentation_accepted O v CQ P C c m z w]
  simp only [SignalIssuer.verify, Res.bind_eq_ok]
  constructor
  · rintro ⟨_, x, hx, -⟩
    exact ⟨x, hx⟩
  · rintro ⟨x, hx⟩
    exact ⟨_, x, hx, rfl⟩

/-- **C70 (the game is about the code)**: a roster proof is accepted exactly when the equations of
`Record.Equal` hold for some `S₁`, `S₂` and its challenge is the hash answer for these and for the nonce and
attribute of the presentation. -/
theorem C70_roster_accepted (O : Oracle) (v : Hidden N) (CQ P C D : G) (π : ValidCredential.Proof)
    (c m z z₁ : Scalar) :
    (∃ x, SignalIssuer.verifyRosterMembership O ⟨issuer G v⟩
        ⟨⟨D, ⟨CQ, P, [], [C], π⟩, ⟨c, ⟨m, z, z₁⟩⟩⟩⟩ = .ok x) ↔
      ∃ S₁ S₂ : G, S₁ = m.val • P + z.val • hPoint v - c.val • C ∧
        S₂ = m.val • hPoint v + z₁.val • basepoint G - c.val • D ∧
        c = Scalar.fromWide (O.chal (Spec.Query.committedValuesEqual "SIGNAL GROUP MEMBERSHIP"
          ⟨basepoint G, hPoint v, P, C, D⟩ ⟨S₁, S₂⟩).ops "chal" 64) := by
  rw [verifyRoster_one]
  have hq := (C32_query_made (G := G) O "SIGNAL GROUP MEMBERSHIP").2.2.2.2
  have key : CommittedValuesEqual.recommit
      ⟨basepoint G, hPoint v, P, C, D⟩ ⟨c, ⟨m, z, z₁⟩⟩ =
      ⟨m.val • P + z.val • hPoint v - c.val • C,
        m.val • hPoint v + z₁.val • basepoint G - c.val • D⟩ := by
    simp [CommittedValuesEqual.recommit, msm, Scalar.smul_def, add_assoc, sub_eq_add_neg]
  constructor
  · rintro ⟨x, h⟩
    split at h
    · rename_i hv
      refine ⟨_, _, rfl, rfl, ?_⟩
      have := (hq _ _).1 hv
      simp only [issuer] at this
      rw [key] at this
      exact this
    · cases h
  · rintro ⟨S₁, S₂, rfl, rfl, h⟩
    refine ⟨_, if_pos ((hq _ _).2 ?_)⟩
    simp only [issuer]
    rw [key]
    exact h

/-- **C70 (the game is about the code)**: the elements that a strategy combines are those that the code
gives out, with the scalars it draws in place of the unknowns: the nonce, MAC and key commitment of an
issuance; the nonce, committed attribute and committed MAC of a presentation made with a credential whose
nonce is `b • g`; and a roster entry. -/
theorem C70_view {R : Type} [RngCore R] (O : Oracle) (v : Hidden N) (rng : R) (e : Bytes) :
    (∀ m : F, ∃ c, (Issuer.issue O (issuer G v) ⟨[.ofF m]⟩ rng e).1 = .ok c ∧
      c.credential.mac.nonce = (issueDraws O rng).1.val • basepoint G ∧
      c.credential.mac.mac = (v .x0 + v .x1 * m) • ((issueDraws O rng).1.val • basepoint G) ∧
      c.secretKeyCommitment = v .x0 • basepoint G + (issueDraws O rng).2.val • hPoint v) ∧
    (∀ (m b : F) (z : Scalar) (k : Option (Elgamal.Keypair G)),
      ∃ p C, (User.show O ⟨(issuer G v).systemParameters, (issuer G v).getIssuerParameters, k,
          some ⟨⟨b • basepoint G, (v .x0 + v .x1 * m) • (b • basepoint G)⟩, [.ofF m]⟩⟩ [z] rng e).1 =
          .ok p ∧ p.attributesBlinded = [C] ∧
        let ρ := (showDraws O rng).1.val * b
        p.rerandomizedNonce = ρ • basepoint G ∧
        C = m • (ρ • basepoint G) + z.val • hPoint v ∧
        p.rerandomizedMacCommitment =
          (v .x0 + v .x1 * m) • (ρ • basepoint G) + (showDraws O rng).2.val • hPoint v) ∧
    (∀ (number : Bytes) (m : Scalar), PhoneNumber.tryFromBytes number = .ok m →
      ∃ r, (RosterEntryCommitment.create number (issuer G v).systemParameters rng).1 = .ok r ∧
        r.commitment = m.val • hPoint v + (Scalar.random rng).1.val • basepoint G) := by
  refine ⟨fun m => ⟨_, issue_one O _ _ _, ?_, ?_, ?_⟩, fun m b z k => ⟨_, _, show_one O _ _ _ _, rfl, ?_⟩,
    fun number m h => ⟨_, roster_create _ _ _ h, rfl⟩⟩
  · rfl
  · simp [issuanceData, Scalar.smul_def]
  · simp [issuanceData, Scalar.smul_def]
  · simp only [presentationData, Scalar.smul_def, Scalar.val_ofF, smul_smul]
    refine ⟨trivial, rfl, ?_⟩
    rw [mul_left_comm]
    rfl

-- a lucky guess wins: an attribute 5 that was not issued, if the key happens to be zero
example : Strategy.Wins F (fun _ => 0 : Hidden 0) ⟨[], [], []⟩ [] [7]
    (.hash (.valid ⟨1, 0, 0, 0, 0, 0, 0, 0, 0, 0⟩ ⟨0, 0, 0, 0, 0, 0, 0, 0, 0, 0⟩
      ⟨5, 0, 0, 0, 0, 0, 0, 0, 0, 0⟩ ⟨0, 0, 0, 0, 0, 0, 0, 0, 0, 0⟩ ⟨0, 0, 0, 0, 0, 0, 0, 0, 0, 0⟩)
      fun c => .outputShow 0 ⟨0, 0, 0, 0, 0, 0, 0, 0, 0, 0⟩ (5 * c) 0 0) := by
  refine ⟨_, rfl, (Present.valid_log _ _ _ _ _ _).2 ?_, ?_, ?_⟩
  · decide +kernel
  · show ((_ : Lin 0).point _ _ : F) ≠ 0
    rw [Present.point_eq, Ne, smul_base_eq_zero]
    decide +kernel
  · rintro m ⟨h, -⟩
    cases h

-- an honest presentation is accepted whatever the unknowns are: attribute 5, openings 2 and 3
example (v : Hidden 1) (c : F) : (⟨.valid ⟨0, 0, 0, 1, 0, 0, 0, 0, 0, 0⟩ ⟨0, -3, 2, 0, 0, 0, 0, 0, 0, 0⟩
    ⟨0, 2, 0, 5, 0, 0, 0, 0, 0, 0⟩ ⟨0, 12, 0, 11, 0, 0, 0, 0, 0, 0⟩ ⟨0, 13, 12, 0, 0, 0, 0, 0, 0, 0⟩,
    ⟨[5], [], []⟩, c⟩ : Record 1).Valid F v ⟨[5], [], []⟩ ⟨0, 3, 0, 0, 1, 0, 0, 0, 0, 0⟩
    (11 + c * 5) (12 + c * 2) (13 - c * 3) := by
  rw [Present.valid_log]
  simp [Present.log]
  refine ⟨?_, ?_, ?_⟩ <;> ring

end Verif
