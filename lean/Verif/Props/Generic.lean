import Verif.Props.Sketch
import Verif.Props.Setup
import Verif.Props.Unforge

/-!
# C97: the assumption on MACs holds for generic algorithms

C93–C96 assume that certain algorithms do not forge MACs, even if they may ask for the truth of equations in the key,
and do not find logarithms. Here: algorithms that only combine the group elements that they get do not.
-/

set_option maxRecDepth 100000

namespace Verif

open Amacs

variable {G : Type} [AddCommGroup G] [Module F G] [Ristretto G]

/-! ## The game -/

/-- A linear combination of `g`, `h`, the public key, and the nonces and MACs of the tags received so far. -/
structure Spec.Combo where
  g : F
  h : F
  X : F
  nonce : ℕ → F
  mac : ℕ → F

/-- Its value. -/
def Spec.Combo.eval (L : Spec.Combo) (sp : SystemParameters G) (X : G) (ts : List (Tag G)) : G :=
  L.g • sp.g + L.h • sp.h + L.X • X + ∑ j : Fin ts.length, (L.nonce j • ts[j].nonce + L.mac j • ts[j].mac)

/-- A generic algorithm: it gets tags on numbers of its choice, tests whether a combination of what it has is the
identity, and whether `W = x0·U + x1·C` for combinations `U`, `C`, `W`; and finally returns a number with a tag, or a field
element. -/
inductive Spec.Generic where
  | forge (m : F) (P Q : Spec.Combo)
  | log (x : F)
  | query (m : Scalar) (next : Spec.Generic)
  | zero (L : Spec.Combo) (next : Bool → Spec.Generic)
  | test (U C W : Spec.Combo) (next : Bool → Spec.Generic)

/-- It is an algorithm of the kind that C96 is about. -/
def Spec.Generic.tester [DecidableEq G] (sp : SystemParameters G) (X : G) : Spec.Generic → List (Tag G) → Spec.Tester G
  | .forge m P Q, ts => .forge m ⟨P.eval sp X ts, Q.eval sp X ts⟩
  | .log x, _ => .log x
  | .query m next, ts => .query m fun t => next.tester sp X (ts ++ [t])
  | .zero L next, ts => (next (decide (L.eval sp X ts = 0))).tester sp X ts
  | .test U C W next, ts => .test (U.eval sp X ts) (C.eval sp X ts) (W.eval sp X ts) fun b => (next b).tester sp X ts

/-- Two for each comparison, three for each equation, three for the result. -/
def Spec.Generic.Within : Spec.Generic → ℕ → Prop
  | .forge _ _ _, c => 3 ≤ c
  | .log _, c => 3 ≤ c
  | .query _ next, c => next.Within c
  | .zero _ next, c => ∃ c', c = c' + 2 ∧ ∀ b, (next b).Within c'
  | .test _ _ _ next, c => ∃ c', c = c' + 3 ∧ ∀ b, (next b).Within c'

/-- The probability that an algorithm succeeds in the game of C96, for a uniform instance of the discrete logarithm
problem and uniform keys. -/
noncomputable def Spec.genericWins (G : Type) [AddCommGroup G] [Module F G] [Ristretto G] [DecidableEq G] {Ω : Type}
    [Fintype Ω] (A : Ω → Spec.Generic) (V : Set F) : ℚ :=
  Spec.mean fun x : Spec.Log × Ω × F × F =>
    let sp := x.1.parameters G
    ((A x.2.1).tester sp (x.2.2.2 • sp.h) []).wins sp x.2.2.1 x.2.2.2 V

/-! ## Counting -/

namespace Generic

variable {N : ℕ}

/-- The combination as in C62. -/
def lin (L : Spec.Combo) : Spec.Lin 1 N := ⟨L.g, L.h, fun _ => L.X, fun j => L.nonce j, fun j => L.mac j, fun _ => 0⟩

/-- The number as a message. -/
def msg (m : F) : Spec.Msg 1 := fun _ => m

theorem factor_msg (v : Spec.Hidden 1 N) (m : F) : Spec.factor v (msg m) = v .x0 + v (.x 0) * m := by
  simp [Spec.factor, msg]

/-- The algorithm succeeds, in terms of logarithms. -/
def Wins (V : Set F) (v : Spec.Hidden 1 N) : Spec.Generic → List (Spec.Msg 1) → Prop
  | .forge m P Q, ms => m ∈ V ∧ (lin P).log v ms ≠ 0 ∧ (lin Q).log v ms = Spec.factor v (msg m) * (lin P).log v ms
  | .log x, _ => v .eta = x
  | .query m next, ms => m.val ∉ V ∧ Wins V v next (ms ++ [msg m.val])
  | .zero L next, ms => ((lin L).log v ms = 0 ∧ Wins V v (next true) ms) ∨
      ((lin L).log v ms ≠ 0 ∧ Wins V v (next false) ms)
  | .test U C W next, ms =>
    ((lin W).log v ms = v .x0 * (lin U).log v ms + v (.x 0) * (lin C).log v ms ∧ Wins V v (next true) ms) ∨
      ((lin W).log v ms ≠ v .x0 * (lin U).log v ms + v (.x 0) * (lin C).log v ms ∧ Wins V v (next false) ms)

theorem count_equation {U C W : Spec.Lin 1 N} {ms : List (Spec.Msg 1)} {v : Spec.Hidden 1 N}
    (hv : W.log v ms ≠ v .x0 * U.log v ms + v (.x 0) * C.log v ms) :
    Spec.count (fun v => W.log v ms = v .x0 * U.log v ms + v (.x 0) * C.log v ms) * ell ≤
      3 * Fintype.card (Spec.Hidden 1 N) := by
  have h := density (p := logPoly W ms - (MvPolynomial.X .x0 * logPoly U ms + MvPolynomial.X (.x 0) * logPoly C ms))
    (d := 3) (v := v)
    ((MvPolynomial.totalDegree_sub _ _).trans (max_le ((degree_log W ms).trans (by omega))
      (degree_add (degree_mul (degree_X _) (degree_log U ms) (by omega))
        (degree_mul (degree_X _) (degree_log C ms) (by omega)))))
    (by
      rw [map_sub, map_add, map_mul, map_mul, eval_logPoly, eval_logPoly, eval_logPoly, MvPolynomial.eval_X,
        MvPolynomial.eval_X]
      exact sub_ne_zero.2 hv)
  refine le_trans (Nat.mul_le_mul_right _ (le_of_eq ?_)) h
  simp only [count_eq, map_sub, map_add, map_mul, eval_logPoly, MvPolynomial.eval_X, sub_eq_zero]

theorem count_eta (x : F) :
    Spec.count (fun v : Spec.Hidden 1 N => v .eta = x) * ell ≤ 3 * Fintype.card (Spec.Hidden 1 N) := by
  have h := density (p := MvPolynomial.X (Spec.Var.eta : Spec.Var 1 N) - MvPolynomial.C x) (d := 3)
    (v := fun _ => x + 1)
    ((MvPolynomial.totalDegree_sub _ _).trans (max_le ((degree_X _).trans (by omega)) ((degree_C x).trans (by omega))))
    (by rw [map_sub, MvPolynomial.eval_X, MvPolynomial.eval_C]; simp)
  refine le_trans (Nat.mul_le_mul_right _ (le_of_eq ?_)) h
  simp only [count_eq, map_sub, MvPolynomial.eval_X, MvPolynomial.eval_C, sub_eq_zero]

/-- An event that happens always, or hardly ever. -/
theorem count_split {p q r e : Spec.Hidden 1 N → Prop} {d c : ℕ}
    (h : ∀ v, p v ↔ (e v ∧ q v) ∨ (¬ e v ∧ r v))
    (he : (∃ v, ¬ e v) → Spec.count e * ell ≤ d * Fintype.card (Spec.Hidden 1 N))
    (hq : Spec.count q * ell ≤ c * Fintype.card (Spec.Hidden 1 N))
    (hr : Spec.count r * ell ≤ c * Fintype.card (Spec.Hidden 1 N)) :
    Spec.count p * ell ≤ (c + d) * Fintype.card (Spec.Hidden 1 N) := by
  by_cases ha : ∀ v, e v
  · refine (Nat.mul_le_mul_right _ (count_le fun v hv => ?_)).trans (hq.trans (Nat.mul_le_mul_right _ (by omega)))
    exact (((h v).1 hv).resolve_right fun hn => hn.1 (ha v)).2
  · push Not at ha
    refine count_step (fun v hv => ?_) (he ha) hr (by omega)
    rcases (h v).1 hv with hv | hv
    · exact .inl hv.1
    · exact .inr hv.2

theorem count_wins {V : Set F} (A : Spec.Generic) : ∀ (ms : List (Spec.Msg 1)) (c : ℕ), (∀ m ∈ V, msg m ∉ ms) →
    A.Within c → Spec.count (fun v : Spec.Hidden 1 N => Wins V v A ms) * ell ≤ c * Fintype.card (Spec.Hidden 1 N) := by
  induction A with
  | forge m P Q =>
    intro ms c hms hc
    by_cases h : m ∈ V ∧ ∃ v : Spec.Hidden 1 N, (lin Q).log v ms ≠ Spec.factor v (msg m) * (lin P).log v ms
    · obtain ⟨_, w, hw⟩ := h
      exact (Nat.mul_le_mul_right _ (count_le fun v hv => hv.2.2)).trans ((count_valid hw).trans (Nat.mul_le_mul_right _ hc))
    · rw [count_false]
      · simp
      · rintro v ⟨h1, h2, h3⟩
        push Not at h
        exact h2 (log_forgery (hms m h1) (h h1) v)
  | log x => exact fun ms c _ hc => (count_eta x).trans (Nat.mul_le_mul_right _ hc)
  | query m next ih =>
    intro ms c hms hc
    by_cases hm : m.val ∈ V
    · rw [count_false fun v hv => hv.1 hm]
      simp
    · refine (Nat.mul_le_mul_right _ (count_le fun v hv => hv.2)).trans (ih (ms ++ [msg m.val]) c (fun n hn hmem => ?_) hc)
      rcases List.mem_append.1 hmem with hmem | hmem
      · exact hms n hn hmem
      · have : n = m.val := congrFun (List.mem_singleton.1 hmem) 0
        exact hm (this ▸ hn)
  | zero L next ih =>
    rintro ms _ hms ⟨c, rfl, hc⟩
    exact count_split (fun v => Iff.rfl) (fun ⟨w, hw⟩ => count_test hw) (ih true ms c hms (hc _)) (ih false ms c hms (hc _))
  | test U C W next ih =>
    rintro ms _ hms ⟨c, rfl, hc⟩
    exact count_split (fun v => Iff.rfl) (fun ⟨w, hw⟩ => count_equation hw) (ih true ms c hms (hc _))
      (ih false ms c hms (hc _))

/-! ## The two games -/

/-- The tags so far. -/
def tags (G : Type) [AddCommGroup G] [Module F G] [Ristretto G] (v : Spec.Hidden 1 N) (ms : List (Spec.Msg 1)) :
    List (Tag G) :=
  List.ofFn fun j : Fin ms.length =>
    let b := if h : j.1 < N then v (.b ⟨j, h⟩) else 0
    ⟨b • basepoint G, Spec.factor v ms[j] • (b • basepoint G)⟩

/-- The parameters. -/
def par (G : Type) [AddCommGroup G] [Module F G] [Ristretto G] (η : F) : SystemParameters G :=
  ⟨basepoint G, η • basepoint G⟩

theorem tags_length (v : Spec.Hidden 1 N) (ms : List (Spec.Msg 1)) : (tags G v ms).length = ms.length := by
  simp [tags]

theorem tags_get (v : Spec.Hidden 1 N) (ms : List (Spec.Msg 1)) (j : ℕ) (hj : j < (tags G v ms).length) :
    (tags G v ms)[j] =
      let b := if h : j < N then v (.b ⟨j, h⟩) else 0
      ⟨b • basepoint G, Spec.factor v (ms[j]'(by rwa [tags_length] at hj)) • (b • basepoint G)⟩ := by
  simp [tags]

theorem tags_append (v : Spec.Hidden 1 N) (ms : List (Spec.Msg 1)) (m : Spec.Msg 1) (hj : ms.length < N) :
    tags G v (ms ++ [m]) = tags G v ms ++ [⟨v (.b ⟨ms.length, hj⟩) • basepoint G,
      Spec.factor v m • (v (.b ⟨ms.length, hj⟩) • basepoint G)⟩] := by
  refine List.ext_getElem (by simp [tags_length]) fun j h1 h2 => ?_
  rw [tags_get]
  rw [tags_length] at h1
  by_cases h : j < ms.length
  · have h' : j < (tags G v ms).length := by
      rw [tags_length]
      exact h
    rw [List.getElem_append_left h', tags_get]
    dsimp only
    rw [List.getElem_append_left h]
  · have e : j = ms.length := by
      rw [List.length_append, List.length_singleton] at h1
      omega
    subst e
    simp [List.getElem_append_right, tags_length, hj]

theorem eval_eq (L : Spec.Combo) (v : Spec.Hidden 1 N) (ms : List (Spec.Msg 1)) (hN : ms.length ≤ N) :
    L.eval (par G (v .eta)) (v (.x 0) • (v .eta • basepoint G)) (tags G v ms) = (lin (N := N) L).log v ms • basepoint G := by
  rw [← point_eq]
  unfold Spec.Combo.eval Spec.Lin.point
  congr 1
  · simp [par, lin]
  · let f : ℕ → G := fun j => if h : j < ms.length then
      let b := if h : j < N then v (.b ⟨j, h⟩) else 0
      L.nonce j • (b • basepoint G) + L.mac j • (Spec.factor v ms[j] • (b • basepoint G)) else 0
    have e1 : (∑ j : Fin (tags G v ms).length, (L.nonce j • (tags G v ms)[j].nonce + L.mac j • (tags G v ms)[j].mac)) =
        ∑ j : Fin (tags G v ms).length, f j := by
      refine Finset.sum_congr rfl fun j _ => ?_
      have hj : j.1 < ms.length := lt_of_lt_of_eq j.2 (tags_length v ms)
      simp only [f, hj, dif_pos, Fin.getElem_fin, tags_get]
    rw [e1]
    trans ∑ j : Fin N, f j
    swap
    · refine Finset.sum_congr rfl fun j _ => ?_
      by_cases hj : j.1 < ms.length
      · rw [List.getElem?_eq_getElem hj]
        simp [f, hj, lin]
      · rw [List.getElem?_eq_none (by omega)]
        simp [f, hj]
    rw [Fin.sum_univ_eq_sum_range f, Fin.sum_univ_eq_sum_range f]
    refine Finset.sum_subset (fun j hj => ?_) fun j _ hj => ?_
    · rw [Finset.mem_range] at *
      rw [tags_length] at hj
      omega
    · rw [Finset.mem_range, tags_length] at hj
      simp only [f]
      rw [dif_neg hj]

open Classical in
/-- The game with the nonces `b`, from number `k` on. -/
noncomputable def play (sp : SystemParameters G) (x0 x1 : F) (V : Set F) (b : Fin N → F) : Spec.Tester G → ℕ → ℚ
  | .forge m tag, _ => if m ∈ V ∧ tag.nonce ≠ 0 ∧ tag.mac = (x0 + x1 * m) • tag.nonce then 1 else 0
  | .log x, _ => if sp.h = x • sp.g then 1 else 0
  | .query m next, k =>
    if m.val ∈ V then 0 else
      let a := if h : k < N then b ⟨k, h⟩ else 0
      play sp x0 x1 V b (next ⟨a • basepoint G, (x0 + x1 * m.val) • (a • basepoint G)⟩) (k + 1)
  | .test U C W next, k => play sp x0 x1 V b (next (decide (W = x0 • U + x1 • C))) k

theorem play_update {sp : SystemParameters G} {x0 x1 : F} {V : Set F} (T : Spec.Tester G) :
    ∀ (b : Fin N → F) (k : ℕ) (i : Fin N) (a : F), i.1 < k →
      play sp x0 x1 V (Function.update b i a) T k = play sp x0 x1 V b T k := by
  induction T with
  | forge m tag => intros; rfl
  | log x => intros; rfl
  | query m next ih =>
    intro b k i a hi
    rw [play, play]
    have e : (if h : k < N then Function.update b i a ⟨k, h⟩ else 0) = if h : k < N then b ⟨k, h⟩ else 0 := by
      split
      · rw [Function.update_of_ne]
        intro h
        rw [← h] at hi
        exact lt_irrefl _ hi
      · rfl
    dsimp only
    rw [e, ih _ _ _ _ _ (by omega)]
  | test U C W next ih =>
    intro b k i a hi
    rw [play, play, ih _ _ _ _ _ hi]

theorem wins_play {sp : SystemParameters G} {x0 x1 : F} {V : Set F} (T : Spec.Tester G) :
    ∀ (k q n : ℕ), T.Within q n → k + q ≤ N →
      T.wins sp x0 x1 V = Spec.mean fun b : Fin N → F => play sp x0 x1 V b T k := by
  induction T with
  | forge m tag => intros; exact (Sim.mean_const (α := Fin N → F) _).symm
  | log x => intros; exact (Sim.mean_const (α := Fin N → F) _).symm
  | query m next ih =>
    rintro k _ n ⟨q, rfl, h⟩ hN
    rw [Spec.Tester.wins]
    simp only [play]
    by_cases hm : m.val ∈ V
    · simp only [if_pos hm]
      exact (Sim.mean_const (α := Fin N → F) _).symm
    · simp only [if_neg hm]
      have hk : k < N := by omega
      rw [Sim.mean_congr fun b => ih ⟨b • basepoint G, (x0 + x1 * m.val) • (b • basepoint G)⟩ (k + 1) q n (h _) (by omega)]
      simp only [hk, dif_pos]
      exact (Reduction.mean_coord (⟨k, hk⟩ : Fin N) (fun a b => play sp x0 x1 V b
        (next ⟨a • basepoint G, (x0 + x1 * m.val) • (a • basepoint G)⟩) (k + 1))
        fun a v b => play_update _ _ _ _ _ (Nat.lt_succ_self k)).symm
  | test U C W next ih =>
    rintro k q _ ⟨n, rfl, h⟩ hN
    rw [Spec.Tester.wins, ih _ k q n (h _) hN]
    rfl

/-- The number of requests for tags. -/
def depth : Spec.Generic → ℕ
  | .forge _ _ _ => 0
  | .log _ => 0
  | .query _ next => depth next + 1
  | .zero _ next => max (depth (next true)) (depth (next false))
  | .test _ _ _ next => max (depth (next true)) (depth (next false))

theorem ite_iff {p q : Prop} {i : Decidable p} {j : Decidable q} (h : p ↔ q) :
    (if p then (1 : ℚ) else 0) = if q then 1 else 0 :=
  if_congr h rfl rfl

open Classical in
theorem play_eq [DecidableEq G] {V : Set F} (A : Spec.Generic) : ∀ (v : Spec.Hidden 1 N) (ms : List (Spec.Msg 1)),
    ms.length + depth A ≤ N →
    play (par G (v .eta)) (v .x0) (v (.x 0)) V (fun j => v (.b j))
      (A.tester (par G (v .eta)) (v (.x 0) • (v .eta • basepoint G)) (tags G v ms)) ms.length =
      if Wins V v A ms then 1 else 0 := by
  induction A with
  | forge m P Q =>
    intro v ms hN
    have hN : ms.length ≤ N := by omega
    rw [Spec.Generic.tester, play]
    refine ite_iff ?_
    rw [Wins, eval_eq _ v ms hN, eval_eq _ v ms hN, smul_smul, smul_base_inj, ne_eq, smul_base_eq_zero, factor_msg]
  | log x =>
    intro v ms hN
    rw [Spec.Generic.tester, play]
    refine ite_iff ?_
    rw [Wins]
    exact smul_base_inj
  | query m next ih =>
    intro v ms hN
    rw [depth] at hN
    have hj : ms.length < N := by omega
    simp only [Spec.Generic.tester, play, Wins]
    by_cases hm : m.val ∈ V
    · simp [hm]
    · have := ih v (ms ++ [msg m.val]) (by rw [List.length_append, List.length_singleton]; omega)
      rw [tags_append v ms _ hj, factor_msg, List.length_append, List.length_singleton] at this
      simp only [hm, if_false, hj, dif_pos, not_false_eq_true, true_and]
      exact this
  | zero L next ih =>
    intro v ms hN
    rw [depth] at hN
    simp only [Spec.Generic.tester, Wins, eval_eq _ v ms (by omega : ms.length ≤ N), smul_base_eq_zero]
    by_cases h : (lin (N := N) L).log v ms = 0
    · rw [decide_eq_true h, ih true v ms (by omega)]
      simp [h]
    · rw [decide_eq_false h, ih false v ms (by omega)]
      simp [h]
  | test U C W next ih =>
    intro v ms hN
    rw [depth] at hN
    have hN' : ms.length ≤ N := by omega
    have e : W.eval (par G (v .eta)) (v (.x 0) • (v .eta • basepoint G)) (tags G v ms) =
        v .x0 • U.eval (par G (v .eta)) (v (.x 0) • (v .eta • basepoint G)) (tags G v ms) +
          v (.x 0) • C.eval (par G (v .eta)) (v (.x 0) • (v .eta • basepoint G)) (tags G v ms) ↔
        (lin (N := N) W).log v ms = v .x0 * (lin U).log v ms + v (.x 0) * (lin C).log v ms := by
      rw [eval_eq _ v ms hN', eval_eq _ v ms hN', eval_eq _ v ms hN', smul_smul, smul_smul, ← add_smul, smul_base_inj]
    rw [Spec.Generic.tester, play]
    by_cases h : (lin (N := N) W).log v ms = v .x0 * (lin U).log v ms + v (.x 0) * (lin C).log v ms
    · rw [@decide_eq_true _ (propDecidable _) (e.2 h), ih true v ms (by omega)]
      refine ite_iff ?_
      rw [Wins]
      simp [h]
    · rw [@decide_eq_false _ (propDecidable _) (mt e.1 h), ih false v ms (by omega)]
      refine ite_iff ?_
      rw [Wins]
      simp [h]

omit [Ristretto G] in
theorem tester_within [DecidableEq G] {sp : SystemParameters G} {X : G} (A : Spec.Generic) : ∀ (ts : List (Tag G)) (c : ℕ),
    A.Within c → (A.tester sp X ts).Within (depth A) c := by
  induction A with
  | forge m P Q => intros; trivial
  | log x => intros; trivial
  | query m next ih => exact fun ts c h => ⟨depth next, rfl, fun t => ih _ c h⟩
  | zero L next ih =>
    rintro ts _ ⟨c, rfl, h⟩
    rw [Spec.Generic.tester]
    cases decide (L.eval sp X ts = 0)
    · exact Sketch.tester_mono _ _ _ _ _ (le_max_right _ _) (by omega) (ih false ts c (h _))
    · exact Sketch.tester_mono _ _ _ _ _ (le_max_left _ _) (by omega) (ih true ts c (h _))
  | test U C W next ih =>
    rintro ts _ ⟨c, rfl, h⟩
    refine ⟨c + 2, rfl, fun b => ?_⟩
    cases b
    · exact Sketch.tester_mono _ _ _ _ _ (le_max_right _ _) (by omega) (ih false ts c (h _))
    · exact Sketch.tester_mono _ _ _ _ _ (le_max_left _ _) (by omega) (ih true ts c (h _))

/-- All unknowns, one by one. -/
def split : Spec.Hidden 1 N ≃ (F × F × F) × (Fin N → F) × (Fin N → F) where
  toFun v := ((v .eta, v .x0, v (.x 0)), fun j => v (.b j), fun j => v (.t j))
  invFun p
    | .x0 => p.1.2.1
    | .x _ => p.1.2.2
    | .eta => p.1.1
    | .b j => p.2.1 j
    | .t j => p.2.2 j
  left_inv v := by
    funext x
    cases x with
    | x i => rw [Subsingleton.elim i 0]
    | _ => rfl
  right_inv p := rfl

theorem mean_wins [DecidableEq G] {V : Set F} (A : Spec.Generic) (c : ℕ) (hc : A.Within c) :
    (Spec.mean fun x : F × F × F => (A.tester (par G x.1) (x.2.2 • (x.1 • basepoint G)) []).wins (par G x.1) x.2.1 x.2.2 V) ≤
      c / ell := by
  classical
  set N := depth A
  have e : (Spec.mean fun x : F × F × F =>
      (A.tester (par G x.1) (x.2.2 • (x.1 • basepoint G)) []).wins (par G x.1) x.2.1 x.2.2 V) =
      Spec.mean fun v : Spec.Hidden 1 N => if Wins V v A [] then 1 else 0 := by
    have h1 : ∀ x : F × F × F, (A.tester (par G x.1) (x.2.2 • (x.1 • basepoint G)) []).wins (par G x.1) x.2.1 x.2.2 V =
        Spec.mean fun y : (Fin N → F) × (Fin N → F) =>
          play (par G x.1) x.2.1 x.2.2 V y.1 (A.tester (par G x.1) (x.2.2 • (x.1 • basepoint G)) []) 0 := fun x => by
      rw [wins_play (N := N) _ 0 _ c (tester_within A _ c hc) (Nat.zero_add _).le, Tagging.mean_prod]
      exact Sim.mean_congr fun b => (Sim.mean_const (α := Fin N → F) _).symm
    rw [Sim.mean_congr h1, ← Tagging.mean_prod fun p : (F × F × F) × (Fin N → F) × (Fin N → F) =>
      play (par G p.1.1) p.1.2.1 p.1.2.2 V p.2.1 (A.tester (par G p.1.1) (p.1.2.2 • (p.1.1 • basepoint G)) []) 0,
      ← Sim.mean_equiv split]
    exact Sim.mean_congr fun v => play_eq A v [] (Nat.zero_add _).le
  rw [e]
  have h := count_wins (N := N) (V := V) A [] c (fun m _ => List.not_mem_nil) hc
  unfold Spec.mean
  rw [Finset.sum_boole, ← count_eq]
  have hp : (0 : ℚ) < Fintype.card (Spec.Hidden 1 N) := by exact_mod_cast Fintype.card_pos
  have hl : (0 : ℚ) < ell := by exact_mod_cast ell_pos
  rw [div_le_div_iff₀ hp hl]
  exact_mod_cast h

theorem wins_nonneg {sp : SystemParameters G} {x0 x1 : F} {V : Set F} (T : Spec.Tester G) : 0 ≤ T.wins sp x0 x1 V := by
  induction T with
  | forge m tag => rw [Spec.Tester.wins]; split <;> norm_num
  | log x => rw [Spec.Tester.wins]; split <;> norm_num
  | query m next ih =>
    rw [Spec.Tester.wins]
    split
    · exact le_rfl
    · have h := Sim.mean_mono (α := F) (f := fun _ => 0) fun b =>
        ih ⟨b • basepoint G, (x0 + x1 * m.val) • (b • basepoint G)⟩
      rwa [Sim.mean_const (α := F) 0] at h
  | test U C W next ih => exact ih _

end Generic

/-- **C97.** Generic algorithms do not forge MACs and do not find logarithms: with any number of tags, and comparisons
and equations at a cost of `c` in all, the probability is at most `c/(ℓ-1)`. So the assumption in C96 on the algorithm
that forges holds for them; that in C93 and C94 is the case without equations. -/
theorem C97_generic [DecidableEq G] {Ω : Type} [Fintype Ω] [Nonempty Ω] (A : Ω → Spec.Generic) (V : Set F) (c : ℕ)
    (hA : ∀ ω, (A ω).Within c) : Spec.genericWins G A V ≤ c / (ell - 1) := by
  have hl : (0 : ℚ) < (ell : ℚ) - 1 := by
    rw [sub_pos]
    exact_mod_cast (by decide +kernel : 1 < ell)
  have hl' : (0 : ℚ) < ell := by linarith
  let f : Ω → F → ℚ := fun ω η => Spec.mean fun x : F × F =>
    ((A ω).tester (Generic.par G η) (x.2 • (η • basepoint G)) []).wins (Generic.par G η) x.1 x.2 V
  have e : Spec.genericWins G A V = Spec.mean fun ω => Spec.mean fun y : Spec.Log => f ω y.1 := by
    unfold Spec.genericWins
    rw [Tagging.mean_prod, Sim.mean_congr fun y => Tagging.mean_prod _, Sim.mean_comm]
    rfl
  have hf : ∀ ω η, 0 ≤ f ω η := fun ω η => by
    have h := Sim.mean_mono (α := F × F) (f := fun _ => 0) fun x => Generic.wins_nonneg (V := V) (x0 := x.1) (x1 := x.2)
      (sp := Generic.par G η) ((A ω).tester (Generic.par G η) (x.2 • (η • basepoint G)) [])
    rwa [Sim.mean_const (α := F × F) 0] at h
  have h1 : ∀ ω, (Spec.mean fun y : Spec.Log => f ω y.1) ≤ c / (ell - 1) := fun ω => by
    have h := Generic.mean_wins (G := G) (V := V) (A ω) c (hA ω)
    rw [Tagging.mean_prod] at h
    have h2 : (∑ η : F, f ω η) / ell ≤ c / ell := by
      have e : (Spec.mean fun η : F => f ω η) = (∑ η : F, f ω η) / ell := by
        unfold Spec.mean
        rw [ZMod.card]
      rw [← e]
      exact h
    rw [div_le_div_iff_of_pos_right hl'] at h2
    rw [Setup.mean_log (f ω), div_le_div_iff_of_pos_right hl]
    have := Finset.add_sum_erase (Finset.univ : Finset F) (f ω) (Finset.mem_univ 0)
    linarith [hf ω 0]
  rw [e]
  exact (Sim.mean_mono h1).trans (le_of_eq (Sim.mean_const (α := Ω) _))

omit [Ristretto G] in
/-- **C97**: generic algorithms are algorithms as in C96, with as many requests and at most as many equations. -/
theorem C97_cost [DecidableEq G] (sp : SystemParameters G) (X : G) (A : Spec.Generic) (c : ℕ) (hA : A.Within c) :
    (A.tester sp X []).Within (Generic.depth A) c :=
  Generic.tester_within A [] c hA

/-- **C97**: the tags in the game are those of `SecretKey::mac`, for one attribute, and the algorithm is asked for tags that
`SecretKey::verify` accepts; with a nonce that is not the identity, which it does not demand (it refuses the base point
instead, C22). -/
theorem C97_code [DecidableEq G] {R : Type} [RngCore R] (x0 x1 m : Scalar) (rng : R) :
    (((⟨x0, [x1]⟩ : SecretKey).mac [m] rng).1 : Res MacError (Tag G)) =
        .ok ⟨(Scalar.random rng).1.val • basepoint G,
          (x0.val + x1.val * m.val) • ((Scalar.random rng).1.val • basepoint G)⟩ ∧
      ∀ tag : Tag G, (⟨x0, [x1]⟩ : SecretKey).verify tag [m] = .ok () ↔
        tag.nonce ≠ basepoint G ∧ tag.mac = (x0.val + x1.val * m.val) • tag.nonce := by
  refine ⟨?_, fun tag => ?_⟩
  · have e : ((⟨x0, [x1]⟩ : SecretKey).macExponent [m]).val = x0.val + x1.val * m.val := by
      simp [SecretKey.macExponent]
    rw [SecretKey.mac, if_neg (by simp)]
    dsimp only
    rw [Scalar.smul_def, Scalar.smul_def, e]
  · rw [C22_verify_iff]
    simp only [Spec.MacValid, Spec.macFactor, List.map_cons, List.map_nil, add_comm]

/-- An algorithm that gets a tag on 7, asks an equation, and claims that the tag is one on 8. -/
example : (Spec.Generic.query ⟨7, by decide +kernel⟩ (.test ⟨1, 0, 0, 0, 0⟩ ⟨0, 1, 0, 0, 0⟩ ⟨0, 0, 0, 1, 0⟩ fun b =>
    if b then .log 5 else .forge 8 ⟨0, 0, 0, 1, 0⟩ ⟨0, 0, 0, 0, 1⟩)).Within 6 :=
  ⟨3, rfl, fun b => by cases b <;> exact le_rfl⟩

/-- A guess succeeds sometimes: the bound of `C97_generic` is then `3/(ℓ-1)`, the probability `1/(ℓ-1)`. -/
example : Spec.genericWins F (fun _ : Unit => .log 5) ∅ = 1 / (ell - 1) := by
  have e : Spec.genericWins F (fun _ : Unit => .log 5) ∅ =
      Spec.mean fun y : Spec.Log => if y.1 = 5 then (1 : ℚ) else 0 := by
    unfold Spec.genericWins
    rw [Tagging.mean_prod]
    refine Sim.mean_congr fun y => ?_
    refine (Sim.mean_congr fun x => ?_).trans (Sim.mean_const (α := Unit × F × F) _)
    exact Generic.ite_iff smul_base_inj
  rw [e, Setup.mean_log fun y => if y = 5 then (1 : ℚ) else 0]
  have h5 : (5 : F) ∈ Finset.univ.erase (0 : F) := Finset.mem_erase.2 ⟨by decide +kernel, Finset.mem_univ _⟩
  rw [Finset.sum_ite_eq' _ (5 : F) (fun _ => (1 : ℚ)), if_pos h5]

end Verif
