import Verif.Props.Onlooker

/-!
# Hash queries of the issuer without the secret key (C96)

To check a presentation the issuer hashes two elements that depend on its secret key linearly. Whoever does not have
the key can still keep book of such queries if it may test, for elements of its choice, whether `W = x0·U + x1·C`.
This file has the algorithms: an adversary whose presentations get checked becomes one that makes such queries,
and that becomes an algorithm that gets MACs and such tests, and forges a MAC.
-/

set_option maxRecDepth 100000

namespace Verif

open Amacs

variable {G : Type} [AddCommGroup G] [Module F G] [Ristretto G] {Out R : Type}

/-! ## Transcripts up to the secret key -/

/-- An operation on a transcript: known, or committing to `x0·U + x1·C + W`. -/
inductive Spec.Item (G : Type) where
  | known (o : Op)
  | form (label : String) (U C W : G)

/-- A transcript up to the secret key. -/
abbrev Spec.Sketch (G : Type) := List (Spec.Item G)

/-- The operation, with the secret key. -/
def Spec.Item.resolve (x0 x1 : F) : Spec.Item G → Op
  | .known o => o
  | .form label U C W => .commit label (enc (x0 • U + x1 • C + W))

/-- The transcript, with the secret key. -/
def Spec.Sketch.resolve (x0 x1 : F) (s : Spec.Sketch G) : Transcript := s.map (Spec.Item.resolve x0 x1)

/-- A known transcript. -/
def Spec.Sketch.of (t : Transcript) : Spec.Sketch G := t.map .known

/-- Continues with whether two operations are equal, after at most one test. -/
def Spec.Item.same (test : G → G → G → (Bool → R) → R) : Spec.Item G → Spec.Item G → (Bool → R) → R
  | .known o, .known o', k => k (decide (o = o'))
  | .known (.commit l b), .form l' U C W, k =>
    match dec b with
    | some v => if l = l' then test U C (v - W) k else k false
    | none => k false
  | .form l' U C W, .known (.commit l b), k =>
    match dec b with
    | some v => if l = l' then test U C (v - W) k else k false
    | none => k false
  | .form l U C W, .form l' U' C' W', k => if l = l' then test (U - U') (C - C') (W' - W) k else k false
  | _, _, k => k false

/-- Continues with whether two transcripts are equal. -/
def Spec.Sketch.same (test : G → G → G → (Bool → R) → R) : Spec.Sketch G → Spec.Sketch G → (Bool → R) → R
  | [], [], k => k true
  | a :: s, b :: s', k => a.same test b fun e => if e then Spec.Sketch.same test s s' k else k false
  | _, _, k => k false

/-- Hash queries up to the secret key. -/
abbrev Spec.SketchLog (G : Type) := List (Spec.Sketch G × Spec.Answer)

/-- The hash queries, with the secret key. -/
def Spec.SketchLog.resolve (x0 x1 : F) (l : Spec.SketchLog G) : Spec.HashLog :=
  l.map fun e => (Spec.Sketch.resolve x0 x1 e.1, e.2)

/-- Continues with the answer to a query, if it was made before. -/
def Spec.SketchLog.find (test : G → G → G → (Bool → R) → R) :
    Spec.SketchLog G → Spec.Sketch G → (Option Spec.Answer → R) → R
  | [], _, k => k none
  | (t, a) :: l, s, k => Spec.Sketch.same test s t fun e => if e then k (some a) else Spec.SketchLog.find test l s k

/-! ## The algorithms -/

/-- An adversary that asks the hash for transcripts up to the secret key, gets attributes issued, makes tests, and
finally returns something. -/
inductive Spec.Prober (G Out : Type) where
  | out (o : Out)
  | ask (s : Spec.Sketch G) (next : Spec.Answer → Spec.Prober G Out)
  | issue (m : Scalar) (next : CredentialIssuance G → Spec.Prober G Out)
  | test (U C W : G) (next : Bool → Spec.Prober G Out)

/-- An algorithm that gets tags on numbers of its choice, and tests whether `W = x0·U + x1·C` for elements of its
choice, and finally returns a number with a tag, or a field element. -/
inductive Spec.Tester (G : Type) where
  | forge (m : F) (tag : Tag G)
  | log (x : F)
  | query (m : Scalar) (next : Tag G → Spec.Tester G)
  | test (U C W : G) (next : Bool → Spec.Tester G)

/-- At most `q` requests for tags and `n` tests. -/
def Spec.Tester.Within : Spec.Tester G → ℕ → ℕ → Prop
  | .forge _ _, _, _ => True
  | .log _, _, _ => True
  | .query _ next, q, n => ∃ q', q = q' + 1 ∧ ∀ t, (next t).Within q' n
  | .test _ _ _ next, q, n => ∃ n', n = n' + 1 ∧ ∀ b, (next b).Within q n'

open Classical in
/-- The probability that it returns a valid tag with non-identity nonce on a number in `V`, while all the
numbers that it got tags on are not in `V`, or the logarithm of `h` to the base `g`. -/
noncomputable def Spec.Tester.wins (sp : SystemParameters G) (x0 x1 : F) (V : Set F) : Spec.Tester G → ℚ
  | .forge m tag => if m ∈ V ∧ tag.nonce ≠ 0 ∧ tag.mac = (x0 + x1 * m) • tag.nonce then 1 else 0
  | .log x => if sp.h = x • sp.g then 1 else 0
  | .query m next =>
    if m.val ∈ V then 0 else
      Spec.mean fun b : F =>
        (next ⟨b • basepoint G, (x0 + x1 * m.val) • (b • basepoint G)⟩).wins sp x0 x1 V
  | .test U C W next => (next (decide (W = x0 • U + x1 • C))).wins sp x0 x1 V

/-- An algorithm without tests. -/
def Spec.Forger.tester : Spec.Forger G → Spec.Tester G
  | .forge m tag => .forge m tag
  | .log x => .log x
  | .query m next => .query m fun t => (next t).tester

/-- Runs an adversary, as `Spec.Impostor.drive`. -/
def Spec.Prober.drive (sp : SystemParameters G) (X : G) (cells : ℕ → Spec.Cell) (old : ℕ → Option (Tag G))
    (k : Out → (ℕ → Option (Tag G)) → Spec.Tester G) :
    Spec.Prober G Out → Spec.SketchLog G → (ℕ → Option (Tag G)) → Spec.Tester G
  | .out o, _, got => k o got
  | .ask s next, l, got => Spec.SketchLog.find .test l s fun r =>
    (next (r.getD (cells l.length).1)).drive sp X cells old k (l ++ [(s, r.getD (cells l.length).1)]) got
  | .issue m next, l, got =>
    let go (tag : Tag G) :=
      let r := Spec.fakeIssue sp X m tag (cells l.length)
      (next r.1).drive sp X cells old k (l ++ [(Spec.Sketch.of r.2.1, r.2.2)])
        (Function.update got l.length (some tag))
    match old l.length with
    | some tag => go tag
    | none => .query m go
  | .test U C W next, l, got => .test U C W fun b => (next b).drive sp X cells old k l got

/-- The algorithm: as `Spec.forger`. -/
def Spec.tester (sp : SystemParameters G) (X : G) (A : Spec.Prober G Spec.Attempt) (j j' : ℕ)
    (c c' c'' : ℕ → Spec.Cell) : Spec.Tester G :=
  A.drive sp X c (fun _ => none) (fun o got =>
    A.drive sp X (Spec.switch j c c') (Spec.before j got) (fun o' _ =>
      A.drive sp X (Spec.switch j' c c'') (Spec.before j' got) (fun o'' _ =>
        match o.presentation G, o'.presentation G, o''.presentation G with
        | some p, some p', some p'' => (Spec.finish sp X o p p' p'').tester
        | _, _, _ => .log 0) [] (fun _ => none)) [] (fun _ => none)) [] (fun _ => none)

/-- The probability that the algorithm succeeds, for adversaries that make at most `T` steps. Setup, coins of the
adversary, the secret key, the guesses and the randomness of all steps are uniform. -/
noncomputable def Spec.testerWins {S Ω : Type} [Fintype S] [Fintype Ω] (sp : S → SystemParameters G)
    (A : SystemParameters G → G → Ω → Spec.Prober G Spec.Attempt) (V : Set F) (T : ℕ) : ℚ :=
  Spec.mean fun x : S × Ω × F × F => Spec.mean fun j : Fin (T + 2) × Fin (T + 2) =>
  Spec.mean fun c : (Fin (T + 2) → Spec.Cell) × (Fin (T + 2) → Spec.Cell) × (Fin (T + 2) → Spec.Cell) =>
    let X := x.2.2.2 • (sp x.1).h
    (Spec.tester (sp x.1) X (A (sp x.1) X x.2.1) j.1 j.2 (Spec.stretch c.1) (Spec.stretch c.2.1)
      (Spec.stretch c.2.2)).wins (sp x.1) x.2.2.1 x.2.2.2 V

/-! ## They do what they should -/

namespace Sketch

theorem resolve_of (x0 x1 : F) (t : Transcript) : Spec.Sketch.resolve (G := G) x0 x1 (.of t) = t := by
  unfold Spec.Sketch.resolve Spec.Sketch.of
  rw [List.map_map]
  exact List.map_id t

theorem resolve_append (x0 x1 : F) (l l' : Spec.SketchLog G) :
    Spec.SketchLog.resolve x0 x1 (l ++ l') = Spec.SketchLog.resolve x0 x1 l ++ Spec.SketchLog.resolve x0 x1 l' :=
  List.map_append

theorem resolve_length (x0 x1 : F) (l : Spec.SketchLog G) :
    (Spec.SketchLog.resolve x0 x1 l).length = l.length := List.length_map _

section cps
variable {R' : Type} {x0 x1 : F} {test : G → G → G → (Bool → R) → R} {h : R → R'}

open Classical in
/-- Tests are answered by the secret key. -/
def Answered (x0 x1 : F) (test : G → G → G → (Bool → R) → R) (h : R → R') : Prop :=
  ∀ U C W k, h (test U C W k) = h (k (decide (W = x0 • U + x1 • C)))

open Classical in
theorem item_same (ht : Answered x0 x1 test h) (a b : Spec.Item G) (k : Bool → R) :
    h (a.same test b k) = h (k (decide (a.resolve x0 x1 = b.resolve x0 x1))) := by
  have one : ∀ (l l' : String) (U C W : G) (d : Bytes),
      h (match dec d with
        | some v => if l = l' then test U C (v - W) k else k false
        | none => k false) = h (k (decide (Op.commit l d = .commit l' (enc (x0 • U + x1 • C + W))))) := by
    intro l l' U C W d
    cases hd : dec (G := G) d with
    | none =>
      have : ¬ Op.commit l d = .commit l' (enc (x0 • U + x1 • C + W)) := by
        rintro e
        injection e with e1 e2
        rw [e2, dec_enc] at hd
        cases hd
      simp only [this, decide_false]
    | some v =>
      have hv : enc v = d := dec_eq_some.1 hd
      dsimp only
      by_cases hl : l = l'
      · rw [if_pos hl, ht]
        congr 2
        refine decide_eq_decide.2 ?_
        rw [hl, ← hv, Op.commit.injEq, sub_eq_iff_eq_add]
        refine ⟨fun e => ⟨rfl, by rw [e]⟩, fun e => ?_⟩
        have := congrArg (dec (G := G)) e.2
        rw [dec_enc, dec_enc] at this
        exact Option.some.inj this
      · rw [if_neg hl]
        have : ¬ Op.commit l d = .commit l' (enc (x0 • U + x1 • C + W)) := fun e => hl (Op.commit.inj e).1
        simp only [this, decide_false]
  cases a with
  | known o =>
    cases b with
    | known o' =>
      simp only [Spec.Item.same, Spec.Item.resolve]
      congr 2
    | form l' U C W =>
      cases o with
      | commit l d => exact one l l' U C W d
      | init l => simp [Spec.Item.same, Spec.Item.resolve]
      | challenge l n => simp [Spec.Item.same, Spec.Item.resolve]
  | form l U C W =>
    cases b with
    | known o' =>
      cases o' with
      | commit l' d =>
        refine (one l' l U C W d).trans ?_
        simp only [Spec.Item.resolve]
        congr 2
        exact decide_eq_decide.2 eq_comm
      | init l => simp [Spec.Item.same, Spec.Item.resolve]
      | challenge l n => simp [Spec.Item.same, Spec.Item.resolve]
    | form l' U' C' W' =>
      simp only [Spec.Item.same, Spec.Item.resolve]
      by_cases hl : l = l'
      · rw [if_pos hl, ht]
        congr 2
        refine decide_eq_decide.2 ?_
        rw [hl, Op.commit.injEq]
        have e : W' - W = x0 • (U - U') + x1 • (C - C') ↔ x0 • U + x1 • C + W = x0 • U' + x1 • C' + W' := by
          rw [smul_sub, smul_sub, ← sub_eq_zero, ← sub_eq_zero (a := x0 • U + x1 • C + W), ← neg_eq_zero]
          refine Eq.congr ?_ rfl
          abel
        rw [e]
        refine ⟨fun e => ⟨rfl, by rw [e]⟩, fun e => ?_⟩
        have := congrArg (dec (G := G)) e.2
        rw [dec_enc, dec_enc] at this
        exact Option.some.inj this
      · rw [if_neg hl]
        have : ¬ Op.commit l (enc (x0 • U + x1 • C + W)) = .commit l' (enc (x0 • U' + x1 • C' + W')) :=
          fun e => hl (Op.commit.inj e).1
        simp only [this, decide_false]

open Classical in
theorem same_eq (ht : Answered x0 x1 test h) : ∀ (s s' : Spec.Sketch G) (k : Bool → R),
    h (Spec.Sketch.same test s s' k) =
      h (k (decide (Spec.Sketch.resolve x0 x1 s = Spec.Sketch.resolve x0 x1 s')))
  | [], [], k => by simp [Spec.Sketch.same]
  | [], _ :: _, k => by simp [Spec.Sketch.same, Spec.Sketch.resolve]
  | _ :: _, [], k => by simp [Spec.Sketch.same, Spec.Sketch.resolve]
  | a :: s, b :: s', k => by
    rw [Spec.Sketch.same, item_same ht]
    have ih := same_eq ht s s' k
    simp only [Spec.Sketch.resolve, List.map_cons, List.cons.injEq] at ih ⊢
    by_cases e : a.resolve x0 x1 = b.resolve x0 x1
    · simp only [e, decide_true, if_true, true_and, ih]
      congr! 2
    · simp [e]

theorem find_eq (ht : Answered x0 x1 test h) : ∀ (l : Spec.SketchLog G) (s : Spec.Sketch G) (k : Option Spec.Answer → R),
    h (Spec.SketchLog.find test l s k) =
      h (k ((Spec.SketchLog.resolve x0 x1 l).lookup (Spec.Sketch.resolve x0 x1 s)))
  | [], s, k => rfl
  | (t, a) :: l, s, k => by
    classical
    rw [Spec.SketchLog.find, same_eq ht]
    have ih := find_eq ht l s k
    simp only [Spec.SketchLog.resolve, List.map_cons, List.lookup_cons] at ih ⊢
    by_cases e : Spec.Sketch.resolve x0 x1 s = Spec.Sketch.resolve x0 x1 t
    · simp [e]
    · simp only [e, decide_false, Bool.false_eq_true, if_false, ih, beq_eq_false_iff_ne.2 e]

end cps

open Classical in
/-- The tests answered by the secret key. -/
noncomputable def settle (x0 x1 : F) : Spec.Prober G Out → Spec.Impostor G Out
  | .out o => .out o
  | .ask s next => .ask (Spec.Sketch.resolve x0 x1 s) fun a => settle x0 x1 (next a)
  | .issue m next => .issue m fun c => settle x0 x1 (next c)
  | .test U C W next => settle x0 x1 (next (decide (W = x0 • U + x1 • C)))

open Classical in
/-- The tests answered by the secret key. -/
noncomputable def settled (x0 x1 : F) : Spec.Tester G → Spec.Forger G
  | .forge m tag => .forge m tag
  | .log x => .log x
  | .query m next => .query m fun t => settled x0 x1 (next t)
  | .test U C W next => settled x0 x1 (next (decide (W = x0 • U + x1 • C)))

theorem answered_prober (x0 x1 : F) :
    Answered x0 x1 (Spec.Prober.test (G := G) (Out := Out)) (settle x0 x1) := fun _ _ _ _ => rfl

omit [Ristretto G] in
theorem answered_tester (x0 x1 : F) : Answered x0 x1 (Spec.Tester.test (G := G)) (settled x0 x1) := fun _ _ _ _ => rfl

theorem settled_wins (sp : SystemParameters G) (x0 x1 : F) (V : Set F) (B : Spec.Tester G) :
    (settled x0 x1 B).wins sp x0 x1 V = B.wins sp x0 x1 V := by
  induction B with
  | forge m tag => rfl
  | log x => rfl
  | query m next ih =>
    rw [settled, Spec.Forger.wins, Spec.Tester.wins]
    split
    · rfl
    · exact Sim.mean_congr fun b => ih _
  | test U C W next ih => exact ih _

omit [Ristretto G] in
theorem settled_tester (x0 x1 : F) (B : Spec.Forger G) : settled x0 x1 B.tester = B := by
  induction B with
  | forge m tag => rfl
  | log x => rfl
  | query m next ih =>
    rw [Spec.Forger.tester, settled]
    congr 1
    funext t
    exact ih t

theorem drive_settled {sp : SystemParameters G} {X : G} {cells : ℕ → Spec.Cell} {old : ℕ → Option (Tag G)}
    {k : Out → (ℕ → Option (Tag G)) → Spec.Tester G} {k' : Out → Spec.HashLog → (ℕ → Option (Tag G)) → Spec.Forger G}
    {x0 x1 : F} (hk : ∀ o l got, settled x0 x1 (k o got) = k' o l got) (A : Spec.Prober G Out) :
    ∀ (l : Spec.SketchLog G) (got : ℕ → Option (Tag G)),
      settled x0 x1 (A.drive sp X cells old k l got) =
        (settle x0 x1 A).drive sp X cells old k' (Spec.SketchLog.resolve x0 x1 l) got := by
  induction A with
  | out o => intro l got; exact hk o _ got
  | ask s next ih =>
    intro l got
    rw [Spec.Prober.drive, find_eq (answered_tester x0 x1), ih, settle, Spec.Impostor.drive, resolve_append,
      resolve_length]
    rfl
  | issue m next ih =>
    intro l got
    have e : ∀ tag, settled x0 x1 (((next (Spec.fakeIssue sp X m tag (cells l.length)).1).drive sp X cells old k
        (l ++ [(Spec.Sketch.of (Spec.fakeIssue sp X m tag (cells l.length)).2.1,
          (Spec.fakeIssue sp X m tag (cells l.length)).2.2)]) (Function.update got l.length (some tag)))) =
        (settle x0 x1 (next (Spec.fakeIssue sp X m tag (cells l.length)).1)).drive sp X cells old k'
          (Spec.SketchLog.resolve x0 x1 l ++ [(Spec.fakeIssue sp X m tag (cells l.length)).2])
          (Function.update got l.length (some tag)) := by
      intro tag
      rw [ih, resolve_append]
      simp only [Spec.SketchLog.resolve, List.map_cons, List.map_nil, resolve_of]
    rw [Spec.Prober.drive, settle, Spec.Impostor.drive, resolve_length]
    dsimp only
    cases old l.length with
    | some tag => exact e tag
    | none =>
      dsimp only
      rw [settled]
      congr 1
      funext tag
      exact e tag
  | test U C W next ih =>
    intro l got
    rw [Spec.Prober.drive, settled, settle]
    exact ih _ l got

theorem tester_settled (sp : SystemParameters G) (X : G) (x0 x1 : F) (A : Spec.Prober G Spec.Attempt) (j j' : ℕ)
    (c c' c'' : ℕ → Spec.Cell) :
    settled x0 x1 (Spec.tester sp X A j j' c c' c'') = Spec.forger sp X (settle x0 x1 A) j j' c c' c'' := by
  unfold Spec.tester Spec.forger
  refine drive_settled (fun o _ got => drive_settled (fun o' _ _ => drive_settled (fun o'' _ _ => ?_) A [] _) A [] _) A [] _
  cases o.presentation G <;> cases o'.presentation G <;> cases o''.presentation G <;>
    first | exact settled_tester x0 x1 _ | rfl

/-- The algorithm succeeds as often as the one of C93 with the adversary that has the key. -/
theorem testerWins_eq {S Ω : Type} [Fintype S] [Fintype Ω] (sp : S → SystemParameters G)
    (A : SystemParameters G → G → Ω → Spec.Prober G Spec.Attempt) (V : Set F) (T : ℕ) :
    Spec.testerWins sp A V T = Reduction.forges sp (fun sp k ω => settle k.1 k.2 (A sp (k.2 • sp.h) ω)) V T := by
  unfold Spec.testerWins Reduction.forges
  refine Sim.mean_congr fun x => Sim.mean_congr fun j => Sim.mean_congr fun c => ?_
  dsimp only
  rw [← settled_wins, tester_settled]

/-! ## The number of tests -/

/-- One if the operation depends on the key. -/
def tests : Spec.Item G → ℕ
  | .known _ => 0
  | .form _ _ _ _ => 1

/-- The number of operations that depend on the key. -/
def forms (s : Spec.Sketch G) : ℕ := (s.map tests).sum

omit [AddCommGroup G] [Module F G] [Ristretto G] in
theorem forms_of (t : Transcript) : forms (Spec.Sketch.of (G := G) t) = 0 := by
  unfold forms Spec.Sketch.of
  induction t with
  | nil => rfl
  | cons a t ih => simpa [tests] using ih

section cost
variable {test : G → G → G → (Bool → R) → R} {Cost : R → ℕ → Prop}

theorem item_cost (mono : ∀ r n n', n ≤ n' → Cost r n → Cost r n')
    (ht : ∀ U C W k n, (∀ b, Cost (k b) n) → Cost (test U C W k) (n + 1)) (a b : Spec.Item G) {k : Bool → R} {n : ℕ}
    (hk : ∀ b, Cost (k b) n) : Cost (a.same test b k) (n + tests a + tests b) := by
  have one : ∀ (l l' : String) (U C W : G) (d : Bytes) (n' : ℕ), n + 1 ≤ n' →
      Cost (match dec d with
        | some v => if l = l' then test U C (v - W) k else k false
        | none => k false) n' := by
    intro l l' U C W d n' hn
    split
    · split
      · exact mono _ _ _ hn (ht _ _ _ _ _ hk)
      · exact mono _ _ _ (by omega) (hk _)
    · exact mono _ _ _ (by omega) (hk _)
  cases a with
  | known o =>
    cases b with
    | known o' => exact hk _
    | form l' U C W =>
      cases o with
      | commit l d => exact one l l' U C W d _ (by simp [tests])
      | init l => exact mono _ _ _ (by simp [tests]) (hk _)
      | challenge l n => exact mono _ _ _ (by simp [tests]) (hk _)
  | form l U C W =>
    cases b with
    | known o' =>
      cases o' with
      | commit l' d => exact one l' l U C W d _ (by simp [tests])
      | init l => exact mono _ _ _ (by simp [tests]) (hk _)
      | challenge l n => exact mono _ _ _ (by simp [tests]) (hk _)
    | form l' U' C' W' =>
      simp only [Spec.Item.same]
      split
      · exact mono _ _ _ (by simp [tests]) (ht _ _ _ _ _ hk)
      · exact mono _ _ _ (by omega) (hk _)

theorem same_cost (mono : ∀ r n n', n ≤ n' → Cost r n → Cost r n')
    (ht : ∀ U C W k n, (∀ b, Cost (k b) n) → Cost (test U C W k) (n + 1)) {k : Bool → R} {n : ℕ}
    (hk : ∀ b, Cost (k b) n) : ∀ s s' : Spec.Sketch G, Cost (Spec.Sketch.same test s s' k) (n + forms s + forms s')
  | [], [] => hk _
  | [], _ :: _ => mono _ _ _ (by omega) (hk _)
  | _ :: _, [] => mono _ _ _ (by omega) (hk _)
  | a :: s, b :: s' => by
    have ih := same_cost mono ht hk s s'
    refine mono _ _ _ (le_of_eq ?_) (item_cost mono ht a b (n := n + forms s + forms s') fun e => ?_)
    · simp only [forms, List.map_cons, List.sum_cons]
      omega
    · split
      · exact ih
      · exact mono _ _ _ (by omega) (hk _)

theorem find_cost (mono : ∀ r n n', n ≤ n' → Cost r n → Cost r n')
    (ht : ∀ U C W k n, (∀ b, Cost (k b) n) → Cost (test U C W k) (n + 1)) {k : Option Spec.Answer → R} {n : ℕ}
    (hk : ∀ r, Cost (k r) n) {s : Spec.Sketch G} (hs : forms s ≤ 2) : ∀ l : Spec.SketchLog G, (∀ e ∈ l, forms e.1 ≤ 2) →
      Cost (Spec.SketchLog.find test l s k) (n + 4 * l.length)
  | [], _ => hk _
  | (t, a) :: l, hl => by
    have ih := find_cost mono ht hk hs l fun e he => hl e (List.mem_cons_of_mem _ he)
    have h1 := hl _ List.mem_cons_self
    refine mono _ _ _ ?_ (same_cost mono ht (n := n + 4 * l.length) (fun e => ?_) s t)
    · rw [List.length_cons]
      dsimp only at h1
      omega
    · split
      · exact mono _ _ _ (by omega) (hk _)
      · exact ih

end cost

/-- At most `n` steps and `m` tests. -/
def Within : Spec.Prober G Out → ℕ → ℕ → Prop
  | .out _, _, _ => True
  | .ask s next, n, m => forms s ≤ 2 ∧ ∃ n', n = n' + 1 ∧ ∀ a, Within (next a) n' m
  | .issue _ next, n, m => ∃ n', n = n' + 1 ∧ ∀ c, Within (next c) n' m
  | .test _ _ _ next, n, m => ∃ m', m = m' + 1 ∧ ∀ b, Within (next b) n m'

omit [AddCommGroup G] [Module F G] [Ristretto G] in
theorem within_mono (A : Spec.Prober G Out) : ∀ n n' m m', n ≤ n' → m ≤ m' → Within A n m → Within A n' m' := by
  induction A with
  | out o => exact fun _ _ _ _ _ _ _ => trivial
  | ask s next ih =>
    rintro _ n' m m' hn hm ⟨hs, n, rfl, h⟩
    exact ⟨hs, n' - 1, by omega, fun a => ih a n _ m _ (by omega) hm (h a)⟩
  | issue s next ih =>
    rintro _ n' m m' hn hm ⟨n, rfl, h⟩
    exact ⟨n' - 1, by omega, fun a => ih a n _ m _ (by omega) hm (h a)⟩
  | test U C W next ih =>
    rintro n n' _ m' hn hm ⟨m, rfl, h⟩
    exact ⟨m' - 1, by omega, fun a => ih a n _ m _ hn (by omega) (h a)⟩

omit [AddCommGroup G] [Module F G] [Ristretto G] in
theorem tester_mono (A : Spec.Tester G) : ∀ n n' m m', n ≤ n' → m ≤ m' → A.Within n m → A.Within n' m' := by
  induction A with
  | forge m tag => exact fun _ _ _ _ _ _ _ => trivial
  | log x => exact fun _ _ _ _ _ _ _ => trivial
  | query s next ih =>
    rintro _ n' m m' hn hm ⟨n, rfl, h⟩
    exact ⟨n' - 1, by omega, fun a => ih a n _ m _ (by omega) hm (h a)⟩
  | test U C W next ih =>
    rintro n n' _ m' hn hm ⟨m, rfl, h⟩
    exact ⟨m' - 1, by omega, fun a => ih a n _ m _ hn (by omega) (h a)⟩

theorem drive_within {sp : SystemParameters G} {X : G} {cells : ℕ → Spec.Cell} {old : ℕ → Option (Tag G)}
    {k : Out → (ℕ → Option (Tag G)) → Spec.Tester G} {q z : ℕ} (hk : ∀ o got, (k o got).Within q z)
    (A : Spec.Prober G Out) : ∀ (l : Spec.SketchLog G) (got : ℕ → Option (Tag G)) (n m : ℕ), (∀ e ∈ l, forms e.1 ≤ 2) →
      Within A n m → (A.drive sp X cells old k l got).Within (n + q) (4 * n * (l.length + n) + m + z) := by
  have small : ∀ {l : Spec.SketchLog G} {s : Spec.Sketch G} (a : Spec.Answer), (∀ e ∈ l, forms e.1 ≤ 2) → forms s ≤ 2 →
      ∀ e ∈ l ++ [(s, a)], forms e.1 ≤ 2 := by
    intro l s a hl hs e he
    rcases List.mem_append.1 he with he | he
    · exact hl e he
    · rw [List.mem_singleton.1 he]
      exact hs
  induction A with
  | out o => intro l got n m _ _; exact tester_mono _ q _ z _ (by omega) (by omega) (hk o got)
  | ask s next ih =>
    rintro l got _ m hl ⟨hs, n, rfl, h⟩
    rw [Spec.Prober.drive]
    refine tester_mono _ (n + q) _ _ _ (by omega) ?_ (find_cost (test := Spec.Tester.test)
      (Cost := fun B m => Spec.Tester.Within B (n + q) m) (fun B m m' hm hB => tester_mono B _ _ _ _ le_rfl hm hB) (fun U C W k m hk => ⟨m, rfl, hk⟩)
      (n := 4 * n * (l.length + 1 + n) + m + z) (fun r => ?_) hs l hl)
    · nlinarith
    · have := ih (r.getD (cells l.length).1) (l ++ [(s, r.getD (cells l.length).1)]) got n m (small _ hl hs) (h _)
      rwa [List.length_append, List.length_singleton] at this
  | issue m' next ih =>
    rintro l got _ m hl ⟨n, rfl, h⟩
    have e : ∀ tag, (((next (Spec.fakeIssue sp X m' tag (cells l.length)).1).drive sp X cells old k
        (l ++ [(Spec.Sketch.of (Spec.fakeIssue sp X m' tag (cells l.length)).2.1,
          (Spec.fakeIssue sp X m' tag (cells l.length)).2.2)]) (Function.update got l.length (some tag)))).Within
        (n + q) (4 * (n + 1) * (l.length + (n + 1)) + m + z) := by
      intro tag
      have := ih (Spec.fakeIssue sp X m' tag (cells l.length)).1
          (l ++ [(Spec.Sketch.of (Spec.fakeIssue sp X m' tag (cells l.length)).2.1,
          (Spec.fakeIssue sp X m' tag (cells l.length)).2.2)]) (Function.update got l.length (some tag)) n m
          (small _ hl (by rw [forms_of]; omega)) (h _)
      rw [List.length_append, List.length_singleton] at this
      exact tester_mono _ _ _ _ _ le_rfl (by nlinarith) this
    rw [Spec.Prober.drive]
    dsimp only
    cases old l.length with
    | some tag => exact tester_mono _ _ _ _ _ (by omega) le_rfl (e tag)
    | none => exact ⟨n + q, by omega, e⟩
  | test U C W next ih =>
    rintro l got n _ hl ⟨m, rfl, h⟩
    exact ⟨4 * n * (l.length + n) + m + z, by ring, fun b => ih b l got n m hl (h b)⟩

theorem tester_within (sp : SystemParameters G) (X : G) {A : Spec.Prober G Spec.Attempt} {n m : ℕ} (hA : Within A n m)
    (j j' : ℕ) (c c' c'' : ℕ → Spec.Cell) :
    (Spec.tester sp X A j j' c c' c'').Within (3 * n) (3 * (4 * n * n + m)) := by
  have last : ∀ o o' o'' : Spec.Attempt, Spec.Tester.Within
      (match o.presentation G, o'.presentation G, o''.presentation G with
        | some p, some p', some p'' => (Spec.finish sp X o p p' p'').tester
        | _, _, _ => .log 0) 0 0 := by
    intro o o' o''
    split
    · unfold Spec.finish
      dsimp only
      split
      · trivial
      · split <;> trivial
    · trivial
  refine tester_mono _ _ _ _ _ (le_of_eq ?_) (le_of_eq ?_) (drive_within (q := n + (n + 0))
    (z := 4 * n * (0 + n) + m + (4 * n * (0 + n) + m + 0)) (fun o got => drive_within (fun o' _ =>
      drive_within (fun o'' _ => last o o' o'') A [] _ n m (by simp) hA) A [] _ n m (by simp) hA) A [] _ n m (by simp) hA)
  · ring
  · rw [List.length_nil]
    ring

end Sketch

end Verif
