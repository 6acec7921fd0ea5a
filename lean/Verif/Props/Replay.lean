import Verif.Props.Attack

/-!
# C91: who has only watched others is not accepted

False: a presentation is not bound to an occasion or to a verifier's choice, so whoever has seen one can send it again.
What holds is that nothing else works: an outsider's accepted presentation is an exact copy.
-/

set_option maxRecDepth 100000

namespace Verif

variable {G : Type} [AddCommGroup G] [Module F G] [Ristretto G]

/-! ## The game -/

namespace Spec.Present.Attack

variable {N : ℕ}

/-- An adversary that has no attribute issued. -/
def Attacker.Outsider : Attacker N → Prop
  | .issue _ _ => False
  | .enrol _ next => next.Outsider
  | .watch _ next => ∀ π π', (next π π').Outsider
  | .test _ yes no => yes.Outsider ∧ no.Outsider
  | .toss next => ∀ c, (next c).Outsider
  | .hash _ next => ∀ a, (next a).Outsider
  | .present _ next => ∀ b, (next b).Outsider
  | .member _ next => ∀ b, (next b).Outsider
  | .outputShow _ => True
  | .outputMember _ => True

open Classical in
/-- The probability that the adversary's output is accepted, in the game of C84: by `SignalIssuer::verify`, or by this
and by `verify_roster_membership`; with non-identity nonce; and, unless `copies` is true, without being a copy. -/
noncomputable def Attacker.accepted (O : Oracle) (pr : Provers G) (copies : Bool) (v : Hidden N) :
    Attacker N → Scene → HashLog → ℚ
  | .issue _ _, _, _ => 0
  | .enrol m next, S, l =>
    if S.view.enrolled.length < N then
      next.accepted O pr copies v ⟨{ S.view with enrolled := S.view.enrolled ++ [m] }, S.sent⟩ l
    else 0
  | .watch i next, S, l =>
    match S.view.enrolled[i]? with
    | none => 0
    | some m =>
      if hN : S.view.watched.length < N ∧ i < N then
        let j : Fin N := ⟨_, hN.1⟩
        let P := v (.rho j) • basepoint G
        let C := m • P + v (.zeta j) • hPoint v
        pr.credential ⟨basepoint G, hPoint v, v .x1 • hPoint v, P,
            v (.zeta j) • (v .x1 • hPoint v) - v (.xi j) • hPoint v, C⟩
            ⟨.ofF m, .ofF (v (.zeta j)), -.ofF (v (.xi j))⟩ l fun l' π =>
          pr.roster ⟨basepoint G, hPoint v, P, C, entry G v ⟨i, hN.2⟩ m⟩
              ⟨.ofF m, .ofF (v (.zeta j)), .ofF (v (.y ⟨i, hN.2⟩))⟩ l' fun l'' π' =>
            (next π π').accepted O pr copies v
              ⟨{ S.view with watched := S.view.watched ++ [m] }, S.sent ++ [⟨i, π, π'⟩]⟩ l''
      else 0
  | .test L yes no, S, l =>
    if (L.point v S.view : G) = 0 then yes.accepted O pr copies v S l else no.accepted O pr copies v S l
  | .toss next, S, l => mean fun c => (next c).accepted O pr copies v S l
  | .hash q next, S, l => mean fun a =>
    let t := q.transcript G v S.view
    (next ((l.lookup t).getD a)).accepted O pr copies v S (l.asked t a)
  | .present p next, S, l => mean fun a =>
    let pt := p.points G v S.view
    let l' := l.asked (showTranscript v pt) a
    (next (decide (Shows O v l' pt))).accepted O pr copies v S l'
  | .member p next, S, l => mean fun a =>
    let pt := p.points G v S.view
    let l' := l.asked (memberTranscript v pt) a
    (next (decide (Belongs O v l' pt))).accepted O pr copies v S l'
  | .outputShow p, S, l => mean fun a =>
    let pt := p.points G v S.view
    if Shows O v (l.asked (showTranscript v pt) a) pt ∧ (p.P.point v S.view : G) ≠ 0 ∧
      (copies = true ∨ ¬ Copies v S pt) then 1 else 0
  | .outputMember p, S, l => mean fun a => mean fun a' =>
    let pt := p.points G v S.view
    let l' := (l.asked (showTranscript v pt) a).asked (memberTranscript v pt) a'
    if Shows O v l' pt ∧ Belongs O v l' pt ∧ (p.P.point v S.view : G) ≠ 0 ∧
      (copies = true ∨ ¬ CopiesAll v S pt) then 1 else 0

/-- The same over all unknowns. -/
noncomputable def Attacker.acceptance (G : Type) [AddCommGroup G] [Module F G] [Ristretto G] (O : Oracle)
    (copies : Bool) (A : Attacker N) : ℚ :=
  mean fun v : Hidden N => A.accepted O (honest (G := G) O) copies v ⟨⟨[], [], []⟩, []⟩ []

end Spec.Present.Attack

namespace Replay

open Spec.Present Spec.Present.Attack

variable {N : ℕ}

theorem accepted_wins (O : Oracle) (pr : Provers G) (v : Hidden N) (A : Attacker N) :
    ∀ S l, A.Outsider → S.view.issued = [] → A.accepted O pr false v S l = A.wins O pr v S l := by
  classical
  induction A with
  | issue m next ih => exact fun S l h _ => h.elim
  | enrol m next ih =>
    intro S l h hS
    rw [Attacker.accepted, Attacker.wins]
    split
    · exact ih _ _ h hS
    · rfl
  | watch i next ih =>
    intro S l h hS
    rw [Attacker.accepted, Attacker.wins]
    have h : ∀ m l'' π π', (next π π').accepted O pr false v
        ⟨{ S.view with watched := S.view.watched ++ [m] }, S.sent ++ [⟨i, π, π'⟩]⟩ l'' = (next π π').wins O pr v
        ⟨{ S.view with watched := S.view.watched ++ [m] }, S.sent ++ [⟨i, π, π'⟩]⟩ l'' :=
      fun m l'' π π' => ih π π' _ _ (h π π') hS
    cases hm : S.view.enrolled[i]? with
    | none => rfl
    | some m =>
      dsimp only
      split
      · simp only [h]
      · rfl
  | test L yes no ih ih' =>
    intro S l h hS
    rw [Attacker.accepted, Attacker.wins, ih _ _ h.1 hS, ih' _ _ h.2 hS]
  | toss next ih =>
    intro S l h hS
    rw [Attacker.accepted, Attacker.wins]
    exact Sim.mean_congr fun c => ih c _ _ (h c) hS
  | hash q next ih =>
    intro S l h hS
    rw [Attacker.accepted, Attacker.wins]
    exact Sim.mean_congr fun a => ih _ _ _ (h _) hS
  | present p next ih =>
    intro S l h hS
    rw [Attacker.accepted, Attacker.wins]
    exact Sim.mean_congr fun a => ih _ _ _ (h _) hS
  | member p next ih =>
    intro S l h hS
    rw [Attacker.accepted, Attacker.wins]
    exact Sim.mean_congr fun a => ih _ _ _ (h _) hS
  | outputShow p =>
    intro S l _ hS
    rw [Attacker.accepted, Attacker.wins]
    refine Sim.mean_congr fun a => if_congr (and_congr_right' (and_congr_right' ?_)) rfl rfl
    simp only [Bool.false_eq_true, false_or, Opens, hS, List.not_mem_nil, false_and, not_false_eq_true, forall_const,
      and_true]
  | outputMember p =>
    intro S l _ hS
    rw [Attacker.accepted, Attacker.wins]
    refine Sim.mean_congr fun a => Sim.mean_congr fun a' =>
      if_congr (and_congr_right' (and_congr_right' (and_congr_right' ?_))) rfl rfl
    simp only [Bool.false_eq_true, false_or, Opens, hS, List.not_mem_nil, false_and, not_false_eq_true, forall_const,
      and_true]

/-- The message that is sent again. -/
def copied (π : ValidCredential.Proof) (π' : CommittedValuesEqual.Proof) : Pres 1 :=
  ⟨⟨0, 0, 0, 0, 0, 0, 0, 0, 0, Pi.single 0 1⟩, ⟨0, 0, 0, 0, 0, 0, 0, 0, Pi.single 0 1, 0⟩,
    ⟨0, 0, 0, 0, 0, 0, Pi.single 0 1, 0, 0, 0⟩, ⟨0, 0, 0, 0, 0, 0, 0, Pi.single 0 1, 0, 0⟩, π, π'⟩

/-- Look at a presentation of a user with the number `m`, and send it. -/
def replayer (m : F) : Attacker 1 :=
  .enrol m <| .watch 0 fun π π' => .outputMember (copied π π')

theorem copied_points (v : Hidden 1) (m : F) (π : ValidCredential.Proof) (π' : CommittedValuesEqual.Proof) :
    (copied π π').points G v ⟨[], [m], [m]⟩ =
      ⟨entry G v 0 m, ⟨(shown G v 0 m).2.2, (shown G v 0 m).1, [], [(shown G v 0 m).2.1], π⟩, π'⟩ := by
  have hj : (⟨[], [m], [m]⟩ : View).watched[(0 : Fin 1).1]? = some m := rfl
  have h1 := Attack.point_watched (G := G) (v := v) hj 1 0 0
  have h2 := Attack.point_watched (G := G) (v := v) hj 0 1 0
  have h3 := Attack.point_watched (G := G) (v := v) hj 0 0 1
  have h4 := Attack.point_enrolled (G := G) (v := v) (s := ⟨[], [m], [m]⟩) (j := 0) (m := m) rfl 1
  simp only [Pi.single_zero, zero_smul, one_smul, zero_add, add_zero] at h1 h2 h3 h4
  simp only [Pres.points, copied, h1, h2, h3, h4, shown, entry]

/-- The statement proved by the user, and the secrets. -/
def publics (G : Type) [AddCommGroup G] [Module F G] [Ristretto G] (v : Hidden 1) (m : F) :
    ValidCredential.Publics G :=
  ⟨basepoint G, hPoint v, v .x1 • hPoint v, v (.rho 0) • basepoint G,
    v (.zeta 0) • (v .x1 • hPoint v) - v (.xi 0) • hPoint v,
    m • (v (.rho 0) • basepoint G) + v (.zeta 0) • hPoint v⟩

def secrets (v : Hidden 1) (m : F) : ValidCredential.Secrets :=
  ⟨.ofF m, .ofF (v (.zeta 0)), -.ofF (v (.xi 0))⟩

def publics' (G : Type) [AddCommGroup G] [Module F G] [Ristretto G] (v : Hidden 1) (m : F) :
    CommittedValuesEqual.Publics G :=
  ⟨basepoint G, hPoint v, v (.rho 0) • basepoint G, m • (v (.rho 0) • basepoint G) + v (.zeta 0) • hPoint v,
    entry G v 0 m⟩

def secrets' (v : Hidden 1) (m : F) : CommittedValuesEqual.Secrets :=
  ⟨.ofF m, .ofF (v (.zeta 0)), .ofF (v (.y 0))⟩

theorem show_query (v : Hidden 1) (m : F) (c : Scalar) (r : ValidCredential.Randomnesses)
    (π' : CommittedValuesEqual.Proof) :
    showTranscript v ((copied ⟨c, ValidCredential.respond c (secrets v m) r⟩ π').points G v ⟨[], [m], [m]⟩) =
      ValidCredential.commitCommitments (ValidCredential.commitPublics [.init "AEONFLUX SHOW"] (publics G v m))
        (ValidCredential.commitmentsOf (publics G v m) r) := by
  have h : Spec.ValidCredential (publics G v m) (secrets v m) := by
    constructor <;> simp only [publics, secrets, Scalar.val_ofF, Scalar.val_neg]
    module
  have hV : v .x0 • (v (.rho 0) • basepoint G) +
      v .x1 • (m • (v (.rho 0) • basepoint G) + v (.zeta 0) • hPoint v) -
      ((v .x0 + v .x1 * m) • (v (.rho 0) • basepoint G) + v (.xi 0) • hPoint v) =
      v (.zeta 0) • (v .x1 • hPoint v) - v (.xi 0) • (hPoint v : G) := by module
  rw [copied_points, ← ValidCredential.recommit_respond h r c]
  simp only [showTranscript, shown, List.headD_cons, hV]
  rfl

theorem member_query (v : Hidden 1) (m : F) (c : Scalar) (r : CommittedValuesEqual.Randomnesses)
    (π : ValidCredential.Proof) :
    memberTranscript v ((copied π ⟨c, CommittedValuesEqual.respond c (secrets' v m) r⟩).points G v ⟨[], [m], [m]⟩) =
      CommittedValuesEqual.commitCommitments
        (CommittedValuesEqual.commitPublics [.init "SIGNAL GROUP MEMBERSHIP"] (publics' G v m))
        (CommittedValuesEqual.commitmentsOf (publics' G v m) r) := by
  have h : Spec.CommittedValuesEqual (publics' G v m) (secrets' v m) := by
    constructor <;> simp only [publics', secrets', Scalar.val_ofF, entry]
  rw [copied_points, ← CommittedValuesEqual.recommit_respond h r c]
  simp only [memberTranscript, shown, List.headD_cons]
  rfl

theorem replayed (O : Oracle) (m : F) (v : Hidden 1) :
    (replayer m).accepted O (honest (G := G) O) true v ⟨⟨[], [], []⟩, []⟩ [] =
      if v (.rho 0) = 0 then 0 else 1 := by
  have e : (replayer m).accepted O (honest (G := G) O) true v ⟨⟨[], [], []⟩, []⟩ [] =
      (honest O).credential (publics G v m) (secrets v m) [] fun l' π =>
        (honest O).roster (publics' G v m) (secrets' v m) l' fun l'' π' =>
          (Attacker.outputMember (copied π π')).accepted O (honest (G := G) O) true v
            ⟨⟨[], [m], [m]⟩, [⟨0, π, π'⟩]⟩ l'' := by
    simp only [replayer, Attacker.accepted, List.length_nil, zero_lt_one, if_true, List.nil_append,
      List.getElem?_cons_zero, and_self, dif_pos]
    rfl
  rw [e, Attack.two_proofs]
  refine (Sim.mean_congr fun ρ => (Sim.mean_congr fun a => (Sim.mean_congr fun ρ' => (Sim.mean_congr fun a' =>
    ?_).trans (Sim.mean_const _)).trans (Sim.mean_const _)).trans (Sim.mean_const _)).trans (Sim.mean_const _)
  dsimp only
  rw [Attacker.accepted]
  refine (Sim.mean_congr fun b => (Sim.mean_congr fun b' => ?_).trans (Sim.mean_const _)).trans (Sim.mean_const _)
  dsimp only
  set T := ValidCredential.commitCommitments
    (ValidCredential.commitPublics [.init "AEONFLUX SHOW"] (publics G v m))
    (ValidCredential.commitmentsOf (publics G v m) (ValidCredential.randOf ρ)) with hT
  set T' := CommittedValuesEqual.commitCommitments
    (CommittedValuesEqual.commitPublics [.init "SIGNAL GROUP MEMBERSHIP"] (publics' G v m))
    (CommittedValuesEqual.commitmentsOf (publics' G v m) (CommittedValuesEqual.randOf ρ')) with hT'
  set l := (Spec.HashLog.asked [] T a).asked T' a' with hl
  have h1 : l.lookup T = some (((([] : Spec.HashLog).lookup T)).getD a) :=
    Sim.lookup_asked_of_some (Sim.lookup_asked _ _ _) _ _
  have h2 := Sim.lookup_asked (Spec.HashLog.asked [] T a) T' a'
  rw [← hl] at h2
  have hP := congrArg (fun p => p.presentation.rerandomizedNonce) (copied_points (G := G) v m ⟨0, ⟨0, 0, 0⟩⟩ ⟨0, ⟨0, 0, 0⟩⟩)
  by_cases hv : v (.rho 0) = 0
  · rw [if_pos hv]
    refine if_neg fun h => h.2.2.1 (hP.trans ?_)
    simp only [shown, hv, zero_smul]
  rw [if_neg hv]
  refine if_pos ⟨?_, ?_, ?_, .inl rfl⟩
  · refine (Attack.shows_iff (G := G) O (b := ((([] : Spec.HashLog).lookup T)).getD a) ?_).2 ?_
    · refine Sim.lookup_asked_of_some (Sim.lookup_asked_of_some ?_ _ _) _ _
      exact (congrArg (fun t => l.lookup t) (show_query v m _ _ _)).trans h1
    · exact (Sim.getChallenge_oracle h1).symm
  · refine (Attack.belongs_iff (G := G) O (b := (((Spec.HashLog.asked [] T a).lookup T')).getD a') ?_).2 ?_
    · refine Sim.lookup_asked_of_some (Sim.lookup_asked_of_some ?_ _ _) _ _
      exact (congrArg (fun t => l.lookup t) (member_query v m _ _ _)).trans h2
    · exact (Sim.getChallenge_oracle h2).symm
  · exact ne_of_eq_of_ne hP fun h => hv ((smul_base_eq_zero (G := G)).1 h)

end Replay

open Spec.Present Spec.Present.Attack

/-- C91: an adversary that has no credential and outputs anything but an exact copy of a presentation it has seen is
accepted with little probability. -/
theorem C91_copies_partial {N : ℕ} (O : Oracle) (A : Attacker N) (hA : A.Outsider) {n : ℕ} (h : A.Within n) :
    A.acceptance G O false ≤ (8 * n ^ 2 + 5 * n + 1) / ell := by
  refine le_trans (le_of_eq ?_) (Attack.C84_unforgeable (G := G) O A h)
  exact Sim.mean_congr fun v => Replay.accepted_wins O _ v A _ _ hA rfl

/-- C91 is false: an adversary that has no credential, watches one user and sends the same message is accepted, for
`verify` and for `verify_roster_membership`. -/
theorem C91_false (O : Oracle) (m : F) : (Replay.replayer m).Outsider ∧ (Replay.replayer m).Within 3 ∧
    1 - 1 / ell ≤ (Replay.replayer m).acceptance G O true := by
  refine ⟨fun _ _ => trivial, ⟨2, rfl, ⟨1, rfl, fun _ _ => ⟨0, rfl⟩⟩⟩, ?_⟩
  have h := Attack.mean_rare (N := 1) (p := fun v => v (.rho 0) = 0) (k := 1)
    (f := fun _ => 1) (g := fun v => (Replay.replayer m).accepted O (honest (G := G) O) true v ⟨⟨[], [], []⟩, []⟩ [])
    (Verif.Present.ncard_zero (Verif.Present.poly_var (.rho 0)) (v := fun _ => 1) one_ne_zero) (fun _ => le_rfl)
    (fun v => by rw [Replay.replayed]; split <;> norm_num) fun v hv => by rw [Replay.replayed, if_neg hv]
  rw [Sim.mean_const] at h
  rw [Attacker.acceptance]
  push_cast at h
  linarith

/-- The same adversary meets the hypotheses of `C91_copies_partial`: what it outputs is a copy. -/
example (O : Oracle) : (Replay.replayer 7).acceptance G O false ≤ 88 / ell ∧
    1 - 1 / ell ≤ (Replay.replayer 7).acceptance G O true := by
  obtain ⟨h1, h2, h3⟩ := C91_false (G := G) O 7
  exact ⟨(C91_copies_partial O _ h1 h2).trans (le_of_eq (by norm_num)), h3⟩

end Verif
