import Verif.Props.Onlooker

/-!
# Using the roster entry of another (C103)

In C93 to C96 the adversary gives an opening of the roster entry for which it wants to be accepted. Here the entry is that
of an honest user, and its opening is unknown to the adversary, who knows everything else: the number in it, the issuer's
secret key, and presentations that the owner makes for it.
-/

set_option maxRecDepth 100000

namespace Verif

open Amacs

variable {G : Type} [AddCommGroup G] [Module F G] [Ristretto G]

/-! ## The game -/

/-- An adversary that asks the hash, watches the owner of a roster entry present, and finally sends bytes. As it may know
the issuer's secret key, it can issue credentials, verify and let other users present by itself. -/
inductive Spec.Thief (G : Type) where
  | out (b : Bytes)
  | ask (t : Transcript) (next : Spec.Answer → Spec.Thief G)
  | watch (next : SignalCredentialPresentation G → Spec.Thief G)

/-- The hash queries that the issuer makes when it checks bytes. -/
def Spec.sentQuery (i : Issuer G) (b : Bytes) (n : ℕ) : Transcript :=
  Spec.onDecoded (SignalCredentialPresentation.fromBytes (G := G) b) fun p =>
    if n = 0 then Spec.showQuery i p.presentation else Spec.rosterQuery i.systemParameters p

namespace Spec.Thief

/-- At most `n` hash queries, by anybody: two for each presentation. -/
def Within : Spec.Thief G → ℕ → Prop
  | out _, _ => True
  | ask _ next, n => ∃ n', n = n' + 1 ∧ ∀ a, (next a).Within n'
  | watch next, n => ∃ n', n = n' + 2 ∧ ∀ p, (next p).Within n'

/-- The expected value of `f` at the end, after the queries `l` and the presentations `ps`, if `shw` presents. -/
noncomputable def expect (shw : Spec.HashLog → (Spec.HashLog → SignalCredentialPresentation G → ℚ) → ℚ)
    (f : Bytes → Spec.HashLog → List (SignalCredentialPresentation G) → ℚ) :
    Spec.Thief G → Spec.HashLog → List (SignalCredentialPresentation G) → ℚ
  | out b, l, ps => f b l ps
  | ask t next, l, ps => Spec.mean fun a => (next ((l.lookup t).getD a)).expect shw f (l.asked t a) ps
  | watch next, l, ps => shw l fun l' p => (next p).expect shw f l' (p :: ps)

/-- What the adversary sends is checked: the issuer makes its two queries. -/
def checked (i : Issuer G) : Spec.Thief G → Spec.Thief G
  | .out b => .ask (Spec.sentQuery i b 0) fun _ => .ask (Spec.sentQuery i b 1) fun _ => .out b
  | .ask t next => .ask t fun a => (next a).checked i
  | .watch next => .watch fun p => (next p).checked i

end Spec.Thief

/-- The bytes are a presentation for the roster entry `E`, both checks of the issuer pass, and it is none of the
presentations `ps`. The nonce may be anything, even the identity. -/
def Spec.Stolen (O : Oracle) (i : Issuer G) (E : G) (b : Bytes) (ps : List (SignalCredentialPresentation G)) : Prop :=
  ∃ (p : SignalCredentialPresentation G) (v : VerifiedSignalCredential G) (R : G),
    SignalCredentialPresentation.fromBytes b = .ok p ∧
    SignalIssuer.verify O ⟨i⟩ p = .ok v ∧ SignalIssuer.verifyRosterMembership O ⟨i⟩ v = .ok R ∧
    p.rosterEntryCommitment = E ∧ p ∉ ps

/-- The owner of the roster entry: the number, and the logarithm of the nonce of the credential. -/
structure Spec.Owner where
  m : Scalar
  b : F
  ne : b ≠ 0

/-- The owner with the opening `z`. -/
def Spec.Owner.member (w : Spec.Owner) (z : F) : Spec.Member := ⟨w.m, Scalar.ofF z, w.b, w.ne⟩

/-- The owner's roster entry. -/
def Spec.Owner.entry (sp : SystemParameters G) (w : Spec.Owner) (z : F) : G := w.m.val • sp.h + z • sp.g

/-- An adversary: from parameters, the issuer's secret key and coins, it chooses the owner's number and nonce; then it is
given the roster entry. -/
abbrev Spec.Robber (G Ω : Type) := SystemParameters G → F × F → Ω → Spec.Owner × (G → Spec.Thief G)

open Classical in
/-- The probability that an adversary gets accepted for the owner's roster entry, with something that the owner did not
send. Setup, coins, the issuer's secret key and the opening of the entry are uniform. -/
noncomputable def Spec.thiefWins {S Ω : Type} [Fintype S] [Fintype Ω] (O : Oracle) (sp : S → SystemParameters G)
    (A : Spec.Robber G Ω) : ℚ :=
  Spec.mean fun x : S × (Ω × F) × F × F =>
    let i := Spec.issuerOf (sp x.1) x.2.2.1 x.2.2.2
    let a := A (sp x.1) x.2.2 x.2.1.1
    let E := a.1.entry (sp x.1) x.2.1.2
    ((a.2 E).checked i).expect
      (Spec.memberShow O (sp x.1) (Scalar.ofF x.2.2.1) (Scalar.ofF x.2.2.2) (a.1.member x.2.1.2))
      (fun b l ps => if Spec.Stolen (l.oracle O) i E b ps then 1 else 0) [] []

/-! ## The algorithms -/

/-- Runs an adversary with given randomness, knowing the issuer's secret key and the roster entry, but not its opening.
The step after `n` hash queries uses `s n`. -/
def Spec.Thief.run (sp : SystemParameters G) (x0 x1 : F) (E : G) (s : ℕ → Spec.RunCell) :
    Spec.Thief G → Spec.HashLog → Bytes × Spec.HashLog
  | .out b, l => (b, l)
  | .ask t next, l => (next ((l.lookup t).getD (s l.length).1)).run sp x0 x1 E s (l.asked t (s l.length).1)
  | .watch next, l =>
    let p := Spec.fakeShow sp E (s l.length)
    (next p).run sp x0 x1 E s (l ++ [(Spec.showQuery (Spec.issuerOf sp x0 x1) p.presentation, (s l.length).2.2.2.1.1),
      (Spec.rosterQuery sp p, (s l.length).2.2.2.2.1)])

/-- The algorithm: runs the adversary with `s`, and again, with `s'` from the step on in which the second query of the
check was made. The two proofs give a number and an opening. -/
def Spec.opener (sp : SystemParameters G) (x0 x1 : F) (E : G) (A : Spec.Thief G) (s s' : ℕ → Spec.RunCell) : F × F :=
  let i := Spec.issuerOf sp x0 x1
  let r := (A.checked i).run sp x0 x1 E s []
  let r' := (A.checked i).run sp x0 x1 E (Spec.switch (Reduction.place r.2 (Spec.sentQuery i r.1 1)) s s') []
  match SignalCredentialPresentation.fromBytes (G := G) r.1, SignalCredentialPresentation.fromBytes (G := G) r'.1 with
  | .ok p, .ok p' =>
    let e := CommittedValuesEqual.extract p.rosterMembershipProof p'.rosterMembershipProof
    (e.m0.val, e.z1.val)
  | _, _ => (0, 0)

set_option synthInstance.maxSize 1000 in
open Classical in
/-- The probability that `Spec.opener` opens the roster entry. -/
noncomputable def Spec.openerWins {S Ω : Type} [Fintype S] [Fintype Ω] (sp : S → SystemParameters G)
    (A : Spec.Robber G Ω) (T : ℕ) : ℚ :=
  Spec.mean fun x : S × (Ω × F) × F × F =>
    Spec.mean fun s : (Fin (T + 2) → Spec.RunCell) × (Fin (T + 2) → Spec.RunCell) =>
      let a := A (sp x.1) x.2.2 x.2.1.1
      let E := a.1.entry (sp x.1) x.2.1.2
      let o := Spec.opener (sp x.1) x.2.2.1 x.2.2.2 E (a.2 E) (Spec.stretch s.1) (Spec.stretch s.2)
      if E = o.1 • (sp x.1).h + o.2 • (sp x.1).g then 1 else 0

/-- The adversary, with an owner whose opening is known, as one of C94. -/
def Spec.Thief.against (w : Spec.Member) : Spec.Thief G → Spec.Onlooker G Spec.Attempt
  | .out b => .out ⟨w.m.val, w.r.val, b⟩
  | .ask t next => .ask t fun a => (next a).against w
  | .watch next => .watch w fun p => (next p).against w

/-- All adversaries of C103 as adversaries of C94. The opening is one of the coins. -/
def Spec.Robber.onlooker {Ω : Type} (A : Spec.Robber G Ω) :
    SystemParameters G → F × F → Ω × F → Spec.Onlooker G Spec.Attempt :=
  fun sp k ω => ((A sp k ω.1).2 ((A sp k ω.1).1.entry sp ω.2)).against ((A sp k ω.1).1.member ω.2)

set_option synthInstance.maxSize 1000 in
open Classical in
/-- The probability that `Spec.finder` of C94 finds the logarithm of `h` to the base `g`. -/
noncomputable def Spec.robberFinderWins {S Ω : Type} [Fintype S] [Fintype Ω] (sp : S → SystemParameters G)
    (A : Spec.Robber G Ω) (T : ℕ) : ℚ :=
  Spec.mean fun x : S × (Ω × F) × F × F =>
    Spec.mean fun s : (Fin (T + 2) → Spec.RunCell) × (Fin (T + 2) → Spec.RunCell) =>
      if ∃ y ∈ Spec.finder (sp x.1) x.2.2.1 x.2.2.2 (A.onlooker (sp x.1) x.2.2 x.2.1) (Spec.stretch s.1)
        (Spec.stretch s.2), (sp x.1).h = y • (sp x.1).g then 1 else 0

namespace Theft

open Watching Spec.Onlooker Echo

omit [Ristretto G] in
theorem entry_eq (sp : SystemParameters G) (w : Spec.Owner) (z : F) :
    ((w.member z).entry sp).commitment = w.entry sp z := by
  simp [Spec.Member.entry, Spec.Owner.member, Spec.Owner.entry, Scalar.val_ofF]

omit [AddCommGroup G] [Module F G] [Ristretto G] in
theorem against_within (w : Spec.Member) (A : Spec.Thief G) : ∀ n, A.Within n → (A.against w).Within n := by
  induction A with
  | out b => intro n _; trivial
  | ask t next ih =>
    rintro _ ⟨n, rfl, hw⟩
    exact ⟨n, rfl, fun a => ih a n (hw a)⟩
  | watch next ih =>
    rintro _ ⟨n, rfl, hw⟩
    exact ⟨n, rfl, fun p => ih p n (hw p)⟩

/-- The game is one of C94. -/
theorem against_expect (i : Issuer G) (w : Spec.Member) (iss : Issues G) (shw : Shows G)
    (f : Bytes → Spec.HashLog → List (SignalCredentialPresentation G) → ℚ) (A : Spec.Thief G) :
    ∀ (l : Spec.HashLog) (ps : List (SignalCredentialPresentation G)),
      (A.checked i).expect (shw w) f l ps =
        ((A.against w).checked i).expect iss shw (fun o l ps => f o.bytes l ps) l ps := by
  induction A with
  | out b => intro l ps; rfl
  | ask t next ih => intro l ps; exact Sim.mean_congr fun a => ih _ _ _
  | watch next ih =>
    intro l ps
    simp only [Spec.Thief.checked, Spec.Thief.expect, Spec.Thief.against, checked, expect]
    congr 1
    funext l' p
    exact ih p l' (p :: ps)

theorem against_run (i : Issuer G) (w : Spec.Member) {sp : SystemParameters G} {x0 x1 : F} {E : G}
    (hE : (w.entry sp).commitment = E) (s : ℕ → Spec.RunCell) (A : Spec.Thief G) :
    ∀ (l : Spec.HashLog) (seen : List (ℕ × SignalCredentialPresentation G)),
      (A.checked i).run sp x0 x1 E s l =
        ((((A.against w).checked i).run sp x0 x1 s l seen).1.bytes, (((A.against w).checked i).run sp x0 x1 s l seen).2.1) := by
  induction A with
  | out b => intro l seen; rfl
  | ask t next ih => intro l seen; exact ih _ _ _
  | watch next ih =>
    intro l seen
    subst hE
    exact ih _ _ _

section
variable {sp : SystemParameters G} {x0 x1 : F} {s s' : ℕ → Spec.RunCell} {Out : Type}

/-- As `Echo.run_fork`, for queries of the second proof. -/
theorem run_fork {j : ℕ} (hs : ∀ n < j, s n = s' n) {t t' : Transcript} {a a' : Spec.Answer}
    (hi : ¬ Reduction.IsIssuance G t) (hr : ∀ p, Spec.showQuery (Spec.issuerOf sp x0 x1) p ≠ t)
    (A : Spec.Onlooker G Out) :
    ∀ (l : Spec.HashLog) (seen seen' : List (ℕ × SignalCredentialPresentation G)), l.length ≤ j →
      (A.run sp x0 x1 s l seen).2.1[j]? = some (t, a) → (A.run sp x0 x1 s' l seen').2.1[j]? = some (t', a') →
      (∃ e ∈ (A.run sp x0 x1 s l seen).2.2, Spec.rosterQuery sp e.2 = t) ∨
      (t' = t ∧ ((∀ e ∈ (A.run sp x0 x1 s l seen).2.1.take j, e.1 ≠ t) → a = (s j).1 ∧ a' = (s' j).1)) := by
  induction A with
  | out o =>
    intro l seen seen' hj h1 h2
    simp only [run] at h1
    rw [List.getElem?_eq_none hj] at h1
    cases h1
  | ask q next ih =>
    intro l seen seen' hj h1 h2
    rcases Nat.lt_or_ge l.length j with hlt | hge
    · simp only [run] at h1 h2 ⊢
      rw [← hs _ hlt] at h2
      exact ih _ _ _ _ (by rw [Reduction.asked_length]; omega) h1 h2
    · obtain rfl : j = l.length := by omega
      simp only [run] at h1 h2 ⊢
      obtain ⟨u1, u2⟩ := Reduction.prefix_at (e := (q, (l.lookup q).getD (s l.length).1))
        (run_prefix (sp := sp) (x0 := x0) (x1 := x1) (s := s)
          (next ((l.lookup q).getD (s l.length).1)) (l.asked q (s l.length).1) seen)
      obtain ⟨v1, v2⟩ := Reduction.prefix_at (e := (q, (l.lookup q).getD (s' l.length).1))
        (run_prefix (sp := sp) (x0 := x0) (x1 := x1) (s := s')
          (next ((l.lookup q).getD (s' l.length).1)) (l.asked q (s' l.length).1) seen')
      rw [u1] at h1
      rw [v1] at h2
      cases h1
      cases h2
      refine .inr ⟨rfl, fun hn => ?_⟩
      rw [u2] at hn
      rw [Knowledge.lookup_none hn]
      exact ⟨rfl, rfl⟩
  | issue m next ih =>
    intro l seen seen' hj h1 h2
    rcases Nat.lt_or_ge l.length j with hlt | hge
    · simp only [run] at h1 h2 ⊢
      rw [← hs _ hlt] at h2
      exact ih _ _ _ _ (by rw [Reduction.asked_length]; omega) h1 h2
    · obtain rfl : j = l.length := by omega
      simp only [run] at h1
      rw [(Reduction.prefix_at (run_prefix (sp := sp) (x0 := x0) (x1 := x1) (s := s) _ (l.asked
        (Deputy.issueQuery sp (Scalar.ofF x0) (Scalar.ofF x1) m (s l.length).2.1.1 (s l.length).2.1.2.1
          (s l.length).2.1.2.2) (s l.length).1) seen)).1] at h1
      cases h1
      refine absurd ?_ hi
      rw [Deputy.issueQuery, IssuanceRevealed.zkQuery_eq]
      exact ⟨_, _, rfl⟩
  | watch w next ih =>
    intro l seen seen' hj h1 h2
    have pre := run_prefix (sp := sp) (x0 := x0) (x1 := x1) (s := s)
      (next (Spec.fakeShow sp (w.entry sp).commitment (s l.length)))
      (l ++ [(Spec.showQuery (Spec.issuerOf sp x0 x1)
        (Spec.fakeShow sp (w.entry sp).commitment (s l.length)).presentation, (s l.length).2.2.2.1.1),
        (Spec.rosterQuery sp (Spec.fakeShow sp (w.entry sp).commitment (s l.length)), (s l.length).2.2.2.2.1)])
      ((l.length, Spec.fakeShow sp (w.entry sp).commitment (s l.length)) :: seen)
    rcases Nat.lt_or_ge l.length j with hlt | hge
    · rcases Nat.lt_or_ge (l.length + 1) j with hlt' | hge'
      · simp only [run] at h1 h2 ⊢
        rw [← hs _ hlt] at h2
        exact ih _ _ _ _ (by rw [two_length]; omega) h1 h2
      · obtain rfl : j = l.length + 1 := by omega
        simp only [run] at h1 ⊢
        refine .inl ⟨_, run_mono _ _ _ _ List.mem_cons_self, ?_⟩
        obtain ⟨v, hv⟩ := pre
        rw [← hv] at h1
        simp at h1
        exact h1.1
    · obtain rfl : j = l.length := by omega
      simp only [run] at h1
      obtain ⟨v, hv⟩ := pre
      rw [← hv] at h1
      simp at h1
      exact absurd h1.1 (hr _)

theorem checked_mem {i : Issuer G} (A : Spec.Onlooker G Spec.Attempt) :
    ∀ (l : Spec.HashLog) (seen : List (ℕ × SignalCredentialPresentation G)),
    ∃ e ∈ ((A.checked i).run sp x0 x1 s l seen).2.1,
      e.1 = ((A.checked i).run sp x0 x1 s l seen).1.query i 1 := by
  induction A with
  | out o =>
    intro l seen
    simp only [checked, run]
    exact ⟨_, List.mem_append_right _ (List.mem_singleton.2 rfl), rfl⟩
  | ask t next ih => intro l seen; exact ih _ _ _
  | issue m next ih => intro l seen; exact ih _ _ _
  | watch w next ih => intro l seen; exact ih _ _ _

end

/-! ## Two runs -/

section runs
variable (O : Oracle) (sp : SystemParameters G) (x0 x1 : F) (E : G) (A : Spec.Onlooker G Spec.Attempt) {Q : ℕ}

/-- What was sent passes the second check, for the roster entry `E`, and does not use the second query of a presentation. -/
def Novel (o : Spec.Attempt) (l : Spec.HashLog) (ps : List (SignalCredentialPresentation G)) : Prop :=
  (∃ (p : SignalCredentialPresentation G) (R : G), SignalCredentialPresentation.fromBytes o.bytes = .ok p ∧
    SignalIssuer.verifyRosterMembership (l.oracle O) ⟨Spec.issuerOf sp x0 x1⟩ ⟨p⟩ = .ok R ∧
    p.rosterEntryCommitment = E) ∧ ¬ o.Echoes (Spec.issuerOf sp x0 x1) ps

/-- The run wins in this way. -/
def Win (s : Fin Q → Spec.RunCell) : Prop :=
  Novel O sp x0 x1 E (final sp x0 x1 A s).1 (final sp x0 x1 A s).2.1 ((final sp x0 x1 A s).2.2.map Prod.snd)

/-- The step of the second query of the check. -/
noncomputable def spot (s : Fin Q → Spec.RunCell) : Option (Fin Q) :=
  locate Q (Win O sp x0 x1 E A s)
    (Reduction.place (final sp x0 x1 A s).2.1 ((final sp x0 x1 A s).1.query (Spec.issuerOf sp x0 x1) 1))

variable {O sp x0 x1 E A}

theorem spot_isSome {T : ℕ} (hA : A.Within T) (hQ : T + 2 ≤ Q) (s : Fin Q → Spec.RunCell) :
    (spot O sp x0 x1 E A s).isSome ↔ Win O sp x0 x1 E A s := by
  unfold spot locate
  split
  · rename_i h
    simp [h.1]
  · rename_i h
    simp only [Option.isSome_none, Bool.false_eq_true, false_iff]
    refine fun hg => h ⟨hg, ?_⟩
    have h1 := (Reduction.place_spec (checked_mem (sp := sp) (x0 := x0) (x1 := x1) (s := Spec.stretch s)
      (i := Spec.issuerOf sp x0 x1) A [] [])).1
    exact lt_of_lt_of_le h1 (final_length hA hQ s)

theorem spot_eq_some {s : Fin Q → Spec.RunCell} {j : Fin Q} (h : spot O sp x0 x1 E A s = some j) :
    Win O sp x0 x1 E A s ∧
    Reduction.place (final sp x0 x1 A s).2.1 ((final sp x0 x1 A s).1.query (Spec.issuerOf sp x0 x1) 1) = j := by
  unfold spot locate at h
  split at h
  · rename_i hg
    cases h
    exact ⟨hg.1, rfl⟩
  · cases h

/-- Two such runs open the roster entry. -/
theorem pair_opens {s s' : Fin Q → Spec.RunCell} {j : Fin Q} (h1 : spot O sp x0 x1 E A s = some j)
    (h2 : spot O sp x0 x1 E A (Spec.splice j s s') = some j) (hr : (leVal (s j).1.1 : F) ≠ leVal (s' j).1.1) :
    ∃ p p' : SignalCredentialPresentation G,
      SignalCredentialPresentation.fromBytes (final sp x0 x1 A s).1.bytes = .ok p ∧
      SignalCredentialPresentation.fromBytes (final sp x0 x1 A (Spec.splice (Reduction.place (final sp x0 x1 A s).2.1
        ((final sp x0 x1 A s).1.query (Spec.issuerOf sp x0 x1) 1)) s s')).1.bytes = .ok p' ∧
      E = (CommittedValuesEqual.extract p.rosterMembershipProof p'.rosterMembershipProof).m0.val • sp.h +
        (CommittedValuesEqual.extract p.rosterMembershipProof p'.rosterMembershipProof).z1.val • sp.g := by
  obtain ⟨⟨⟨p, R, a1, a3, a4⟩, echo⟩, e⟩ := spot_eq_some h1
  obtain ⟨⟨⟨p', R', b1, b3, -⟩, -⟩, e'⟩ := spot_eq_some h2
  obtain ⟨l1, ⟨a, l2⟩, l3⟩ := Reduction.place_spec (L := (final sp x0 x1 A s).2.1)
    (t := (final sp x0 x1 A s).1.query (Spec.issuerOf sp x0 x1) 1)
    (checked_mem (sp := sp) (x0 := x0) (x1 := x1) (s := Spec.stretch s) (i := Spec.issuerOf sp x0 x1) A [] [])
  obtain ⟨k1, ⟨a', k2⟩, k3⟩ := Reduction.place_spec (L := (final sp x0 x1 A (Spec.splice j s s')).2.1)
    (t := (final sp x0 x1 A (Spec.splice j s s')).1.query (Spec.issuerOf sp x0 x1) 1)
    (checked_mem (sp := sp) (x0 := x0) (x1 := x1) (s := Spec.stretch (Spec.splice j s s'))
      (i := Spec.issuerOf sp x0 x1) A [] [])
  rw [e] at l2 l3
  rw [e'] at k2 k3
  refine ⟨p, p', a1, by rw [e]; exact b1, ?_⟩
  have q1 : (final sp x0 x1 A s).1.query (Spec.issuerOf sp x0 x1) 1 = Spec.rosterQuery sp p := by
    simp only [Spec.Attempt.query, a1, Spec.onDecoded, Nat.one_ne_zero, if_false]
    rfl
  have q2 : (final sp x0 x1 A (Spec.splice j s s')).1.query (Spec.issuerOf sp x0 x1) 1 = Spec.rosterQuery sp p' := by
    simp only [Spec.Attempt.query, b1, Spec.onDecoded, Nat.one_ne_zero, if_false]
    rfl
  have fork := run_fork (sp := sp) (x0 := x0) (x1 := x1) (s := Spec.stretch s) (s' := Spec.stretch (Spec.splice j s s'))
    (j := j) (fun n hn => by rw [stretch_splice, Spec.switch, if_pos hn])
    (by
      rw [q1]
      rintro ⟨q, c, h⟩
      exact nomatch C32_injective (show Spec.Query.ops (.committedValuesEqual _ _ _) = _ from h))
    (by
      rw [q1]
      intro q h
      exact nomatch C32_injective (show Spec.Query.ops (.validCredential _ _ _) =
        Spec.Query.ops (.committedValuesEqual _ _ _) from h))
    (A.checked (Spec.issuerOf sp x0 x1)) [] [] [] (Nat.zero_le _) l2 k2
  rcases fork with ⟨w, hw, hq⟩ | ⟨f1, f2⟩
  · exact absurd ⟨w.2, List.mem_map.2 ⟨w, hw, rfl⟩, hq⟩ echo
  · obtain ⟨f2, f3⟩ := f2 l3
    have hd : ∀ {b : Bytes} {p : SignalCredentialPresentation G},
        SignalCredentialPresentation.fromBytes b = .ok p → p.presentation.attributesBlinded.length = 1 := by
      intro b p hb
      obtain ⟨Cm, rest, ho, -⟩ := (C10_ok_iff b p).1 hb
      obtain ⟨o1, o2, -⟩ := ho.1
      rw [o2]
      rfl
    have c1 := Reduction.oracle_chal (O := O) (Knowledge.lookup_first l2 l3)
    have c2 := Reduction.oracle_chal (O := O) (Knowledge.lookup_first k2 k3)
    rw [f1] at c2
    rw [q1, q2] at f1
    rw [q1] at c1 c2
    have key := (Knowledge.roster_extract (hd a1) (hd b1) a3 b3 f1 (by
      change (leVal (Oracle.chal _ (Spec.rosterQuery sp p) "chal" 64) : F) ≠
        leVal (Oracle.chal _ (Spec.rosterQuery sp p) "chal" 64)
      rw [c1, c2, f2, f3, stretch_splice, Spec.switch, if_neg (lt_irrefl _), Reduction.stretch_of_lt s j.2,
        Reduction.stretch_of_lt s' j.2]
      exact hr)).2.2
    rw [← a4]
    exact key

end runs

/-! ## The bound -/

/-- What is sent is for the owner's entry. -/
theorem against_out (i : Issuer G) (w : Spec.Member) {sp : SystemParameters G} {x0 x1 : F} (s : ℕ → Spec.RunCell)
    (A : Spec.Thief G) : ∀ (l : Spec.HashLog) (seen : List (ℕ × SignalCredentialPresentation G)),
      (((A.against w).checked i).run sp x0 x1 s l seen).1.m = w.m.val ∧
      (((A.against w).checked i).run sp x0 x1 s l seen).1.r = w.r.val := by
  induction A with
  | out b => intro l seen; exact ⟨rfl, rfl⟩
  | ask t next ih => intro l seen; exact ih _ _ _
  | watch next ih => intro l seen; exact ih _ _ _

/-- A step whose nonce is the identity. -/
def Zero {Q : ℕ} (s : Fin Q → Spec.RunCell) : Prop := ∃ n, (s n).2.2.1.1 = 0

open Classical in
theorem zero_le (Q : ℕ) : (Spec.mean fun s : Fin Q → Spec.RunCell => if Zero s then (1 : ℚ) else 0) ≤ Q / ell := by
  have h1 : (Spec.mean fun c : Spec.RunCell => if c.2.2.1.1 = 0 then (1 : ℚ) else 0) ≤ 1 / ell := by
    let e : F → Spec.RunCell ≃ Spec.RunCell := fun τ =>
      { toFun := fun c => (c.1, c.2.1, (c.2.2.1.1 + τ, c.2.2.1.2), c.2.2.2)
        invFun := fun c => (c.1, c.2.1, (c.2.2.1.1 - τ, c.2.2.1.2), c.2.2.2)
        left_inv := fun c => by simp
        right_inv := fun c => by simp }
    rw [mean_shift e]
    refine le_of_le_of_eq (Sim.mean_mono fun c => ?_) (Sim.mean_const (α := Spec.RunCell) (1 / ell : ℚ))
    refine mean_unique fun τ τ' h h' => ?_
    exact add_left_cancel (h.trans h'.symm)
  have h2 : ∀ n : Fin Q, (Spec.mean fun s : Fin Q → Spec.RunCell => if (s n).2.2.1.1 = 0 then (1 : ℚ) else 0) ≤
      1 / ell := by
    intro n
    rw [Reduction.mean_coord n (fun (c : Spec.RunCell) (_ : Fin Q → Spec.RunCell) => if c.2.2.1.1 = 0 then (1 : ℚ) else 0)
      (fun _ _ _ => rfl), Sim.mean_comm]
    exact le_trans (le_of_eq (Sim.mean_const (α := Fin Q → Spec.RunCell) _)) h1
  have h3 : ∀ s : Fin Q → Spec.RunCell, (if Zero s then (1 : ℚ) else 0) ≤
      ∑ n : Fin Q, if (s n).2.2.1.1 = 0 then (1 : ℚ) else 0 := by
    intro s
    have nn : ∀ n ∈ Finset.univ, (0 : ℚ) ≤ (fun n : Fin Q => if (s n).2.2.1.1 = 0 then (1 : ℚ) else 0) n := by
      intro n _
      dsimp only
      split <;> norm_num
    split
    · rename_i h
      obtain ⟨n, h⟩ := h
      refine le_trans (le_of_eq ?_) (Finset.single_le_sum nn (Finset.mem_univ n))
      exact (if_pos h).symm
    · exact Finset.sum_nonneg nn
  refine (Sim.mean_mono h3).trans ?_
  rw [Reduction.mean_sum]
  refine (Finset.sum_le_sum fun n _ => h2 n).trans (le_of_eq ?_)
  rw [Finset.sum_const, Finset.card_univ, Fintype.card_fin, nsmul_eq_mul]
  ring

section bound
variable {S Ω : Type} [Fintype S] [Fintype Ω] {sp : S → SystemParameters G} {A : Spec.Robber G Ω} {T : ℕ}

/-- A theft uses the second query of a presentation, or not. -/
theorem stolen_cases {O : Oracle} {sp : SystemParameters G} (hg : sp.g ≠ 0) {x0 x1 z : F} {w : Spec.Owner}
    {A : Spec.Thief G} (hA : A.Within T) (s : Fin (T + 2) → Spec.RunCell)
    (h : let r := final sp x0 x1 (A.against (w.member z)) s
      Spec.Stolen (r.2.1.oracle O) (Spec.issuerOf sp x0 x1) (w.entry sp z) r.1.bytes (r.2.2.map Prod.snd)) :
    let r := final sp x0 x1 (A.against (w.member z)) s
    Echoing O Set.univ (Spec.issuerOf sp x0 x1) r.1 r.2.1 (r.2.2.map Prod.snd) ∨ Zero s ∨
      Win O sp x0 x1 (w.entry sp z) (A.against (w.member z)) s := by
  intro r
  obtain ⟨p, v, R, h1, h2, h3, h4, h5⟩ := h
  obtain ⟨m1, m2⟩ := against_out (Spec.issuerOf sp x0 x1) (w.member z) (sp := sp) (x0 := x0) (x1 := x1) (Spec.stretch s)
    A [] []
  change r.1.m = _ at m1
  change r.1.r = _ at m2
  have hv : v = ⟨p⟩ := by
    rw [SignalIssuer.verify] at h2
    obtain ⟨w, -, hv⟩ := Res.bind_eq_ok.1 h2
    cases hv
    rfl
  by_cases he : r.1.Echoes (Spec.issuerOf sp x0 x1) (r.2.2.map Prod.snd)
  swap
  · exact .inr (.inr ⟨⟨p, R, h1, hv ▸ h3, h4⟩, he⟩)
  by_cases h0 : p.presentation.rerandomizedNonce = 0
  · refine .inr (.inl ?_)
    obtain ⟨p', hp', hq⟩ := he
    obtain ⟨e, he, rfl⟩ := List.mem_map.1 hp'
    obtain ⟨hlt, D, hD⟩ := (final_seen (against_within _ A T hA) le_rfl s).1 e he
    refine ⟨⟨e.1, hlt⟩, ?_⟩
    have hq' : Spec.rosterQuery sp e.2 = Spec.rosterQuery sp p := by
      refine hq.trans ?_
      have h1' : SignalCredentialPresentation.fromBytes r.1.bytes = .ok p := h1
      simp only [Spec.Attempt.query, h1', Spec.onDecoded, Nat.one_ne_zero, if_false]
      rfl
    have q := C32_injective (show Spec.Query.ops (.committedValuesEqual _ _ _) =
      Spec.Query.ops (.committedValuesEqual _ _ _) from hq')
    simp only [Spec.Query.committedValuesEqual.injEq, CommittedValuesEqual.Publics.mk.injEq, true_and] at q
    have q1 := q.1.1
    rw [h0, hD] at q1
    rw [← Reduction.stretch_of_lt s hlt]
    change (Spec.stretch s e.1).2.2.1.1 • sp.g = 0 at q1
    exact (smul_eq_zero.1 q1).resolve_right hg
  · refine .inl ⟨⟨p, v, R, h1, h2, h3, h0, ?_, Set.mem_univ _⟩, ?_, he⟩
    · rw [m1, m2, h4]
      simp [Spec.Owner.member, Spec.Owner.entry, Spec.issuerOf, Scalar.val_ofF]
    · rintro ⟨p', hp', hb⟩
      have h1' : SignalCredentialPresentation.fromBytes r.1.bytes = .ok p := h1
      rw [h1'] at hb
      cases hb
      exact h5 hp'

open Classical in
/-- The probability of success, with simulated presentations, without using a query of one of them. -/
noncomputable def novelty {S Ω : Type} [Fintype S] [Fintype Ω] (O : Oracle) (sp : S → SystemParameters G)
    (A : Spec.Robber G Ω) (T : ℕ) : ℚ :=
  Spec.mean fun x : S × (Ω × F) × F × F => Spec.mean fun s : Fin (T + 2) → Spec.RunCell =>
    if Win O (sp x.1) x.2.2.1 x.2.2.2 ((A (sp x.1) x.2.2 x.2.1.1).1.entry (sp x.1) x.2.1.2)
      (A.onlooker (sp x.1) x.2.2 x.2.1) s then 1 else 0

omit [Ristretto G] [Fintype S] [Fintype Ω] in
theorem onlooker_within (hA : ∀ σ k ω E, ((A (sp σ) k ω).2 E).Within T) (σ : S) (k : F × F) (ω : Ω × F) :
    (A.onlooker (sp σ) k ω).Within T := against_within _ _ T (hA _ _ _ _)

theorem wins_le [Nonempty S] [Nonempty Ω] (O : Oracle) (hg : ∀ σ, (sp σ).g ≠ 0) (hh : ∀ σ, (sp σ).h ≠ 0)
    (hA : ∀ σ k ω E, ((A (sp σ) k ω).2 E).Within T) :
    Spec.thiefWins O sp A ≤ novelty O sp A T + echoed O sp A.onlooker Set.univ + 2 * (T + 2) ^ 2 / ell := by
  classical
  have hell : (0 : ℚ) < ell := Tagging.ell_pos
  have h2 : 2 * ((T : ℚ) + 2) ^ 2 / ell = (T + 2) ^ 2 / ell + (T + 2) ^ 2 / ell := by ring
  unfold Spec.thiefWins novelty echoed
  rw [h2, ← Sim.mean_add, ← Sim.mean_const (α := S × (Ω × F) × F × F) ((T + 2) ^ 2 / ell : ℚ), ← Sim.mean_add,
    ← Sim.mean_add]
  refine Sim.mean_mono fun x => ?_
  dsimp only
  set i := Spec.issuerOf (sp x.1) x.2.2.1 x.2.2.2 with hi
  set w := (A (sp x.1) x.2.2 x.2.1.1).1 with hw
  set E := w.entry (sp x.1) x.2.1.2 with hE
  have hB := onlooker_within (sp := sp) (A := A) hA x.1 x.2.2 x.2.1
  have hwi := Deputy.checked_within (i := i) _ T hB
  rw [against_expect i (w.member x.2.1.2) (Spec.honestIssue O (sp x.1) (Scalar.ofF x.2.2.1) (Scalar.ofF x.2.2.2))
    (Spec.memberShow O (sp x.1) (Scalar.ofF x.2.2.1) (Scalar.ofF x.2.2.2))]
  have h01 : ∀ (o : Spec.Attempt) (l : Spec.HashLog) (ps : List (SignalCredentialPresentation G)),
      0 ≤ (if Spec.Stolen (l.oracle O) i E o.bytes ps then (1 : ℚ) else 0) ∧
      (if Spec.Stolen (l.oracle O) i E o.bytes ps then (1 : ℚ) else 0) ≤ 1 := by
    intro o l ps
    split <;> norm_num
  have h1 := expect_close
    (Deputy.sampled_close (Deputy.issue_sampled O (sp x.1) (Scalar.ofF x.2.2.1) (Scalar.ofF x.2.2.2)))
    (member_close O (sp x.1) (hh x.1) (Scalar.ofF x.2.2.1) (Scalar.ofF x.2.2.2)) h01 _ [] [] (T + 2) hwi
  have h2 := (abs_sub_le_iff.1 h1).1
  simp only [List.length_nil, Nat.cast_zero, zero_add] at h2
  push_cast at h2
  rw [← sq, sub_le_iff_le_add'] at h2
  refine h2.trans ?_
  rw [← add_assoc]
  refine add_le_add_left ?_ _
  have tape := fun f : Final G Spec.Attempt => run_tape (x0 := x.2.2.1) (x1 := x.2.2.2) (hg x.1) (hh x.1) O f
    (Q := T + 2) ((A.onlooker (sp x.1) x.2.2 x.2.1).checked i) [] [] (T + 2) hwi (by simp)
  simp only [List.map_nil] at tape
  have hz : (Spec.mean fun s : Fin (T + 2) → Spec.RunCell => if Zero s then (1 : ℚ) else 0) ≤ (T + 2) ^ 2 / ell := by
    refine (zero_le (T + 2)).trans (div_le_div_of_nonneg_right ?_ hell.le)
    push_cast
    nlinarith [show (0 : ℚ) ≤ T by positivity]
  refine le_trans ?_ (add_le_add_right hz _)
  rw [tape, tape, ← Sim.mean_add, ← Sim.mean_add]
  refine Sim.mean_mono fun s => ?_
  have key := stolen_cases (T := T) (O := O) (hg x.1) (x0 := x.2.2.1) (x1 := x.2.2.2) (z := x.2.1.2) (w := w)
    (A := (A (sp x.1) x.2.2 x.2.1.1).2 E) (hA _ _ _ _) s
  dsimp only at key
  unfold final at key
  set r := run (sp x.1) x.2.2.1 x.2.2.2 (Spec.stretch s) (checked i (A.onlooker (sp x.1) x.2.2 x.2.1)) [] [] with hr
  by_cases hs : Spec.Stolen (r.2.1.oracle O) i E r.1.bytes (r.2.2.map Prod.snd)
  · have nn : ∀ P : Prop, (0 : ℚ) ≤ if P then 1 else 0 := fun P => by split <;> norm_num
    rw [if_pos hs]
    rcases key hs with k | k | k
    · rw [if_pos (show Echoing O Set.univ i r.1 r.2.1 (r.2.2.map Prod.snd) from k)]
      linarith [nn (Zero s), nn (Win O (sp x.1) x.2.2.1 x.2.2.2 E (A.onlooker (sp x.1) x.2.2 x.2.1) s)]
    · rw [if_pos k]
      have := nn (Win O (sp x.1) x.2.2.1 x.2.2.2 E (A.onlooker (sp x.1) x.2.2 x.2.1) s)
      refine le_add_of_nonneg_left (add_nonneg this (nn _))
    · rw [if_pos (show Win O (sp x.1) x.2.2.1 x.2.2.2 E (A.onlooker (sp x.1) x.2.2 x.2.1) s from k), add_assoc]
      refine le_add_of_nonneg_right (add_nonneg (nn _) (nn _))
  · rw [if_neg hs]
    positivity

set_option synthInstance.maxSize 1000 in
/-- Such successes open the roster entry. -/
theorem novel_le [Nonempty S] [Nonempty Ω] (O : Oracle) (hA : ∀ σ k ω E, ((A (sp σ) k ω).2 E).Within T) :
    novelty O sp A T ^ 2 / (T + 2) - novelty O sp A T / 2 ^ 252 ≤ Spec.openerWins sp A T := by
  classical
  let B : S × (Ω × F) × F × F → Spec.Onlooker G Spec.Attempt := fun x => A.onlooker (sp x.1) x.2.2 x.2.1
  have hB : ∀ x, (B x).Within T := fun x => onlooker_within hA _ _ _
  let E : S × (Ω × F) × F × F → G := fun x => (A (sp x.1) x.2.2 x.2.1.1).1.entry (sp x.1) x.2.1.2
  let run : S × (Ω × F) × F × F → (Fin (T + 2) → Spec.RunCell) → Option (Fin (T + 2)) := fun x s =>
    spot O (sp x.1) x.2.2.1 x.2.2.2 (E x) (B x) s
  have hsome : ∀ x s, (run x s).isSome ↔ Win O (sp x.1) x.2.2.1 x.2.2.2 (E x) (B x) s := fun x s =>
    spot_isSome (hB x) le_rfl s
  have hε : (Spec.prob fun x : (S × (Ω × F) × F × F) × (Fin (T + 2) → Spec.RunCell) => (run x.1 x.2).isSome) =
      novelty O sp A T := by
    unfold novelty
    rw [← Sim.mean_indicator, Tagging.mean_prod (α := S × (Ω × F) × F × F)]
    refine Sim.mean_congr fun x => Sim.mean_congr fun s => ?_
    exact if_congr (hsome x s) rfl rfl
  have hcol : ∀ d : F, Spec.prob (fun c : Spec.RunCell => (leVal c.1.1 : F) = d) ≤ 1 / 2 ^ 252 := by
    intro d
    refine le_trans (le_of_eq ?_) (Knowledge.collision d)
    rw [← Sim.mean_indicator, ← Sim.mean_indicator]
    rw [Reduction.mean_fst fun c : Spec.Answer => if (leVal c.1 : F) = d then (1 : ℚ) else 0]
  have key := Fork.forking run (fun c : Spec.RunCell => (leVal c.1.1 : F)) (1 / 2 ^ 252) hcol
  rw [hε] at key
  push_cast at key
  rw [mul_one_div] at key
  refine key.trans ?_
  unfold Spec.openerWins
  rw [← Sim.mean_indicator, Tagging.mean_prod (α := S × (Ω × F) × F × F)]
  refine Sim.mean_mono fun x => Sim.mean_mono fun s => ?_
  dsimp only
  split
  swap
  · split <;> norm_num
  rename_i h
  obtain ⟨j, h1, h2, h3⟩ := h
  obtain ⟨p, p', d1, d2, d3⟩ := pair_opens h1 h2 h3
  rw [if_pos]
  have ho : Spec.opener (sp x.1) x.2.2.1 x.2.2.2 (E x) ((A (sp x.1) x.2.2 x.2.1.1).2 (E x)) (Spec.stretch s.1)
      (Spec.stretch s.2) =
      ((CommittedValuesEqual.extract p.rosterMembershipProof p'.rosterMembershipProof).m0.val,
        (CommittedValuesEqual.extract p.rosterMembershipProof p'.rosterMembershipProof).z1.val) := by
    unfold Spec.opener
    dsimp only
    rw [against_run (Spec.issuerOf (sp x.1) x.2.2.1 x.2.2.2) _ (entry_eq (sp x.1) (A (sp x.1) x.2.2 x.2.1.1).1 x.2.1.2) _
      _ [] [], against_run (Spec.issuerOf (sp x.1) x.2.2.1 x.2.2.2) _
      (entry_eq (sp x.1) (A (sp x.1) x.2.2 x.2.1.1).1 x.2.1.2) _ _ [] []]
    rw [show Spec.switch _ (Spec.stretch s.1) (Spec.stretch s.2) = _ from (stretch_splice _ s.1 s.2).symm]
    dsimp only
    unfold final at d1 d2
    simp only [B, Spec.Robber.onlooker] at d1 d2
    erw [d1, d2]
  erw [ho]
  exact d3

end bound

end Theft

/-! ## C103 -/

/-- **C103**: for every way to choose parameters (with `g` and `h` not the identity) and every adversary, with at most `T`
hash queries in all, that knows the issuer's secret key, chooses the owner's number, and watches the owner present: the
probability that it is accepted for the owner's roster entry, with something that the owner did not send, is at most
`ε + ε' + 3(T+2)²/ℓ`, where `Spec.opener` opens the roster entry with probability at least `ε²/(T+2) - ε·2⁻²⁵²`, and
`Spec.finder` finds the logarithm of `h` to the base `g` with probability at least
`(1 - 1/ℓ)·(ε'²/(T+2) - ε'·2⁻²⁵²)`. -/
theorem C103_reduction {S Ω : Type} [Fintype S] [Nonempty S] [Fintype Ω] [Nonempty Ω] (O : Oracle)
    (sp : S → SystemParameters G) (hg : ∀ σ, (sp σ).g ≠ 0) (hh : ∀ σ, (sp σ).h ≠ 0) (A : Spec.Robber G Ω) (T : ℕ)
    (hA : ∀ σ k ω E, ((A (sp σ) k ω).2 E).Within T) :
    ∃ ε ε' : ℚ, 0 ≤ ε ∧ 0 ≤ ε' ∧ Spec.thiefWins O sp A ≤ ε + ε' + 3 * (T + 2) ^ 2 / ell ∧
      ε ^ 2 / (T + 2) - ε / 2 ^ 252 ≤ Spec.openerWins sp A T ∧
      (1 - 1 / ell) * (ε' ^ 2 / (T + 2) - ε' / 2 ^ 252) ≤ Spec.robberFinderWins sp A T := by
  obtain ⟨ε, h0, -, h1, h2⟩ := Echo.echo_le (V := Set.univ) O hg hh (Theft.onlooker_within (sp := sp) (A := A) hA)
  refine ⟨Theft.novelty O sp A T, ε, ?_, h0, ?_, Theft.novel_le O hA, h2⟩
  · unfold Theft.novelty
    exact (Sim.mean01 fun x => Sim.mean01 fun s => by split <;> norm_num).1
  · have h3 := Theft.wins_le O hg hh hA
    have h4 : 3 * ((T : ℚ) + 2) ^ 2 / ell = 2 * (T + 2) ^ 2 / ell + (T + 2) ^ 2 / ell := by ring
    rw [h4]
    linarith

/-- `a` is at most `u`, if `a²/Q - a/D` is at most `u²/(2Q)`, up to `2Q/D`. -/
theorem Theft.root {a u b Q D : ℚ} (hQ : 0 < Q) (hD : 0 < D) (ha : 0 ≤ a) (hu : 0 ≤ u) (h : a ^ 2 / Q - a / D ≤ b)
    (hb : b ≤ u ^ 2 / (2 * Q)) : a ≤ u + 2 * Q / D := by
  by_contra hlt
  rw [not_le] at hlt
  have e0 : 0 < 2 * Q / D := by positivity
  have e1 : 2 * Q / D ≤ a := by linarith
  have e2 : u < a := by linarith
  have e3 : a / D ≤ a ^ 2 / (2 * Q) := by
    rw [div_le_div_iff₀ hD (by positivity), sq, mul_assoc]
    rw [div_le_iff₀ hD] at e1
    exact mul_le_mul_of_nonneg_left e1 ha
  have e4 : a ^ 2 / Q = a ^ 2 / (2 * Q) + a ^ 2 / (2 * Q) := by
    field_simp
    ring
  have e5 : a ^ 2 / (2 * Q) ≤ u ^ 2 / (2 * Q) := by linarith
  rw [div_le_div_iff_of_pos_right (by positivity)] at e5
  exact absurd e5 (not_le.2 (pow_lt_pow_left₀ e2 hu (by norm_num)))

/-- **C103**, as a bound: if `Spec.opener` opens the roster entry with probability at most `t²/(2(T+2))`, and `Spec.finder`
finds the logarithm with probability at most `u²/(4(T+2))`, then the adversary succeeds with probability at most
`t + u + 3(T+2)²/ℓ + 4(T+2)·2⁻²⁵²`. -/
theorem C103_bound {S Ω : Type} [Fintype S] [Nonempty S] [Fintype Ω] [Nonempty Ω] (O : Oracle)
    (sp : S → SystemParameters G) (hg : ∀ σ, (sp σ).g ≠ 0) (hh : ∀ σ, (sp σ).h ≠ 0) (A : Spec.Robber G Ω) (T : ℕ)
    (hA : ∀ σ k ω E, ((A (sp σ) k ω).2 E).Within T) (t u : ℚ) (ht : 0 ≤ t) (hu : 0 ≤ u)
    (ho : Spec.openerWins sp A T ≤ t ^ 2 / (2 * (T + 2))) (hl : Spec.robberFinderWins sp A T ≤ u ^ 2 / (4 * (T + 2))) :
    Spec.thiefWins O sp A ≤ t + u + 3 * (T + 2) ^ 2 / ell + 4 * (T + 2) / 2 ^ 252 := by
  obtain ⟨ε, ε', h0, h0', h1, h2, h3⟩ := C103_reduction O sp hg hh A T hA
  have hT : (0 : ℚ) < T + 2 := by positivity
  have hD : (0 : ℚ) < 2 ^ 252 := by positivity
  have e4 : (1 : ℚ) / 2 ≤ 1 - 1 / ell := by
    have : (1 : ℚ) / ell ≤ 1 / 2 := by
      refine one_div_le_one_div_of_le (by norm_num) ?_
      exact_mod_cast (by decide : 2 ≤ ell)
    linarith
  generalize (2 : ℚ) ^ 252 = D at *
  have k1 := Theft.root hT hD h0 ht h2 ho
  have k2 : ε' ≤ u + 2 * (T + 2) / D := by
    by_cases hpos : ε' ^ 2 / ((T : ℚ) + 2) - ε' / D ≤ 0
    · exact Theft.root hT hD h0' hu hpos (by positivity)
    · rw [not_le] at hpos
      refine Theft.root hT hD h0' hu le_rfl ?_
      have e5 := (mul_le_mul_of_nonneg_right e4 hpos.le).trans (h3.trans hl)
      have e6 : u ^ 2 / (2 * ((T : ℚ) + 2)) = 2 * (u ^ 2 / (4 * (T + 2))) := by
        field_simp
        ring
      rw [e6]
      linarith
  have e7 : 4 * ((T : ℚ) + 2) / D = 2 * (T + 2) / D + 2 * (T + 2) / D := by ring
  rw [e7]
  linarith

/-- Other openings for other entries. -/
def Theft.blindings {S Ω : Type} (sp : S → SystemParameters G) (a : S → F) (A : Spec.Robber G Ω) :
    S × (Ω × F) × F × F ≃ S × (Ω × F) × F × F where
  toFun x := (x.1, (x.2.1.1, (A (sp x.1) x.2.2 x.2.1.1).1.m.val * a x.1 + x.2.1.2), x.2.2)
  invFun x := (x.1, (x.2.1.1, x.2.1.2 - (A (sp x.1) x.2.2 x.2.1.1).1.m.val * a x.1), x.2.2)
  left_inv x := by simp
  right_inv x := by simp

set_option synthInstance.maxSize 1000 in
open Classical in
/-- **C103**: opening roster entries is finding logarithms. If the parameters are made such that the logarithm `a` of `h`
to the base `g` is known, then `Spec.opener` opens the roster entry as often as `n·a + z`, with the `n` and `z` that it
returns for a uniform group element, is the logarithm of that element to the base `g`. -/
theorem C103_log {S Ω : Type} [Fintype S] [Fintype Ω] (sp : S → SystemParameters G) (hg : ∀ σ, (sp σ).g ≠ 0) (a : S → F)
    (ha : ∀ σ, (sp σ).h = a σ • (sp σ).g) (A : Spec.Robber G Ω) (T : ℕ) :
    Spec.openerWins sp A T = Spec.mean fun x : S × (Ω × F) × F × F =>
      Spec.mean fun s : (Fin (T + 2) → Spec.RunCell) × (Fin (T + 2) → Spec.RunCell) =>
        let Y := x.2.1.2 • (sp x.1).g
        let o := Spec.opener (sp x.1) x.2.2.1 x.2.2.2 Y ((A (sp x.1) x.2.2 x.2.1.1).2 Y) (Spec.stretch s.1)
          (Spec.stretch s.2)
        if o.1 * a x.1 + o.2 = x.2.1.2 then 1 else 0 := by
  refine Eq.trans ?_ (Sim.mean_equiv (Theft.blindings sp a A) _)
  refine Sim.mean_congr fun x => Sim.mean_congr fun s => ?_
  dsimp only [Theft.blindings, Equiv.coe_fn_mk]
  have e : (A (sp x.1) x.2.2 x.2.1.1).1.entry (sp x.1) x.2.1.2 =
      ((A (sp x.1) x.2.2 x.2.1.1).1.m.val * a x.1 + x.2.1.2) • (sp x.1).g := by
    rw [Spec.Owner.entry, ha]
    module
  rw [e]
  refine if_congr ?_ rfl rfl
  rw [ha, smul_smul, ← add_smul, smul_left_inj (hg x.1)]
  exact eq_comm

/-! ## The converse -/

/-- Presents a tag on `m`, for the roster entry `m·h + z·g`. Nothing is hidden. -/
def Spec.presentFor (sp : SystemParameters G) (X : G) (m z : F) (tag : Tag G) : Spec.Thief G :=
  let C := m • tag.nonce
  let R := m • sp.h + z • sp.g
  let p : ValidCredential.Publics G := ⟨sp.g, sp.h, X, tag.nonce, 0, C⟩
  let p' : CommittedValuesEqual.Publics G := ⟨sp.g, sp.h, tag.nonce, C, R⟩
  .ask (ValidCredential.verifyTranscript [.init "AEONFLUX SHOW"] p (ValidCredential.commitmentsOf p ⟨0, 0, 0⟩)) fun a =>
  .ask (CommittedValuesEqual.verifyTranscript [.init "SIGNAL GROUP MEMBERSHIP"] p'
    (CommittedValuesEqual.commitmentsOf p' ⟨0, 0, 0⟩)) fun a' =>
  .out (Knowledge.honestPresentation R tag.mac tag.nonce C ⟨Scalar.ofF m, 0, 0⟩ ⟨Scalar.ofF m, 0, Scalar.ofF z⟩
    ⟨0, 0, 0⟩ ⟨0, 0, 0⟩ (Scalar.fromWide a.1) (Scalar.fromWide a'.1)).toBytes

/-- The adversary from an algorithm `B` that opens roster entries. It makes the MAC with the issuer's secret key. -/
def Spec.burglar {Ω : Type} (w : SystemParameters G → F × F → Ω → Spec.Owner)
    (B : SystemParameters G → F × F → Ω → G → F × F) : Spec.Robber G Ω :=
  fun sp k ω => (w sp k ω, fun E => Spec.presentFor sp (k.2 • sp.h) (B sp k ω E).1 (B sp k ω E).2
    ⟨basepoint G, (k.1 + k.2 * (B sp k ω E).1) • basepoint G⟩)

omit [AddCommGroup G] [Module F G] [Ristretto G] in
theorem Theft.expect01 {shw : Spec.HashLog → (Spec.HashLog → SignalCredentialPresentation G → ℚ) → ℚ}
    (hs : ∀ l f, Sim.Unit01 f → 0 ≤ shw l f ∧ shw l f ≤ 1)
    {f : Bytes → Spec.HashLog → List (SignalCredentialPresentation G) → ℚ} (hf : ∀ b l ps, 0 ≤ f b l ps ∧ f b l ps ≤ 1)
    (A : Spec.Thief G) : ∀ l ps, 0 ≤ A.expect shw f l ps ∧ A.expect shw f l ps ≤ 1 := by
  induction A with
  | out b => intro l ps; exact hf b l ps
  | ask t next ih => intro l ps; exact Sim.mean01 fun a => ih _ _ _
  | watch next ih => intro l ps; exact hs l _ fun l' p => ih p l' (p :: ps)

open Classical in
theorem Theft.presentFor_good {O : Oracle} {sp : SystemParameters G} {x0 x1 m z : F} {tag : Tag G}
    (ht : tag.mac = (x0 + x1 * m) • tag.nonce)
    (shw : Spec.HashLog → (Spec.HashLog → SignalCredentialPresentation G → ℚ) → ℚ) (l : Spec.HashLog) :
    ((Spec.presentFor sp (x1 • sp.h) m z tag).checked (Spec.issuerOf sp x0 x1)).expect shw
      (fun b l ps => if Spec.Stolen (l.oracle O) (Spec.issuerOf sp x0 x1) (m • sp.h + z • sp.g) b ps then 1 else 0)
      l [] = 1 := by
  unfold Spec.presentFor
  simp only [Spec.Thief.checked, Spec.Thief.expect]
  refine Eq.trans ?_ (Sim.mean_const (α := Spec.Answer) 1)
  refine Sim.mean_congr fun a => ?_
  refine Eq.trans ?_ (Sim.mean_const (α := Spec.Answer) 1)
  refine Sim.mean_congr fun a' => ?_
  refine Eq.trans ?_ (Sim.mean_const (α := Spec.Answer) 1)
  refine Sim.mean_congr fun a'' => ?_
  refine Eq.trans ?_ (Sim.mean_const (α := Spec.Answer) 1)
  refine Sim.mean_congr fun d' => ?_
  rw [if_pos]
  set t := ValidCredential.verifyTranscript [.init "AEONFLUX SHOW"]
    (⟨sp.g, sp.h, x1 • sp.h, tag.nonce, 0, m • tag.nonce⟩ : ValidCredential.Publics G)
    (ValidCredential.commitmentsOf ⟨sp.g, sp.h, x1 • sp.h, tag.nonce, 0, m • tag.nonce⟩ ⟨0, 0, 0⟩) with ht'
  set t' := CommittedValuesEqual.verifyTranscript [.init "SIGNAL GROUP MEMBERSHIP"]
    (⟨sp.g, sp.h, tag.nonce, m • tag.nonce, m • sp.h + z • sp.g⟩ : CommittedValuesEqual.Publics G)
    (CommittedValuesEqual.commitmentsOf ⟨sp.g, sp.h, tag.nonce, m • tag.nonce, m • sp.h + z • sp.g⟩ ⟨0, 0, 0⟩) with ht''
  have c1 : ∀ u u', (((((l.asked t a).asked t' a').asked u a'').asked u' d').oracle O).chal t "chal" 64 =
      ((l.lookup t).getD a).1 := fun u u' =>
    Reduction.oracle_chal (Reduction.lookup_mono (Reduction.lookup_mono (Reduction.lookup_mono
      (Reduction.lookup_asked l t a))))
  have c2 : ∀ u u', (((((l.asked t a).asked t' a').asked u a'').asked u' d').oracle O).chal t' "chal" 64 =
      (((l.asked t a).lookup t').getD a').1 := fun u u' =>
    Reduction.oracle_chal (Reduction.lookup_mono (Reduction.lookup_mono (Reduction.lookup_asked (l.asked t a) t' a')))
  generalize ((l.asked t a).lookup t').getD a' = b' at c1 c2 ⊢
  generalize (l.lookup t).getD a = b at c1 c2 ⊢
  have hs : Spec.ValidCredential (⟨sp.g, sp.h, x1 • sp.h, tag.nonce, 0, m • tag.nonce⟩ : ValidCredential.Publics G)
      ⟨Scalar.ofF m, 0, 0⟩ := by
    refine ⟨?_, ?_⟩ <;> simp [Scalar.val_ofF]
  have hs' : Spec.CommittedValuesEqual
      (⟨sp.g, sp.h, tag.nonce, m • tag.nonce, m • sp.h + z • sp.g⟩ : CommittedValuesEqual.Publics G)
      ⟨Scalar.ofF m, 0, Scalar.ofF z⟩ := by
    refine ⟨?_, ?_⟩ <;> simp [Scalar.val_ofF]
  have hv : (0 : G) = Scalar.ofF x0 • tag.nonce + Scalar.ofF x1 • (m • tag.nonce) - tag.mac := by
    rw [ht, Scalar.smul_def, Scalar.smul_def, Scalar.val_ofF, Scalar.val_ofF]
    module
  refine ⟨_, ⟨Knowledge.honestPresentation (m • sp.h + z • sp.g) tag.mac tag.nonce (m • tag.nonce)
    ⟨Scalar.ofF m, 0, 0⟩ ⟨Scalar.ofF m, 0, Scalar.ofF z⟩ ⟨0, 0, 0⟩ ⟨0, 0, 0⟩ (Scalar.fromWide b.1)
    (Scalar.fromWide b'.1)⟩, m • sp.h + z • sp.g, (C10_roundtrip _ (m • tag.nonce) ?_).1, ?_, ?_, rfl,
    List.not_mem_nil⟩
  · exact ⟨⟨rfl, rfl, Scalar.reduced_fromWide _, Scalar.reduced_add _ _, Scalar.reduced_add _ _,
      Scalar.reduced_add _ _⟩, Scalar.reduced_fromWide _, Scalar.reduced_add _ _,
      Scalar.reduced_add _ _, Scalar.reduced_add _ _⟩
  · rw [SignalIssuer.verify]
    simp only [Knowledge.honestPresentation, Spec.issuerOf]
    rw [verify_one, ← hv, if_pos]
    · rfl
    rw [ValidCredential.verify, ValidCredential.recommit_respond hs, decide_eq_true_iff, getChallenge]
    exact congrArg Scalar.fromWide (c1 _ _)
  · simp only [Knowledge.honestPresentation, Spec.issuerOf]
    rw [verifyRoster_one, if_pos]
    rw [CommittedValuesEqual.verify, CommittedValuesEqual.recommit_respond hs', decide_eq_true_iff,
      getChallenge]
    exact congrArg Scalar.fromWide (c2 _ _)

open Classical in
/-- **C103**, converse: every algorithm that opens roster entries gives an adversary that succeeds at least as often. It
makes two queries and does not watch. -/
theorem C103_converse {S Ω : Type} [Fintype S] [Fintype Ω] (O : Oracle) (sp : S → SystemParameters G)
    (w : SystemParameters G → F × F → Ω → Spec.Owner) (B : SystemParameters G → F × F → Ω → G → F × F) :
    (Spec.mean fun x : S × (Ω × F) × F × F =>
      let E := (w (sp x.1) x.2.2 x.2.1.1).entry (sp x.1) x.2.1.2
      let o := B (sp x.1) x.2.2 x.2.1.1 E
      if E = o.1 • (sp x.1).h + o.2 • (sp x.1).g then 1 else 0) ≤ Spec.thiefWins O sp (Spec.burglar w B) ∧
    ∀ σ k ω E, ((Spec.burglar w B (sp σ) k ω).2 E).Within 2 := by
  refine ⟨?_, fun σ k ω E => ⟨1, rfl, fun _ => ⟨0, rfl, fun _ => trivial⟩⟩⟩
  unfold Spec.thiefWins
  refine Sim.mean_mono fun x => ?_
  dsimp only
  split
  · rename_i h
    have := Theft.presentFor_good (O := O) (sp := sp x.1) (x0 := x.2.2.1) (x1 := x.2.2.2)
      (m := (B (sp x.1) x.2.2 x.2.1.1 ((w (sp x.1) x.2.2 x.2.1.1).entry (sp x.1) x.2.1.2)).1)
      (z := (B (sp x.1) x.2.2 x.2.1.1 ((w (sp x.1) x.2.2 x.2.1.1).entry (sp x.1) x.2.1.2)).2)
      (tag := ⟨basepoint G, (x.2.2.1 + x.2.2.2 * (B (sp x.1) x.2.2 x.2.1.1
        ((w (sp x.1) x.2.2 x.2.1.1).entry (sp x.1) x.2.1.2)).1) • basepoint G⟩) rfl
      (Spec.memberShow O (sp x.1) (Scalar.ofF x.2.2.1) (Scalar.ofF x.2.2.2)
        ((w (sp x.1) x.2.2 x.2.1.1).member x.2.1.2)) []
    rw [← h] at this
    exact this.symm.le
  · refine (Theft.expect01 (fun l f hf => ?_) (fun b l ps => by split <;> norm_num) _ [] []).1
    change 0 ≤ Spec.honestShow _ _ _ _ _ _ _ ∧ Spec.honestShow _ _ _ _ _ _ _ ≤ 1
    rw [Sim.honestShow_steps]
    exact Sim.mean01 fun d => ValidCredential.honest01 _ _ _ _ _ fun _ _ =>
      CommittedValuesEqual.honest01 _ _ _ _ _ fun _ _ => hf _ _

/-! ## Examples -/

set_option synthInstance.maxSize 1000 in
/-- An adversary that watches the owner and then sends nothing. With `t = 2⁻¹⁰⁰` and `u = 0` it satisfies the hypotheses of
`C103_bound`: the algorithm opens the roster entry only if it is the identity. -/
example : let w : Spec.Owner := ⟨⟨8, by decide +kernel⟩, 1, one_ne_zero⟩
    let A : Spec.Robber F Unit := fun _ _ _ => (w, fun _ => .watch fun _ => .out [])
    (∀ k ω E, ((A ⟨1, 4⟩ k ω).2 E).Within 2) ∧
    Spec.openerWins (fun _ : Unit => (⟨1, 4⟩ : SystemParameters F)) A 2 ≤ (1 / 2 ^ 100) ^ 2 / (2 * ((2 : ℕ) + 2)) ∧
    Spec.robberFinderWins (fun _ : Unit => (⟨1, 4⟩ : SystemParameters F)) A 2 ≤ 0 ^ 2 / (4 * ((2 : ℕ) + 2)) := by
  intro w A
  refine ⟨fun _ _ _ => ⟨0, rfl, fun _ => trivial⟩, ?_, ?_⟩
  · have e : Spec.openerWins (fun _ : Unit => (⟨1, 4⟩ : SystemParameters F)) A 2 = 1 / ell := by
      unfold Spec.openerWins
      have g (f : F → ℚ) : (Spec.mean fun x : Unit × (Unit × F) × F × F => f x.2.1.2) = Spec.mean f := by
        rw [Tagging.mean_prod]
        refine Eq.trans (Sim.mean_congr (g := fun _ => Spec.mean f) fun a => ?_) (Sim.mean_const (α := Unit) (Spec.mean f))
        rw [Tagging.mean_prod]
        refine Eq.trans (Sim.mean_congr (g := fun b : Unit × F => f b.2) fun b => Sim.mean_const (α := F × F) (f b.2)) ?_
        exact Echo.mean_snd (β := Unit) f
      refine Eq.trans (Sim.mean_congr (g := fun x : Unit × (Unit × F) × F × F => if x.2.1.2 = -32 then (1 : ℚ) else 0)
        fun x => ?_) (Eq.trans (g fun z => if z = -32 then (1 : ℚ) else 0) ?_)
      · refine Eq.trans (Sim.mean_congr (g := fun _ => if x.2.1.2 = -32 then (1 : ℚ) else 0) fun s => ?_)
          (Sim.mean_const (if x.2.1.2 = -32 then (1 : ℚ) else 0))
        have o : ∀ E s s', Spec.opener (⟨1, 4⟩ : SystemParameters F) x.2.2.1 x.2.2.2 E ((A ⟨1, 4⟩ x.2.2 x.2.1.1).2 E) s s'
          = (0, 0) := fun _ _ _ => rfl
        simp only [o]
        refine if_congr ?_ rfl rfl
        rw [Spec.Owner.entry]
        have hw : (A ⟨1, 4⟩ x.2.2 x.2.1.1).1.m.val = 8 := by
          change (⟨8, by decide +kernel⟩ : Scalar).val = 8
          decide +kernel
        rw [hw]
        simp only [smul_eq_mul, zero_mul, mul_one, add_zero]
        rw [add_eq_zero_iff_neg_eq, eq_comm]
        norm_num
      · unfold Spec.mean
        rw [Finset.sum_ite_eq' Finset.univ, if_pos (Finset.mem_univ _), ZMod.card]
    have : (2 : ℚ) ^ 252 ≤ ell := by exact_mod_cast (by decide +kernel : 2 ^ 252 ≤ ell)
    rw [e]
    refine (one_div_le_one_div_of_le (by positivity) this).trans ?_
    norm_num
  · have e : Spec.robberFinderWins (fun _ : Unit => (⟨1, 4⟩ : SystemParameters F)) A 2 = 0 := by
      unfold Spec.robberFinderWins
      refine (Sim.mean_congr fun x => ?_).trans (Sim.mean_const 0)
      refine (Sim.mean_congr fun c => ?_).trans (Sim.mean_const 0)
      rw [if_neg]
      rintro ⟨y, hy, -⟩
      unfold Spec.finder at hy
      dsimp only at hy
      have run : ∀ s : ℕ → Spec.RunCell, (Spec.Onlooker.run ⟨1, 4⟩ x.2.2.1 x.2.2.2 s (Spec.Onlooker.checked
          (Spec.issuerOf ⟨1, 4⟩ x.2.2.1 x.2.2.2) (A.onlooker ⟨1, 4⟩ x.2.2 x.2.1)) [] []).1.presentation F = none :=
        fun s => rfl
      rw [run] at hy
      cases hy
    rw [e]
    norm_num

/-- In the toy group, where logarithms are easy, an adversary always succeeds. -/
example (O : Oracle) : ∃ A : Spec.Robber F Unit, (∀ k ω E, ((A ⟨1, 4⟩ k ω).2 E).Within 2) ∧
    1 ≤ Spec.thiefWins O (fun _ : Unit => (⟨1, 4⟩ : SystemParameters F)) A := by
  classical
  have h := C103_converse (Ω := Unit) O (fun _ : Unit => (⟨1, 4⟩ : SystemParameters F))
    (fun _ _ _ => ⟨⟨8, by decide +kernel⟩, 1, one_ne_zero⟩) (fun _ _ _ E => (0, E))
  refine ⟨_, h.2 (), le_trans (le_of_eq ?_) h.1⟩
  refine Eq.trans (Sim.mean_const (α := Unit × (Unit × F) × F × F) 1).symm (Sim.mean_congr fun x => ?_)
  rw [if_pos]
  simp

/-- Parameters as in `C103_log`, in the toy group. -/
example : ((⟨1, 4⟩ : SystemParameters F).g ≠ 0) ∧ (⟨1, 4⟩ : SystemParameters F).h = (4 : F) • (1 : F) :=
  ⟨one_ne_zero, by simp⟩

end Verif
