import Verif.Props.Sketch
import Verif.Props.Intruder

/-!
# Adversaries whose presentations get checked (C96)

In C94 the adversary sees issuances and presentations, but not what the issuer answers to presentations of its own.
These answers depend on the secret key. Here it may have any bytes checked, at any time, and goes on with the answer.
-/

set_option maxRecDepth 100000

namespace Verif

open Amacs

variable {G : Type} [AddCommGroup G] [Module F G] [Ristretto G] {Out : Type}

/-! ## The game -/

/-- What the issuer answers to the bytes of a presentation: it decodes them, runs `SignalIssuer::verify`, and then
`SignalIssuer::verify_roster_membership`. -/
def Spec.reply (O : Oracle) (i : Issuer G) (b : Bytes) : Res CredentialError G := do
  let p ← SignalCredentialPresentation.fromBytes b
  let v ← SignalIssuer.verify O ⟨i⟩ p
  SignalIssuer.verifyRosterMembership O ⟨i⟩ v

/-- The two hash queries that the issuer makes to check the bytes. -/
def Spec.checkQuery (i : Issuer G) (b : Bytes) (n : ℕ) : Transcript := Spec.Attempt.query i ⟨0, 0, b⟩ n

/-- An adversary that asks the hash, gets attributes issued, watches presentations, has bytes checked by the issuer,
and finally returns something. -/
inductive Spec.Applicant (G Out : Type) where
  | out (o : Out)
  | ask (t : Transcript) (next : Spec.Answer → Spec.Applicant G Out)
  | issue (m : Scalar) (next : CredentialIssuance G → Spec.Applicant G Out)
  | watch (w : Spec.Member) (next : SignalCredentialPresentation G → Spec.Applicant G Out)
  | submit (b : Bytes) (next : Res CredentialError G → Spec.Applicant G Out)

namespace Spec.Applicant

/-- At most `n` hash queries, by anybody: one for each issuance, two for each presentation and each check. -/
def Within : Spec.Applicant G Out → ℕ → Prop
  | out _, _ => True
  | ask _ next, n => ∃ n', n = n' + 1 ∧ ∀ a, (next a).Within n'
  | issue _ next, n => ∃ n', n = n' + 1 ∧ ∀ c, (next c).Within n'
  | watch _ next, n => ∃ n', n = n' + 2 ∧ ∀ p, (next p).Within n'
  | submit _ next, n => ∃ n', n = n' + 2 ∧ ∀ r, (next r).Within n'

/-- No attribute in `V` is issued to the adversary. -/
def Avoids (V : Set F) : Spec.Applicant G Out → Prop
  | out _ => True
  | ask _ next => ∀ a, (next a).Avoids V
  | issue m next => m.val ∉ V ∧ ∀ c, (next c).Avoids V
  | watch _ next => ∀ p, (next p).Avoids V
  | submit _ next => ∀ r, (next r).Avoids V

/-- The adversary together with the issuer that checks: it makes its two queries, and answers by them. -/
def checks (O : Oracle) (i : Issuer G) : Spec.Applicant G Out → Spec.Onlooker G Out
  | out o => .out o
  | ask t next => .ask t fun a => (next a).checks O i
  | issue m next => .issue m fun c => (next c).checks O i
  | watch w next => .watch w fun p => (next p).checks O i
  | submit b next => .ask (Spec.checkQuery i b 0) fun a => .ask (Spec.checkQuery i b 1) fun a' =>
      (next (Spec.reply (Spec.HashLog.oracle O [(Spec.checkQuery i b 0, a), (Spec.checkQuery i b 1, a')]) i b)).checks O i

end Spec.Applicant

/-- The probability that an adversary gets accepted for a number in `V`, without repeating a presentation that it
saw. It is given the parameters and the public key; setup `σ`, coins `ω` and the issuer's secret key are uniform. -/
noncomputable def Spec.applicantWins {S Ω : Type} [Fintype S] [Fintype Ω] (O : Oracle) (sp : S → SystemParameters G)
    (A : SystemParameters G → G → Ω → Spec.Applicant G Spec.Attempt) (V : Set F) : ℚ :=
  Spec.mean fun x : S × Ω × F × F =>
    let i := Spec.issuerOf (sp x.1) x.2.2.1 x.2.2.2
    (((A (sp x.1) (x.2.2.2 • (sp x.1).h) x.2.1).checks O i).checked i).expect
      (Spec.honestIssue O (sp x.1) (Scalar.ofF x.2.2.1) (Scalar.ofF x.2.2.2))
      (Spec.memberShow O (sp x.1) (Scalar.ofF x.2.2.1) (Scalar.ofF x.2.2.2)) (Spec.Attempt.fresh O i V) [] []

/-! ## The algorithms -/

/-- The answer to the bytes of a presentation, from the answers of the hash. -/
def Spec.judge (b : Bytes) (a a' : Spec.Answer) : Res CredentialError G := do
  let p ← SignalCredentialPresentation.fromBytes b
  if Scalar.fromWide a.1 = p.presentation.proof.challenge then
    if Scalar.fromWide a'.1 = p.rosterMembershipProof.challenge then .ok p.rosterEntryCommitment
    else .err .verificationFailure
  else .err .macVerification

/-- The first query, up to the secret key. -/
def Spec.showSketch (sp : SystemParameters G) (X : G) (p : CredentialPresentation G) : Spec.Sketch G :=
  let P := p.rerandomizedNonce
  let C := p.attributesBlinded.headD 0
  let c := p.proof.challenge.val
  let r := p.proof.responses
  [.known (.init "AEONFLUX SHOW"), .known (.commit "domain-sep" (ascii "valid_credential")),
    .known (.commit "B" (enc sp.g)), .known (.commit "A" (enc sp.h)), .known (.commit "X0" (enc X)),
    .known (.commit "P" (enc P)), .form "V" P C (-p.rerandomizedMacCommitment), .known (.commit "Cm0" (enc C)),
    .known (.commit "com Cm0" (enc (r.m0.val • P + r.z0.val • sp.h - c • C))),
    .form "com V" (-c • P) (-c • C) (r.z0.val • X + r.minus_zQ.val • sp.h + c • p.rerandomizedMacCommitment)]

/-- The two queries, up to the secret key. -/
def Spec.checkSketch (sp : SystemParameters G) (X : G) (b : Bytes) (n : ℕ) : Spec.Sketch G :=
  match SignalCredentialPresentation.fromBytes (G := G) b with
  | .ok p => if n = 0 then Spec.showSketch sp X p.presentation else .of (Spec.rosterQuery sp p)
  | _ => []

/-- Runs an adversary whose presentations get checked, as `Spec.Onlooker.deputy`. -/
def Spec.Applicant.deputy (sp : SystemParameters G) (X : G) (m₁ : Scalar) (tag : Tag G) :
    Spec.Applicant G Out → Spec.SketchLog G → (ℕ → Spec.ShowCoins) → Spec.Prober G Out
  | .out o, _, _ => .out o
  | .ask t next, u, c => .ask (.of t) fun a => Spec.SketchLog.find .test u (.of t) fun r =>
    (next (r.getD a)).deputy sp X m₁ tag (u ++ [(.of t, r.getD a)]) c
  | .issue m next, u, c => .issue m fun x => (next x).deputy sp X m₁ tag u c
  | .watch w next, u, c =>
    let d := (c 0).1
    let P := d.2.1 • tag.nonce
    let C := m₁.val • P + d.1 • sp.h
    let D := w.m.val • sp.h + w.r.val • sp.g
    let p : ValidCredential.Publics G := ⟨sp.g, sp.h, X, P, d.1 • X - d.2.2 • sp.h, C⟩
    let p' : CommittedValuesEqual.Publics G := ⟨sp.g, sp.h, P, C, D⟩
    let ρ := ValidCredential.randOf (c 0).2.1
    let π' : CommittedValuesEqual.Proof := ⟨Scalar.fromWide (c 0).2.2.1.1, CommittedValuesEqual.respOf (c 0).2.2.2⟩
    .ask (.of (ValidCredential.verifyTranscript [.init "AEONFLUX SHOW"] p (ValidCredential.commitmentsOf p ρ))) fun a =>
      let π : ValidCredential.Proof := ⟨Scalar.fromWide a.1,
        ValidCredential.respond (Scalar.fromWide a.1) ⟨m₁, Scalar.ofF d.1, -Scalar.ofF d.2.2⟩ ρ⟩
      (next ⟨D, ⟨d.2.1 • tag.mac + d.2.2 • sp.h, P, [], [C], π⟩, π'⟩).deputy sp X m₁ tag
        (u ++ [(.of (CommittedValuesEqual.verifyTranscript [.init "SIGNAL GROUP MEMBERSHIP"] p'
          (CommittedValuesEqual.recommit p' π')), (c 0).2.2.1)]) fun k => c (k + 1)
  | .submit b next, u, c =>
    let s := Spec.checkSketch sp X b 0
    let s' := Spec.checkSketch sp X b 1
    .ask s fun a => Spec.SketchLog.find .test u s fun r => .ask s' fun a' =>
      Spec.SketchLog.find .test (u ++ [(s, r.getD a)]) s' fun r' =>
        (next (Spec.judge b (r.getD a) (r'.getD a'))).deputy sp X m₁ tag
          (u ++ [(s, r.getD a)] ++ [(s', r'.getD a')]) c

/-- The adversary that does not watch: it gets `m₁` issued and runs the one that watches. -/
def Spec.prober (m₁ : Scalar) (A : Spec.Applicant G Out) (sp : SystemParameters G) (X : G) (c : ℕ → Spec.ShowCoins) :
    Spec.Prober G Out :=
  .issue m₁ fun x => A.deputy sp X m₁ x.credential.mac [] c

/-- Their coins are those of the adversaries that watch, and coins for at most `T` presentations. -/
noncomputable def Spec.probers {Ω : Type} (m₁ : Scalar) (A : SystemParameters G → G → Ω → Spec.Applicant G Out) (T : ℕ) :
    SystemParameters G → G → Ω × (Fin T → Spec.ShowCoins) → Spec.Prober G Out :=
  fun sp X ω => Spec.prober m₁ (A sp X ω.1) sp X (Spec.stretch ω.2)

/-- The adversary together with an issuer with the given key, for `Spec.finder`, which chooses the key itself. -/
def Spec.Applicant.served (i : Issuer G) : Spec.Applicant G Out → Spec.Onlooker G Out
  | .out o => .out o
  | .ask t next => .ask t fun a => (next a).served i
  | .issue m next => .issue m fun c => (next c).served i
  | .watch w next => .watch w fun p => (next p).served i
  | .submit b next => .ask (Spec.checkQuery i b 0) fun a => .ask (Spec.checkQuery i b 1) fun a' =>
      (next (Spec.judge b a a')).served i

set_option synthInstance.maxSize 1000 in
open Classical in
/-- The probability that `Spec.finder` finds the logarithm. It chooses the secret key, and does not need `h`'s
logarithm for this. -/
noncomputable def Spec.applicantFinds {S Ω : Type} [Fintype S] [Fintype Ω] (sp : S → SystemParameters G)
    (A : SystemParameters G → G → Ω → Spec.Applicant G Spec.Attempt) (T : ℕ) : ℚ :=
  Spec.mean fun x : S × Ω × F × F => Spec.mean fun s : (Fin (T + 2) → Spec.RunCell) × (Fin (T + 2) → Spec.RunCell) =>
    if ∃ y ∈ Spec.finder (sp x.1) x.2.2.1 x.2.2.2
        ((A (sp x.1) (x.2.2.2 • (sp x.1).h) x.2.1).served (Spec.issuerOf (sp x.1) x.2.2.1 x.2.2.2))
        (Spec.stretch s.1) (Spec.stretch s.2), (sp x.1).h = y • (sp x.1).g then 1 else 0

/-! ## They do what they should -/

namespace Applicant

/-- The answer depends on the two answers of the hash only. -/
theorem reply_eq (O : Oracle) (sp : SystemParameters G) (x0 x1 : F) (b : Bytes) (a a' : Spec.Answer)
    (h0 : O.chal (Spec.checkQuery (Spec.issuerOf sp x0 x1) b 0) "chal" 64 = a.1)
    (h1 : O.chal (Spec.checkQuery (Spec.issuerOf sp x0 x1) b 1) "chal" 64 = a'.1) :
    Spec.reply O (Spec.issuerOf sp x0 x1) b = Spec.judge b a a' := by
  unfold Spec.reply Spec.judge
  unfold Spec.checkQuery Spec.Attempt.query at h0 h1
  dsimp only at h0 h1
  cases hb : SignalCredentialPresentation.fromBytes (G := G) b with
  | err e => rfl
  | panic => rfl
  | ok p =>
    rw [hb] at h0 h1
    simp only [Spec.onDecoded, if_true, Nat.one_ne_zero, if_false] at h0 h1
    obtain ⟨Cm, rest, ho, -⟩ := (C10_ok_iff _ p).1 hb
    obtain ⟨o1, o2, -⟩ := ho.1
    obtain ⟨R', ⟨CQ, P, as, Cs, r⟩, t⟩ := p
    dsimp only at o1 o2
    subst o1 o2
    have hv := (C76_verify O (Spec.issuerOf sp x0 x1) ⟨CQ, P, [], [Cm], r⟩).2 (X := x1 • sp.h) (C := Cm) (Xs := [])
      (Cs := []) rfl rfl (Nat.zero_le _) le_rfl
    have e0 : ValidCredential.verify O [.init "AEONFLUX SHOW"] r
        (Spec.presentationPublics (Spec.issuerOf sp x0 x1) ⟨CQ, P, [], [Cm], r⟩ (x1 • sp.h) Cm) =
        decide (Scalar.fromWide a.1 = r.challenge) := by
      rw [ValidCredential.verify, getChallenge, ← h0]
      rfl
    have e1 : ∀ D, SignalIssuer.verifyRosterMembership O ⟨Spec.issuerOf sp x0 x1⟩ ⟨⟨R', ⟨CQ, P, [], [Cm], r⟩, t⟩⟩ = D →
        (if Scalar.fromWide a'.1 = t.challenge then Res.ok R' else .err .verificationFailure) = D := by
      rintro D rfl
      rw [verifyRoster_one, CommittedValuesEqual.verify, getChallenge, ← h1]
      simp only [decide_eq_true_eq]
      rfl
    simp only [Res.ok_bind, SignalIssuer.verify, hv, e0, decide_eq_true_eq]
    split
    · simp only [Res.ok_bind]
      exact (e1 _ rfl).symm
    · rfl

theorem checkQuery_ne (i : Issuer G) {b : Bytes} {p : SignalCredentialPresentation G}
    (h : SignalCredentialPresentation.fromBytes b = .ok p) : Spec.checkQuery i b 1 ≠ Spec.checkQuery i b 0 := by
  unfold Spec.checkQuery Spec.Attempt.query
  rw [h]
  intro e
  have e' : (Op.init "SIGNAL GROUP MEMBERSHIP") = .init "AEONFLUX SHOW" := List.head_eq_of_cons_eq e
  exact absurd e' (by decide)

theorem reply_oracle (O : Oracle) (sp : SystemParameters G) (x0 x1 : F) (b : Bytes) (a a' : Spec.Answer) :
    Spec.reply (Spec.HashLog.oracle O [(Spec.checkQuery (Spec.issuerOf sp x0 x1) b 0, a),
      (Spec.checkQuery (Spec.issuerOf sp x0 x1) b 1, a')]) (Spec.issuerOf sp x0 x1) b = Spec.judge b a a' := by
  cases hb : SignalCredentialPresentation.fromBytes (G := G) b with
  | err e => simp [Spec.reply, Spec.judge, hb]
  | panic => simp [Spec.reply, Spec.judge, hb]
  | ok p =>
    refine reply_eq _ sp x0 x1 b a a' (Reduction.oracle_chal (by simp)) (Reduction.oracle_chal ?_)
    rw [List.lookup_cons, beq_eq_false_iff_ne.2 (checkQuery_ne _ hb)]
    simp

theorem checks_eq (O : Oracle) (sp : SystemParameters G) (x0 x1 : F) (A : Spec.Applicant G Out) :
    A.checks O (Spec.issuerOf sp x0 x1) = A.served (Spec.issuerOf sp x0 x1) := by
  induction A with
  | out o => rfl
  | ask t next ih => simp only [Spec.Applicant.checks, Spec.Applicant.served, ih]
  | issue m next ih => simp only [Spec.Applicant.checks, Spec.Applicant.served, ih]
  | watch w next ih => simp only [Spec.Applicant.checks, Spec.Applicant.served, ih]
  | submit b next ih =>
    simp only [Spec.Applicant.checks, Spec.Applicant.served, ih]
    congr 1
    funext a
    congr 1
    funext a'
    rw [reply_oracle]

theorem showSketch_resolve (sp : SystemParameters G) (x0 x1 : F) {p : CredentialPresentation G} {C : G}
    (h1 : p.attributesRevealed = []) (h2 : p.attributesBlinded = [C]) :
    Spec.Sketch.resolve x0 x1 (Spec.showSketch sp (x1 • sp.h) p) = Spec.showQuery (Spec.issuerOf sp x0 x1) p := by
  obtain ⟨CQ, P, as, Cs, r⟩ := p
  dsimp only at h1 h2
  subst h1 h2
  have e0 : Spec.presentationPublics (Spec.issuerOf sp x0 x1) ⟨CQ, P, [], [C], r⟩ (x1 • sp.h) C =
      ⟨sp.g, sp.h, x1 • sp.h, P, x0 • P + x1 • C - CQ, C⟩ := by
    simp [Spec.presentationPublics, Spec.dot, Spec.issuerOf]
  have e1 : ValidCredential.recommit ⟨sp.g, sp.h, x1 • sp.h, P, x0 • P + x1 • C - CQ, C⟩ r =
      ⟨r.responses.m0.val • P + r.responses.z0.val • sp.h - r.challenge.val • C,
        x0 • (-r.challenge.val • P) + x1 • (-r.challenge.val • C) +
          (r.responses.z0.val • x1 • sp.h + r.responses.minus_zQ.val • sp.h + r.challenge.val • CQ)⟩ := by
    have neg : (-r.challenge).val = -r.challenge.val := by simp
    simp only [ValidCredential.recommit, msm, List.zipWith_cons_cons, List.zipWith_nil_left, List.sum_cons, List.sum_nil,
      Scalar.smul_def, neg]
    congr 1 <;> module
  show _ = (Spec.Query.validCredential "AEONFLUX SHOW" (Spec.presentationPublics (Spec.issuerOf sp x0 x1)
    ⟨CQ, P, [], [C], r⟩ (x1 • sp.h) C) (ValidCredential.recommit (Spec.presentationPublics (Spec.issuerOf sp x0 x1)
    ⟨CQ, P, [], [C], r⟩ (x1 • sp.h) C) r)).ops
  rw [e0, e1, sub_eq_add_neg]
  rfl

theorem checkSketch_resolve (sp : SystemParameters G) (x0 x1 : F) (b : Bytes) (n : ℕ) :
    Spec.Sketch.resolve x0 x1 (Spec.checkSketch sp (x1 • sp.h) b n) = Spec.checkQuery (Spec.issuerOf sp x0 x1) b n := by
  unfold Spec.checkSketch Spec.checkQuery Spec.Attempt.query Spec.onDecoded
  dsimp only
  cases hb : SignalCredentialPresentation.fromBytes (G := G) b with
  | err e => rfl
  | panic => rfl
  | ok p =>
    obtain ⟨Cm, rest, ho, -⟩ := (C10_ok_iff _ p).1 hb
    obtain ⟨o1, o2, -⟩ := ho.1
    dsimp only
    split
    · exact showSketch_resolve sp x0 x1 o1 o2
    · exact Sketch.resolve_of x0 x1 _

open Sketch in
theorem deputy_settle {sp : SystemParameters G} {x0 x1 : F} {m₁ : Scalar} {tag : Tag G} (A : Spec.Applicant G Out) :
    ∀ (u : Spec.SketchLog G) (c : ℕ → Spec.ShowCoins),
      settle x0 x1 (A.deputy sp (x1 • sp.h) m₁ tag u c) =
        (A.served (Spec.issuerOf sp x0 x1)).deputy sp (x1 • sp.h) m₁ tag (Spec.SketchLog.resolve x0 x1 u) c := by
  induction A with
  | out o => intro u c; rfl
  | ask t next ih =>
    intro u c
    rw [Spec.Applicant.deputy, settle, Spec.Applicant.served, Spec.Onlooker.deputy, resolve_of]
    congr 1
    funext a
    rw [find_eq (answered_prober x0 x1), ih, resolve_append, resolve_of]
    simp only [Spec.SketchLog.resolve, List.map_cons, List.map_nil, resolve_of]
  | issue m next ih =>
    intro u c
    rw [Spec.Applicant.deputy, settle, Spec.Applicant.served, Spec.Onlooker.deputy]
    congr 1
    funext x
    exact ih x u c
  | watch w next ih =>
    intro u c
    rw [Spec.Applicant.deputy, Spec.Applicant.served, Spec.Onlooker.deputy]
    dsimp only
    rw [settle, resolve_of]
    congr 1
    funext a
    rw [ih, resolve_append]
    simp only [Spec.SketchLog.resolve, List.map_cons, List.map_nil, resolve_of]
  | submit b next ih =>
    intro u c
    rw [Spec.Applicant.deputy, Spec.Applicant.served, Spec.Onlooker.deputy, settle, checkSketch_resolve]
    congr 1
    funext a
    rw [find_eq (answered_prober x0 x1), settle, Spec.Onlooker.deputy, checkSketch_resolve, checkSketch_resolve]
    congr 1
    funext a'
    rw [find_eq (answered_prober x0 x1), ih, resolve_append, resolve_append, checkSketch_resolve]
    simp only [Spec.SketchLog.resolve, List.map_cons, List.map_nil, List.map_append, checkSketch_resolve]

theorem served_within {i : Issuer G} (A : Spec.Applicant G Out) :
    ∀ n, A.Within n → (A.served i).Within n := by
  induction A with
  | out o => exact fun _ _ => trivial
  | ask t next ih => rintro _ ⟨n, rfl, h⟩; exact ⟨n, rfl, fun a => ih a n (h a)⟩
  | issue m next ih => rintro _ ⟨n, rfl, h⟩; exact ⟨n, rfl, fun a => ih a n (h a)⟩
  | watch w next ih => rintro _ ⟨n, rfl, h⟩; exact ⟨n, rfl, fun a => ih a n (h a)⟩
  | submit b next ih => rintro _ ⟨n, rfl, h⟩; exact ⟨n + 1, rfl, fun a => ⟨n, rfl, fun a' => ih _ n (h _)⟩⟩

theorem served_avoids {i : Issuer G} {V : Set F} (A : Spec.Applicant G Out) : A.Avoids V → (A.served i).Avoids V := by
  induction A with
  | out o => exact fun _ => trivial
  | ask t next ih => exact fun h a => ih a (h a)
  | issue m next ih => exact fun h => ⟨h.1, fun a => ih a (h.2 a)⟩
  | watch w next ih => exact fun h a => ih a (h a)
  | submit b next ih => exact fun h a a' => ih _ (h _)

/-- The adversary with the key. -/
def keyed {Ω : Type} (A : SystemParameters G → G → Ω → Spec.Applicant G Out) :
    SystemParameters G → F × F → Ω → Spec.Onlooker G Out :=
  fun sp k ω => (A sp (k.2 • sp.h) ω).served (Spec.issuerOf sp k.1 k.2)

theorem wins_eq {S Ω : Type} [Fintype S] [Fintype Ω] (O : Oracle) (sp : S → SystemParameters G)
    (A : SystemParameters G → G → Ω → Spec.Applicant G Spec.Attempt) (V : Set F) :
    Spec.applicantWins O sp A V = Onlooker.wins O sp (keyed A) V := by
  unfold Spec.applicantWins Onlooker.wins
  refine Sim.mean_congr fun x => ?_
  dsimp only
  rw [checks_eq]
  rfl

theorem prober_settle {sp : SystemParameters G} {x0 x1 : F} {m₁ : Scalar} (A : Spec.Applicant G Out)
    (c : ℕ → Spec.ShowCoins) : Sketch.settle x0 x1 (Spec.prober m₁ A sp (x1 • sp.h) c) =
      Spec.deputy m₁ (A.served (Spec.issuerOf sp x0 x1)) sp (x1 • sp.h) c := by
  rw [Spec.prober, Spec.deputy, Sketch.settle]
  congr 1
  funext x
  exact deputy_settle A [] c

theorem testerWins_eq {S Ω : Type} [Fintype S] [Fintype Ω] (sp : S → SystemParameters G)
    (A : SystemParameters G → G → Ω → Spec.Applicant G Spec.Attempt) (V : Set F) (m₁ : Scalar) (T T' : ℕ) :
    Spec.testerWins sp (Spec.probers m₁ A T) V T' = Reduction.forges sp (Onlooker.deputies m₁ (keyed A) T) V T' := by
  rw [Sketch.testerWins_eq]
  congr 1
  funext sp k ω
  exact prober_settle _ _

omit [AddCommGroup G] [Module F G] [Ristretto G] in
theorem small_append {l : Spec.SketchLog G} {s : Spec.Sketch G} (a : Spec.Answer) (hl : ∀ e ∈ l, Sketch.forms e.1 ≤ 2)
    (hs : Sketch.forms s ≤ 2) : ∀ e ∈ l ++ [(s, a)], Sketch.forms e.1 ≤ 2 := by
  intro e he
  rcases List.mem_append.1 he with he | he
  · exact hl e he
  · rw [List.mem_singleton.1 he]
    exact hs

theorem checkSketch_forms (sp : SystemParameters G) (X : G) (b : Bytes) (n : ℕ) :
    Sketch.forms (Spec.checkSketch sp X b n) ≤ 2 := by
  unfold Spec.checkSketch
  split
  · split
    · exact le_rfl
    · rw [Sketch.forms_of]
      omega
  · exact Nat.zero_le _

open Sketch in
theorem deputy_within {sp : SystemParameters G} {X : G} {m₁ : Scalar} {tag : Tag G} (A : Spec.Applicant G Out) :
    ∀ (u : Spec.SketchLog G) (c : ℕ → Spec.ShowCoins) (n : ℕ), (∀ e ∈ u, forms e.1 ≤ 2) → A.Within n →
      Within (A.deputy sp X m₁ tag u c) n (4 * n * (u.length + n)) := by
  have cost : ∀ {u : Spec.SketchLog G} {s : Spec.Sketch G} {k : Option Spec.Answer → Spec.Prober G Out} {n m : ℕ},
      (∀ e ∈ u, forms e.1 ≤ 2) → forms s ≤ 2 → (∀ r, Within (k r) n m) →
      Within (Spec.SketchLog.find .test u s k) n (m + 4 * u.length) := fun {u s k n m} hu hs hk =>
    find_cost (test := Spec.Prober.test) (Cost := fun B m => Within B n m)
      (fun B m m' hm hB => within_mono B _ _ _ _ le_rfl hm hB) (fun U C W k m hk => ⟨m, rfl, hk⟩) hk hs u hu
  have of : ∀ t, forms (Spec.Sketch.of (G := G) t) ≤ 2 := fun t => by rw [forms_of]; omega
  induction A with
  | out o => exact fun _ _ _ _ _ => trivial
  | ask t next ih =>
    rintro u c _ hu ⟨n, rfl, h⟩
    refine ⟨of t, n, rfl, fun a => within_mono _ n _ _ _ le_rfl ?_ (cost (m := 4 * n * (u.length + 1 + n)) hu (of t)
      fun r => ?_)⟩
    · nlinarith
    · have := ih (r.getD a) (u ++ [(.of t, r.getD a)]) c n (small_append _ hu (of t)) (h _)
      rwa [List.length_append, List.length_singleton] at this
  | issue m next ih =>
    rintro u c _ hu ⟨n, rfl, h⟩
    exact ⟨n, rfl, fun x => within_mono _ _ _ _ _ le_rfl (by nlinarith) (ih x u c n hu (h x))⟩
  | watch w next ih =>
    rintro u c _ hu ⟨n, rfl, h⟩
    refine ⟨of _, n + 1, rfl, fun a => ?_⟩
    refine within_mono _ n _ _ _ (by omega) ?_ (ih _ _ _ n (small_append _ hu (of _)) (h _))
    rw [List.length_append, List.length_singleton]
    nlinarith
  | submit b next ih =>
    rintro u c _ hu ⟨n, rfl, h⟩
    have hs := checkSketch_forms sp X b
    refine ⟨hs 0, n + 1, rfl, fun a => within_mono _ (n + 1) _ _ _ le_rfl ?_ (cost
      (m := 4 * n * (u.length + 2 + n) + 4 * (u.length + 1)) hu (hs 0) fun r => ⟨hs 1, n, rfl, fun a' =>
        within_mono _ n _ _ _ le_rfl (le_of_eq ?_) (cost (m := 4 * n * (u.length + 2 + n)) (small_append _ hu (hs 0)) (hs 1)
          fun r' => ?_)⟩)⟩
    · nlinarith
    · rw [List.length_append, List.length_singleton]
    · have := ih (Spec.judge b (r.getD a) (r'.getD a')) (u ++ [(Spec.checkSketch sp X b 0, r.getD a)] ++
        [(Spec.checkSketch sp X b 1, r'.getD a')]) c n (small_append _ (small_append _ hu (hs 0)) (hs 1)) (h _)
      rwa [List.length_append, List.length_append, List.length_singleton, List.length_singleton] at this

end Applicant

/-! ## C96 -/

/-- **C96.** For every way to choose parameters (with `g` and `h` not the identity), and every algorithm that, with at
most `T` hash queries in all, asks the hash, gets numbers outside `V` issued, watches honest users with any numbers
present, and has any bytes checked by the issuer: if `Spec.tester`, which gets MACs on the numbers that were issued
and may test equations in the key, forges a MAC on a number in `V` or finds the logarithm of `h` to the base `g` with
probability at most `t³/(128(T+3)⁴)`, and `Spec.finder` finds the logarithm with probability at most `u²/(4(T+2))`,
then the adversary is accepted for a roster entry for a number in `V`, without repeating a presentation that it saw,
with probability at most `t + u + 4(T+3)²/ℓ + 10(T+3)·2⁻²⁵²`. -/
theorem C96_bound {S Ω : Type} [Fintype S] [Nonempty S] [Fintype Ω] [Nonempty Ω] (O : Oracle)
    (sp : S → SystemParameters G) (hg : ∀ σ, (sp σ).g ≠ 0) (hh : ∀ σ, (sp σ).h ≠ 0)
    (A : SystemParameters G → G → Ω → Spec.Applicant G Spec.Attempt) (V : Set F) (T : ℕ)
    (hA : ∀ σ X ω, (A (sp σ) X ω).Within T) (hV : ∀ σ X ω, (A (sp σ) X ω).Avoids V) (m₁ : Scalar) (hm : m₁.val ∉ V)
    (t u : ℚ) (ht : 0 ≤ t) (hu : 0 ≤ u)
    (hf : Spec.testerWins sp (Spec.probers m₁ A T) V (T + 1) ≤ t ^ 3 / (128 * (T + 3) ^ 4))
    (hl : Spec.applicantFinds sp A T ≤ u ^ 2 / (4 * (T + 2))) :
    Spec.applicantWins O sp A V ≤ t + u + 4 * (T + 3) ^ 2 / ell + 10 * (T + 3) / 2 ^ 252 := by
  rw [Applicant.wins_eq]
  rw [Applicant.testerWins_eq] at hf
  exact Onlooker.bound O sp hg hh (Applicant.keyed A) V T (fun σ k ω => Applicant.served_within _ T (hA σ _ ω))
    (fun σ k ω => Applicant.served_avoids _ (hV σ _ ω)) m₁ hm t u ht hu hf hl

/-- **C96**: the answer to submitted bytes depends on the hash at the two queries only, which is why the game of C96
lets the issuer make these two queries. -/
theorem C96_reply (O O' : Oracle) (sp : SystemParameters G) (x0 x1 : F) (b : Bytes)
    (h : ∀ n, n = 0 ∨ n = 1 → O.chal (Spec.checkQuery (Spec.issuerOf sp x0 x1) b n) "chal" 64 =
      O'.chal (Spec.checkQuery (Spec.issuerOf sp x0 x1) b n) "chal" 64) :
    Spec.reply O (Spec.issuerOf sp x0 x1) b = Spec.reply O' (Spec.issuerOf sp x0 x1) b := by
  rw [Applicant.reply_eq O sp x0 x1 b ⟨_, O.chal_length _ _ _⟩ ⟨_, O.chal_length _ _ _⟩ rfl rfl,
    Applicant.reply_eq O' sp x0 x1 b ⟨_, O'.chal_length _ _ _⟩ ⟨_, O'.chal_length _ _ _⟩ rfl rfl]
  congr 1
  · exact Subtype.ext (h 0 (.inl rfl))
  · exact Subtype.ext (h 1 (.inr rfl))

/-- For instance, another answer to something else does not matter. -/
example (O : Oracle) (sp : SystemParameters G) (x0 x1 : F) (b : Bytes) (a : Spec.Answer) :
    Spec.reply (Spec.HashLog.oracle O [([.init "AEONFLUX ISSUE"], a)]) (Spec.issuerOf sp x0 x1) b =
      Spec.reply O (Spec.issuerOf sp x0 x1) b := by
  refine C96_reply _ _ sp x0 x1 b fun n _ => ?_
  have h : (Spec.checkQuery (Spec.issuerOf sp x0 x1) b n == [.init "AEONFLUX ISSUE"]) = false := by
    rw [beq_eq_false_iff_ne]
    unfold Spec.checkQuery Spec.Attempt.query Spec.onDecoded
    dsimp only
    intro e
    split at e
    · split at e
      · have e' : (Op.init "AEONFLUX SHOW") = .init "AEONFLUX ISSUE" := List.head_eq_of_cons_eq e
        exact absurd e' (by decide)
      · have e' : (Op.init "SIGNAL GROUP MEMBERSHIP") = .init "AEONFLUX ISSUE" := List.head_eq_of_cons_eq e
        exact absurd e' (by decide)
    · cases e
  simp [Spec.HashLog.oracle, List.lookup_cons, h]

/-- An adversary without submissions. -/
def Spec.Onlooker.shy : Spec.Onlooker G Out → Spec.Applicant G Out
  | .out o => .out o
  | .ask t next => .ask t fun a => (next a).shy
  | .issue m next => .issue m fun c => (next c).shy
  | .watch w next => .watch w fun p => (next p).shy

/-- **C96**: the game includes that of C94. -/
theorem C96_includes {S Ω : Type} [Fintype S] [Fintype Ω] (O : Oracle) (sp : S → SystemParameters G)
    (A : SystemParameters G → G → Ω → Spec.Onlooker G Spec.Attempt) (V : Set F) :
    Spec.applicantWins O sp (fun sp X ω => (A sp X ω).shy) V = Spec.onlookerWins O sp A V := by
  have e : ∀ (i : Issuer G) (B : Spec.Onlooker G Spec.Attempt), B.shy.checks O i = B := by
    intro i B
    induction B with
    | out o => rfl
    | ask t next ih => simp only [Spec.Onlooker.shy, Spec.Applicant.checks, ih]
    | issue t next ih => simp only [Spec.Onlooker.shy, Spec.Applicant.checks, ih]
    | watch t next ih => simp only [Spec.Onlooker.shy, Spec.Applicant.checks, ih]
  unfold Spec.applicantWins Spec.onlookerWins
  refine Sim.mean_congr fun x => ?_
  dsimp only
  rw [e]

/-- **C96**: the algorithm of `C96_bound` makes at most `3(T+1)` requests for tags, and at most `24(T+1)²` tests. -/
theorem C96_cost (sp : SystemParameters G) (X : G) (A : Spec.Applicant G Spec.Attempt) (T : ℕ) (hA : A.Within T)
    (m₁ : Scalar) (d : ℕ → Spec.ShowCoins) (j j' : ℕ) (c c' c'' : ℕ → Spec.Cell) :
    (Spec.tester sp X (Spec.prober m₁ A sp X d) j j' c c' c'').Within (3 * (T + 1)) (24 * (T + 1) ^ 2) := by
  have h : Sketch.Within (Spec.prober m₁ A sp X d) (T + 1) (4 * T * (0 + T)) :=
    ⟨T, rfl, fun x => Applicant.deputy_within A [] d T (by simp) hA⟩
  exact Sketch.tester_mono _ _ _ _ _ le_rfl (by nlinarith) (Sketch.tester_within sp X h j j' c c' c'')

/-- An adversary that gets 7 issued, watches somebody with the number 8 and has what it saw checked. -/
example : let A : Spec.Applicant F Spec.Attempt := .issue ⟨7, by decide +kernel⟩ fun _ =>
      .watch ⟨⟨8, by decide +kernel⟩, ⟨3, by decide +kernel⟩, 1, one_ne_zero⟩ fun p => .submit p.toBytes fun r =>
        match r with
        | .ok _ => .out ⟨8, 3, p.toBytes⟩
        | _ => .out ⟨8, 0, []⟩
    A.Within 5 ∧ A.Avoids {8} := by
  refine ⟨⟨4, rfl, fun _ => ⟨2, rfl, fun _ => ⟨0, rfl, fun r => ?_⟩⟩⟩, ?_, fun _ _ r => ?_⟩
  · dsimp only
    split <;> trivial
  · rw [Set.mem_singleton_iff]
    decide +kernel
  · dsimp only
    split <;> trivial

set_option synthInstance.maxSize 1000 in
/-- An adversary that has the empty sequence of bytes checked and then claims nothing. With `t = u = 0` it satisfies
the hypotheses of `C96_bound`. -/
example : let A : SystemParameters F → F → Unit → Spec.Applicant F Spec.Attempt :=
      fun _ _ _ => .submit [] fun _ => .out ⟨8, 0, []⟩
    (∀ X ω, (A ⟨1, 4⟩ X ω).Within 2 ∧ (A ⟨1, 4⟩ X ω).Avoids {8}) ∧
    Spec.testerWins (fun _ : Unit => (⟨1, 4⟩ : SystemParameters F)) (Spec.probers ⟨7, by decide +kernel⟩ A 2) {8} 3 ≤
      0 ^ 3 / (128 * ((2 : ℕ) + 3) ^ 4) ∧
    Spec.applicantFinds (fun _ : Unit => (⟨1, 4⟩ : SystemParameters F)) A 2 ≤ 0 ^ 2 / (4 * ((2 : ℕ) + 2)) := by
  intro A
  have hp : Spec.Attempt.presentation F ⟨8, 0, []⟩ = none := by
    unfold Spec.Attempt.presentation
    rfl
  refine ⟨fun X ω => ⟨⟨0, rfl, fun _ => trivial⟩, fun _ => trivial⟩, ?_, ?_⟩
  · have drive : ∀ (X : F) (c : ℕ → Spec.ShowCoins) (x0 x1 : F) (cells : ℕ → Spec.Cell) (old : ℕ → Option (Tag F))
        (k : Spec.Attempt → Spec.HashLog → (ℕ → Option (Tag F)) → Spec.Forger F),
        (∀ l got, (k ⟨8, 0, []⟩ l got).wins ⟨1, 4⟩ x0 x1 {8} = 0) → ∀ l got,
        ((Spec.deputy ⟨7, by decide +kernel⟩ ((A ⟨1, 4⟩ X ()).served (Spec.issuerOf ⟨1, 4⟩ x0 x1)) ⟨1, 4⟩ X c).drive
          ⟨1, 4⟩ X cells old k l got).wins ⟨1, 4⟩ x0 x1 {8} = 0 := by
      intro X c x0 x1 cells old k hk l got
      unfold Spec.deputy
      rw [Spec.Impostor.drive]
      dsimp only
      split
      · exact hk _ _
      · rw [Spec.Forger.wins]
        split
        · rfl
        · exact (Sim.mean_congr fun b => hk _ _).trans (Sim.mean_const (α := F) 0)
    have e : Spec.testerWins (fun _ : Unit => (⟨1, 4⟩ : SystemParameters F))
        (Spec.probers ⟨7, by decide +kernel⟩ A 2) {8} 3 = 0 := by
      rw [Applicant.testerWins_eq]
      unfold Reduction.forges
      refine (Sim.mean_congr fun x => ?_).trans (Sim.mean_const 0)
      refine (Sim.mean_congr fun j => ?_).trans (Sim.mean_const 0)
      refine (Sim.mean_congr fun c => ?_).trans (Sim.mean_const 0)
      refine drive _ _ _ _ _ _ _ (fun _ _ => drive _ _ _ _ _ _ _ (fun _ _ => drive _ _ _ _ _ _ _ (fun _ _ => ?_) _ _) _ _) _ _
      rw [hp, Spec.Forger.wins, if_neg]
      decide +kernel
    rw [e]
    norm_num
  · have e : Spec.applicantFinds (fun _ : Unit => (⟨1, 4⟩ : SystemParameters F)) A 2 = 0 := by
      unfold Spec.applicantFinds
      refine (Sim.mean_congr fun x => ?_).trans (Sim.mean_const 0)
      refine (Sim.mean_congr fun c => ?_).trans (Sim.mean_const 0)
      rw [if_neg]
      rintro ⟨y, hy, -⟩
      unfold Spec.finder at hy
      dsimp only at hy
      have run : ∀ s : ℕ → Spec.RunCell, (Spec.Onlooker.run ⟨1, 4⟩ x.2.2.1 x.2.2.2 s (Spec.Onlooker.checked
          (Spec.issuerOf ⟨1, 4⟩ x.2.2.1 x.2.2.2) ((A ⟨1, 4⟩ (x.2.2.2 • 4) x.2.1).served
            (Spec.issuerOf ⟨1, 4⟩ x.2.2.1 x.2.2.2))) [] []).1.presentation F = none :=
        fun s => hp
      rw [run] at hy
      cases hy
    rw [e]
    norm_num

end Verif
