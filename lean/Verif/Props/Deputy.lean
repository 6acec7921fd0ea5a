import Verif.Props.Watching

/-!
# Adversaries that also watch presentations (C94): without watching

An adversary that watches is turned into one that does not: the presentations are made with one credential on a number
that may be issued, and the proof about the roster entry is simulated. It works as long as the claim does not use the
hash query of such a simulated proof.
-/

set_option maxRecDepth 100000

namespace Verif

open Amacs

variable {G : Type} [AddCommGroup G] [Module F G] [Ristretto G] {Out : Type}

/-! ## The adversary without watching -/

/-- Coins for one presentation: three blinding values, the randomness of the first proof, and the answer of the hash and
responses of the second. -/
abbrev Spec.ShowCoins := (F × F × F) × (F × F × F) × Spec.Answer × (F × F × F)

/-- Runs an adversary that watches. `u` are the hash queries that it made or that were fixed for it. Presentations use
the credential `tag` on `m₁`, and fix an answer of the hash. -/
def Spec.Onlooker.deputy (sp : SystemParameters G) (X : G) (m₁ : Scalar) (tag : Tag G) :
    Spec.Onlooker G Out → Spec.HashLog → (ℕ → Spec.ShowCoins) → Spec.Impostor G Out
  | .out o, _, _ => .out o
  | .ask t next, u, c => .ask t fun a =>
    (next ((u.lookup t).getD a)).deputy sp X m₁ tag (u ++ [(t, (u.lookup t).getD a)]) c
  | .issue m next, u, c => .issue m fun x => (next x).deputy sp X m₁ tag u c
  | .watch w next, u, c =>
    let d := (c 0).1
    let P := d.2.1 • tag.nonce
    let C := m₁.val • P + d.1 • sp.h
    let D := w.m.val • sp.h + w.r.val • sp.g
    let p : ValidCredential.Publics G := ⟨sp.g, sp.h, X, P, d.1 • X - d.2.2 • sp.h, C⟩
    let p' : CommittedValuesEqual.Publics G := ⟨sp.g, sp.h, P, C, D⟩
    let ρ := ValidCredential.randOf (c 0).2.1
    let π' : CommittedValuesEqual.Proof := ⟨Scalar.fromWide (c 0).2.2.1.1, CommittedValuesEqual.respOf (c 0).2.2.2⟩
    .ask (ValidCredential.verifyTranscript [.init "AEONFLUX SHOW"] p (ValidCredential.commitmentsOf p ρ)) fun a =>
      let π : ValidCredential.Proof := ⟨Scalar.fromWide a.1,
        ValidCredential.respond (Scalar.fromWide a.1) ⟨m₁, Scalar.ofF d.1, -Scalar.ofF d.2.2⟩ ρ⟩
      (next ⟨D, ⟨d.2.1 • tag.mac + d.2.2 • sp.h, P, [], [C], π⟩, π'⟩).deputy sp X m₁ tag
        (u ++ [(CommittedValuesEqual.verifyTranscript [.init "SIGNAL GROUP MEMBERSHIP"] p'
          (CommittedValuesEqual.recommit p' π'), (c 0).2.2.1)]) fun k => c (k + 1)

/-- The adversary that does not watch: it gets `m₁` issued and runs the one that watches. -/
def Spec.deputy (m₁ : Scalar) (A : Spec.Onlooker G Out) (sp : SystemParameters G) (X : G) (c : ℕ → Spec.ShowCoins) :
    Spec.Impostor G Out :=
  .issue m₁ fun x => A.deputy sp X m₁ x.credential.mac [] c

/-- The claim uses the hash query of the second proof of a presentation that was seen. -/
def Spec.Attempt.Echoes (i : Issuer G) (o : Spec.Attempt) (ps : List (SignalCredentialPresentation G)) : Prop :=
  ∃ p ∈ ps, Spec.rosterQuery i.systemParameters p = o.query i 1

namespace Deputy

open Watching

/-! ## Servers that sample -/

/-- A server that makes `c` queries and then answers, with finitely many equally likely outcomes. -/
def Sampled {K : Type} {Pf : K → Type} (c : ℕ) (serve : Spec.Server K Pf) : Prop :=
  ∀ x l, ∃ (Ω : Type) (_ : Fintype Ω) (_ : Nonempty Ω) (s : Ω → Spec.HashLog × Pf x),
    (∀ ω, l <+: (s ω).1 ∧ (s ω).1.length = l.length + c) ∧
    ∀ k, serve x l k = Spec.mean fun ω => k (s ω).1 (s ω).2

theorem asked_prefix (l : Spec.HashLog) (t : Transcript) (a : Spec.Answer) : l <+: l.asked t a :=
  List.prefix_append l _

/-- The query of an issuance. -/
def issueQuery (sp : SystemParameters G) (x0 x1 m : Scalar) (b z : F) (ρ : F × F × F × F) : Transcript :=
  IssuanceRevealed.zkQuery [.init "AEONFLUX ISSUANCE"] (⟨b • basepoint G, (x0.val + x1.val * m.val) • (b • basepoint G),
    x0.val • sp.g + z • sp.h, sp.g, sp.h, x1.val • sp.h⟩ : IssuanceRevealed.Publics G) ρ

/-- What an issuance is, from the answer of the hash. -/
def issueWith (sp : SystemParameters G) (x0 x1 m : Scalar) (b z : F) (ρ : F × F × F × F) (a : Spec.Answer) :
    CredentialIssuance G :=
  ⟨x0.val • sp.g + z • sp.h, ⟨⟨b • basepoint G, (x0.val + x1.val * m.val) • (b • basepoint G)⟩, [m]⟩,
    ⟨Scalar.fromWide a.1, IssuanceRevealed.respond (Scalar.fromWide a.1) ⟨x0, x1, Scalar.ofF z, m * x1⟩
      (IssuanceRevealed.randOf ρ)⟩⟩

theorem issue_step (O : Oracle) (sp : SystemParameters G) (x0 x1 m : Scalar) (l : Spec.HashLog)
    (k : Spec.HashLog → CredentialIssuance G → ℚ) :
    Spec.honestIssue O sp x0 x1 m l k = Spec.mean fun b : F => Spec.mean fun z : F => Spec.mean fun ρ : F × F × F × F =>
      Spec.mean fun a : Spec.Answer => k (l.asked (issueQuery sp x0 x1 m b z ρ) a)
        (issueWith sp x0 x1 m b z ρ ((l.lookup (issueQuery sp x0 x1 m b z ρ)).getD a)) := by
  unfold Spec.honestIssue
  refine Sim.mean_congr fun b => Sim.mean_congr fun z => Sim.mean_congr fun ρ => Sim.mean_congr fun a => ?_
  have := Sim.getChallenge_oracle (O := O) (Sim.lookup_asked l (issueQuery sp x0 x1 m b z ρ) a)
  unfold issueWith
  dsimp only
  rw [Spec.issued]
  simp only [IssuanceRevealed.createWith]
  unfold issueQuery IssuanceRevealed.zkQuery at this ⊢
  rw [this]

theorem issue_sampled (O : Oracle) (sp : SystemParameters G) (x0 x1 : Scalar) :
    Sampled 1 (Spec.honestIssue O sp x0 x1) := by
  intro m l
  refine ⟨F × F × (F × F × F × F) × Spec.Answer, inferInstance, inferInstance,
    fun ω => (Spec.HashLog.asked l (issueQuery sp x0 x1 m ω.1 ω.2.1 ω.2.2.1) ω.2.2.2,
      issueWith sp x0 x1 m ω.1 ω.2.1 ω.2.2.1 ((l.lookup (issueQuery sp x0 x1 m ω.1 ω.2.1 ω.2.2.1)).getD ω.2.2.2)),
    fun ω => ⟨asked_prefix _ _ _, Reduction.asked_length _ _ _⟩, fun k => ?_⟩
  rw [issue_step, Tagging.mean_prod]
  refine Sim.mean_congr fun b => ?_
  rw [Tagging.mean_prod]
  refine Sim.mean_congr fun z => ?_
  rw [Tagging.mean_prod (α := F × F × F × F)]

/-- The publics of the first proof. -/
def showPublics (sp : SystemParameters G) (X : G) (m : Scalar) (tag : Tag G) (d : F × F × F) : ValidCredential.Publics G :=
  ⟨sp.g, sp.h, X, d.2.1 • tag.nonce, d.1 • X - d.2.2 • sp.h, m.val • (d.2.1 • tag.nonce) + d.1 • sp.h⟩

/-- The publics of the second proof. -/
def rosterPublics (sp : SystemParameters G) (m : Scalar) (tag : Tag G) (D : G) (d : F × F × F) :
    CommittedValuesEqual.Publics G :=
  ⟨sp.g, sp.h, d.2.1 • tag.nonce, m.val • (d.2.1 • tag.nonce) + d.1 • sp.h, D⟩

/-- The query of the first proof. -/
def showQuery (sp : SystemParameters G) (X : G) (m : Scalar) (tag : Tag G) (d ρ : F × F × F) : Transcript :=
  ValidCredential.verifyTranscript [.init "AEONFLUX SHOW"] (showPublics sp X m tag d)
    (ValidCredential.commitmentsOf (showPublics sp X m tag d) (ValidCredential.randOf ρ))

/-- The presentation. -/
def showWith (sp : SystemParameters G) (m : Scalar) (tag : Tag G) (D : G) (d ρ : F × F × F) (a a' : Spec.Answer)
    (z : F × F × F) : SignalCredentialPresentation G :=
  ⟨D, ⟨d.2.1 • tag.mac + d.2.2 • sp.h, d.2.1 • tag.nonce, [], [m.val • (d.2.1 • tag.nonce) + d.1 • sp.h],
    ⟨Scalar.fromWide a.1, ValidCredential.respond (Scalar.fromWide a.1) ⟨m, Scalar.ofF d.1, -Scalar.ofF d.2.2⟩
      (ValidCredential.randOf ρ)⟩⟩, ⟨Scalar.fromWide a'.1, CommittedValuesEqual.respOf z⟩⟩

theorem half_step (O : Oracle) (sp : SystemParameters G) (X : G) (m : Scalar) (tag : Tag G) (w : Spec.Member)
    (l : Spec.HashLog) (k : Spec.HashLog → SignalCredentialPresentation G → ℚ) :
    halfShow O sp X m tag w l k = Spec.mean fun c : Spec.ShowCoins => Spec.mean fun a : Spec.Answer =>
      let p := showWith sp m tag (w.entry sp).commitment c.1 c.2.1
        ((l.lookup (showQuery sp X m tag c.1 c.2.1)).getD a) c.2.2.1 c.2.2.2
      k (l.asked (showQuery sp X m tag c.1 c.2.1) a ++ [(Spec.rosterQuery sp p, c.2.2.1)]) p := by
  rw [Tagging.mean_prod]
  unfold halfShow
  refine Sim.mean_congr fun d => ?_
  dsimp only
  rw [ValidCredential.honest_step, Tagging.mean_prod]
  unfold Sim.realStep
  refine Sim.mean_congr fun ρ => ?_
  rw [Sim.mean_comm]
  refine Sim.mean_congr fun a => ?_
  rw [Tagging.mean_prod]
  unfold Spec.CommittedValuesEqual.simulated
  refine Sim.mean_congr fun a' => Sim.mean_congr fun z => ?_
  dsimp only
  rw [ValidCredential.zkQuery_eq]
  rfl

theorem half_sampled (O : Oracle) (sp : SystemParameters G) (X : G) (m : Scalar) (tag : Tag G) :
    Sampled 2 (halfShow O sp X m tag) := by
  intro w l
  refine ⟨Spec.ShowCoins × Spec.Answer, inferInstance, inferInstance,
    fun ω =>
      let p := showWith sp m tag (w.entry sp).commitment ω.1.1 ω.1.2.1
        ((l.lookup (showQuery sp X m tag ω.1.1 ω.1.2.1)).getD ω.2) ω.1.2.2.1 ω.1.2.2.2
      (Spec.HashLog.asked l (showQuery sp X m tag ω.1.1 ω.1.2.1) ω.2 ++ [(Spec.rosterQuery sp p, ω.1.2.2.1)], p),
    fun ω => ⟨(asked_prefix _ _ _).trans (List.prefix_append _ _), ?_⟩, fun k => ?_⟩
  · simp [Reduction.asked_length]
  · rw [half_step, Tagging.mean_prod (α := Spec.ShowCoins)]

section
variable {iss : Issues G} {shw : Shows G}

omit [AddCommGroup G] [Module F G] [Ristretto G] in
/-- A function that is zero whenever a query was made, is zero on average after the query. -/
theorem expect_zero (hi : Sampled 1 iss) (hw : Sampled 2 shw) {f : Final G Out} {t : Transcript}
    (hf : ∀ o l ps, (∃ e ∈ l, e.1 = t) → f o l ps = 0) (A : Spec.Onlooker G Out) :
    ∀ (l : Spec.HashLog) ps, (∃ e ∈ l, e.1 = t) → A.expect iss shw f l ps = 0 := by
  have up : ∀ {l l' : Spec.HashLog}, l <+: l' → (∃ e ∈ l, e.1 = t) → ∃ e ∈ l', e.1 = t :=
    fun h ⟨e, he, ht⟩ => ⟨e, h.mem he, ht⟩
  induction A with
  | out o => intro l ps h; exact hf o l ps h
  | ask t' next ih =>
    intro l ps h
    refine Eq.trans (Sim.mean_congr fun a => ih _ _ ps (up (asked_prefix l t' a) h)) (Sim.mean_const (α := Spec.Answer) 0)
  | issue m next ih =>
    intro l ps h
    obtain ⟨Ω, _, _, s, h1, h2⟩ := hi m l
    rw [Spec.Onlooker.expect, h2]
    exact Eq.trans (Sim.mean_congr fun ω => ih _ _ ps (up (h1 ω).1 h)) (Sim.mean_const (α := Ω) 0)
  | watch w next ih =>
    intro l ps h
    obtain ⟨Ω, _, _, s, h1, h2⟩ := hw w l
    rw [Spec.Onlooker.expect, h2]
    exact Eq.trans (Sim.mean_congr fun ω => ih _ _ _ (up (h1 ω).1 h)) (Sim.mean_const (α := Ω) 0)

omit [AddCommGroup G] [Module F G] [Ristretto G] in
/-- If on average over `α` little is lost at the end, then little is lost. -/
theorem expect_avg (hi : Sampled 1 iss) (hw : Sampled 2 shw) {α : Type} [Fintype α] [Nonempty α] {f : Final G Out}
    {g : α → Final G Out} {δ : ℚ} {N : ℕ}
    (hf : ∀ o l ps, l.length ≤ N → f o l ps - δ ≤ Spec.mean fun x => g x o l ps) (A : Spec.Onlooker G Out) :
    ∀ (l : Spec.HashLog) ps n, A.Within n → l.length + n ≤ N →
      A.expect iss shw f l ps - δ ≤ Spec.mean fun x => A.expect iss shw (g x) l ps := by
  induction A with
  | out o => intro l ps n _ h; exact hf o l ps (by omega)
  | ask t next ih =>
    rintro l ps _ ⟨n, rfl, hn⟩ h
    simp only [Spec.Onlooker.expect]
    rw [Sim.mean_comm, ← Sim.mean_const (α := Spec.Answer) δ, ← Sim.mean_sub]
    exact Sim.mean_mono fun a => ih _ _ ps n (hn _) (by rw [Reduction.asked_length]; omega)
  | issue m next ih =>
    rintro l ps _ ⟨n, rfl, hn⟩ h
    obtain ⟨Ω, _, _, s, h1, h2⟩ := hi m l
    simp only [Spec.Onlooker.expect, h2]
    rw [Sim.mean_comm, ← Sim.mean_const (α := Ω) δ, ← Sim.mean_sub]
    exact Sim.mean_mono fun ω => ih _ _ ps n (hn _) (by rw [(h1 ω).2]; omega)
  | watch w next ih =>
    rintro l ps _ ⟨n, rfl, hn⟩ h
    obtain ⟨Ω, _, _, s, h1, h2⟩ := hw w l
    simp only [Spec.Onlooker.expect, h2]
    rw [Sim.mean_comm, ← Sim.mean_const (α := Ω) δ, ← Sim.mean_sub]
    exact Sim.mean_mono fun ω => ih _ _ _ n (hn _) (by rw [(h1 ω).2]; omega)

end

/-! ## The two runs -/

/-- A query about a roster entry. -/
def IsRoster (G : Type) [AddCommGroup G] [Module F G] [Ristretto G] (t : Transcript) : Prop :=
  ∃ (p : CommittedValuesEqual.Publics G) (c : CommittedValuesEqual.Commitments G),
    t = (Spec.Query.committedValuesEqual "SIGNAL GROUP MEMBERSHIP" p c).ops

theorem rosterQuery_isRoster (sp : SystemParameters G) (p : SignalCredentialPresentation G) :
    IsRoster G (Spec.rosterQuery sp p) := ⟨_, _, rfl⟩

theorem lookup_append_one (l : Spec.HashLog) (t t' : Transcript) (a : Spec.Answer) :
    (l ++ [(t, a)]).lookup t' = (l.lookup t').or (if t' = t then some a else none) := by
  rw [List.lookup_append, List.lookup_cons]
  congr 1
  by_cases h : t' = t
  · simp [h]
  · rw [if_neg h, beq_false_of_ne h]
    rfl

theorem asked_ne {l : Spec.HashLog} {t t' : Transcript} {a : Spec.Answer} (h : t' ≠ t) :
    (l.asked t a).lookup t' = l.lookup t' := by
  rw [Spec.HashLog.asked, lookup_append_one, if_neg h, Option.or_none]

/-- How the queries `R` that really were made, the queries `l` in the game with simulated proofs, and the queries `u` that
were answered for the adversary are related. `tI` is a query that the adversary does not know. -/
structure Mimics (sp : SystemParameters G) (tI : Transcript) (R l u : Spec.HashLog)
    (ps : List (SignalCredentialPresentation G)) : Prop where
  real : ∀ t, t ≠ tI → (∀ p ∈ ps, Spec.rosterQuery sp p ≠ t) → R.lookup t = l.lookup t
  known : ∀ t b, u.lookup t = some b → l.lookup t = some b
  unknown : ∀ t, IsRoster G t → u.lookup t = none → l.lookup t = none
  fixed : ∀ p ∈ ps, (l.lookup (Spec.rosterQuery sp p)).isSome

namespace Mimics

variable {sp : SystemParameters G} {tI : Transcript} {R l u : Spec.HashLog}
  {ps : List (SignalCredentialPresentation G)}

theorem quiet_real (h : Mimics sp tI R l u ps) {t : Transcript} (ht : t ≠ tI) (hr : ¬ IsRoster G t) :
    R.lookup t = l.lookup t :=
  h.real t ht fun p _ e => hr (e ▸ rosterQuery_isRoster sp p)

theorem answer (h : Mimics sp tI R l u ps) {t : Transcript} (ht : t ≠ tI) (a : Spec.Answer) :
    (u.lookup t).getD ((R.lookup t).getD a) = (l.lookup t).getD a := by
  cases hu : u.lookup t with
  | some b => rw [h.known t b hu]; rfl
  | none =>
    rw [Option.getD_none]
    by_cases hr : IsRoster G t
    · have hl := h.unknown t hr hu
      rw [h.real t ht fun p hp e => ?_]
      have := h.fixed p hp
      rw [e, hl] at this
      cases this
    · rw [h.quiet_real ht hr]

theorem mono {t : Transcript} {b : Spec.Answer} (hl : l.lookup t = some b) (t' : Transcript) (a : Spec.Answer) :
    (l ++ [(t', a)]).lookup t = some b := by
  rw [List.lookup_append, hl, Option.some_or]

theorem quiet (h : Mimics sp tI R l u ps) {t : Transcript} (ht : t ≠ tI) (hr : ¬ IsRoster G t) (a : Spec.Answer) :
    Mimics sp tI (R.asked t a) (l.asked t a) u ps where
  real t' h1 h2 := by
    by_cases e : t' = t
    · subst e
      rw [Sim.lookup_asked, Sim.lookup_asked, h.real t' h1 h2]
    · rw [asked_ne e, asked_ne e, h.real t' h1 h2]
  known t' b hu := mono (h.known t' b hu) _ _
  unknown t' h1 h2 := by
    rw [asked_ne (t' := t') (t := t) (fun e => hr (e ▸ h1))]
    exact h.unknown t' h1 h2
  fixed p hp := by
    obtain ⟨b, hb⟩ := Option.isSome_iff_exists.1 (h.fixed p hp)
    rw [Spec.HashLog.asked, mono hb]
    rfl

theorem ask (h : Mimics sp tI R l u ps) {t : Transcript} (ht : t ≠ tI) (a : Spec.Answer) :
    Mimics sp tI (R.asked t a) (l.asked t a) (u ++ [(t, (l.lookup t).getD a)]) ps where
  real t' h1 h2 := by
    by_cases e : t' = t
    · subst e
      rw [Sim.lookup_asked, Sim.lookup_asked, h.real t' h1 h2]
    · rw [asked_ne e, asked_ne e, h.real t' h1 h2]
  known t' b hu := by
    rw [lookup_append_one] at hu
    cases hu' : u.lookup t' with
    | some b' =>
      rw [hu', Option.some_or] at hu
      cases hu
      exact mono (h.known t' b hu') _ _
    | none =>
      rw [hu', Option.none_or] at hu
      split at hu
      · rename_i e
        subst e
        rw [Sim.lookup_asked, ← hu]
      · cases hu
  unknown t' h1 h2 := by
    rw [lookup_append_one] at h2
    by_cases e : t' = t
    · rw [if_pos e] at h2
      cases hu : u.lookup t' <;> rw [hu] at h2 <;> cases h2
    · rw [if_neg e, Option.or_none] at h2
      rw [asked_ne e]
      exact h.unknown t' h1 h2
  fixed p hp := by
    obtain ⟨b, hb⟩ := Option.isSome_iff_exists.1 (h.fixed p hp)
    rw [Spec.HashLog.asked, mono hb]
    rfl

theorem fix (h : Mimics sp tI R l u ps) (p : SignalCredentialPresentation G) (a : Spec.Answer) :
    Mimics sp tI R (l ++ [(Spec.rosterQuery sp p, a)]) (u ++ [(Spec.rosterQuery sp p, a)]) (p :: ps) where
  real t h1 h2 := by
    rw [lookup_append_one, if_neg (fun e => h2 p (List.mem_cons_self) e.symm), Option.or_none]
    exact h.real t h1 fun p' hp' => h2 p' (List.mem_cons_of_mem _ hp')
  known t b hu := by
    rw [lookup_append_one] at hu ⊢
    cases hu' : u.lookup t with
    | some b' =>
      rw [hu', Option.some_or] at hu
      cases hu
      rw [h.known t b hu', Option.some_or]
    | none =>
      rw [hu', Option.none_or] at hu
      split at hu
      · rename_i e
        rw [h.unknown t (e ▸ rosterQuery_isRoster sp p) hu', Option.none_or]
        exact (if_pos e).trans hu
      · cases hu
  unknown t h1 h2 := by
    rw [lookup_append_one] at h2 ⊢
    cases hu : u.lookup t with
    | some b => rw [hu] at h2; cases h2
    | none =>
      rw [hu, Option.none_or] at h2
      rw [h.unknown t h1 hu, Option.none_or, h2]
  fixed p' hp' := by
    rw [lookup_append_one]
    rcases List.mem_cons.1 hp' with rfl | hp'
    · rw [if_pos rfl]
      cases l.lookup (Spec.rosterQuery sp p') <;> rfl
    · obtain ⟨b, hb⟩ := Option.isSome_iff_exists.1 (h.fixed p' hp')
      rw [hb]
      rfl

end Mimics

/-- A claim is judged by the two answers of the hash. -/
theorem good_congr {O₁ O₂ : Oracle} {sp : SystemParameters G} {x0 x1 : F} {V : Set F} {o : Spec.Attempt}
    (h0 : O₁.chal (o.query (Spec.issuerOf sp x0 x1) 0) "chal" 64 = O₂.chal (o.query (Spec.issuerOf sp x0 x1) 0) "chal" 64)
    (h1 : O₁.chal (o.query (Spec.issuerOf sp x0 x1) 1) "chal" 64 = O₂.chal (o.query (Spec.issuerOf sp x0 x1) 1) "chal" 64)
    (h : o.Good O₁ (Spec.issuerOf sp x0 x1) V) : o.Good O₂ (Spec.issuerOf sp x0 x1) V := by
  obtain ⟨p, v, R, a1, a2, a3, a4⟩ := h
  obtain ⟨Cm, rest, ho, -⟩ := (C10_ok_iff o.bytes p).1 a1
  obtain ⟨o1, o2, -⟩ := ho.1
  obtain ⟨D, ⟨CQ, P, as, Cs, π⟩, π'⟩ := p
  dsimp only at o1 o2
  subst o1 o2
  simp only [Spec.Attempt.query, a1, Spec.onDecoded, if_true, Nat.one_ne_zero, if_false] at h0 h1
  have hpub : Spec.presentationPublics (Spec.issuerOf sp x0 x1) ⟨CQ, P, [], [Cm], π⟩ (x1 • sp.h) Cm =
      ⟨sp.g, sp.h, x1 • sp.h, P, Scalar.ofF x0 • P + Scalar.ofF x1 • Cm - CQ, Cm⟩ := by
    simp [Spec.presentationPublics, Spec.dot, Spec.issuerOf, Scalar.smul_def]
  have hX : (Spec.issuerOf sp x0 x1).keypair.publicKey.Xn.headD 0 = x1 • sp.h := rfl
  simp only [Spec.showQuery, hX, List.headD_cons, hpub] at h0
  refine ⟨_, v, R, a1, ?_, ?_, a4⟩
  · rw [SignalIssuer.verify] at a2 ⊢
    simp only [Spec.issuerOf] at a2 ⊢
    rw [verify_one] at a2 ⊢
    rw [show ValidCredential.verify O₂ Issuer.showTranscript π _ = ValidCredential.verify O₁ Issuer.showTranscript π
      ⟨sp.g, sp.h, x1 • sp.h, P, Scalar.ofF x0 • P + Scalar.ofF x1 • Cm - CQ, Cm⟩ from ?_]
    · exact a2
    · rw [ValidCredential.verify, ValidCredential.verify, getChallenge, getChallenge]
      refine congrArg (fun b => decide (Scalar.fromWide b = π.challenge)) ?_
      exact h0.symm
  · rw [SignalIssuer.verify] at a2
    obtain ⟨w, hw, hv⟩ := Res.bind_eq_ok.1 a2
    cases hv
    rw [verifyRoster_one] at a3 ⊢
    rw [show CommittedValuesEqual.verify O₂ SignalIssuer.membershipTranscript π' _ =
      CommittedValuesEqual.verify O₁ SignalIssuer.membershipTranscript π'
      ⟨sp.g, sp.h, P, Cm, D⟩ from ?_]
    · exact a3
    · rw [CommittedValuesEqual.verify, CommittedValuesEqual.verify, getChallenge, getChallenge]
      refine congrArg (fun b => decide (Scalar.fromWide b = π'.challenge)) ?_
      exact h1.symm

section
variable {O : Oracle} {sp : SystemParameters G} {x0 x1 : F} {V : Set F}

theorem query_not {o : Spec.Attempt} (h : o.Good O (Spec.issuerOf sp x0 x1) V) :
    ¬ IsRoster G (o.query (Spec.issuerOf sp x0 x1) 0) := by
  obtain ⟨p, -, -, hp, -⟩ := h
  rintro ⟨q, c, e⟩
  rw [Spec.Attempt.query, hp] at e
  simp only [Spec.onDecoded, if_true] at e
  exact nomatch C32_injective (show Spec.Query.ops (.validCredential _ _ _) = _ from e)

open Classical in
/-- One if the claim is accepted, does not use the query of a presentation that was seen, and `tI` was not asked. -/
noncomputable def plain (O : Oracle) (i : Issuer G) (V : Set F) (tI : Transcript) : Final G Spec.Attempt :=
  fun o l ps => if o.Good (l.oracle O) i V ∧ ¬ o.Echoes i ps ∧ ¬ ∃ e ∈ l, e.1 = tI then 1 else 0

theorem mean_cons {α : Type} [Fintype α] [Nonempty α] {N : ℕ} (f : α → (ℕ → α) → ℚ) :
    (Spec.mean fun s : Fin (N + 1) → α => f (Spec.stretch s 0) fun k => Spec.stretch s (k + 1)) =
      Spec.mean fun a : α => Spec.mean fun s : Fin N → α => f a (Spec.stretch s) := by
  classical
  rw [← Tagging.mean_prod fun p : α × (Fin N → α) => f p.1 (Spec.stretch p.2)]
  rw [← Sim.mean_equiv (Fin.consEquiv fun _ : Fin (N + 1) => α)]
  refine Sim.mean_congr fun p => ?_
  congr 1
  funext k
  unfold Spec.stretch
  by_cases h : k < N
  · rw [dif_pos h, dif_pos (by omega)]
    rfl
  · rw [dif_neg h, dif_neg (by omega)]

theorem deputy_watch (X : G) (m₁ : Scalar) (tag : Tag G) (w : Spec.Member)
    (next : SignalCredentialPresentation G → Spec.Onlooker G Out) (u : Spec.HashLog) (c : ℕ → Spec.ShowCoins) :
    (Spec.Onlooker.watch w next).deputy sp X m₁ tag u c =
      .ask (showQuery sp X m₁ tag (c 0).1 (c 0).2.1) fun a =>
        (next (showWith sp m₁ tag (w.entry sp).commitment (c 0).1 (c 0).2.1 a (c 0).2.2.1 (c 0).2.2.2)).deputy sp X m₁ tag
          (u ++ [(Spec.rosterQuery sp (showWith sp m₁ tag (w.entry sp).commitment (c 0).1 (c 0).2.1 a (c 0).2.2.1
            (c 0).2.2.2), (c 0).2.2.1)]) fun k => c (k + 1) := rfl

theorem mimic {m₁ : Scalar} {tag : Tag G} {tI : Transcript} (hI : Reduction.IsIssuance G tI)
    (A : Spec.Onlooker G Spec.Attempt) : ∀ (R l u : Spec.HashLog) (ps : List (SignalCredentialPresentation G)) (n N : ℕ),
      A.Within n → n ≤ N → Mimics sp tI R l u ps →
      (A.checked (Spec.issuerOf sp x0 x1)).expect (Spec.honestIssue O sp (Scalar.ofF x0) (Scalar.ofF x1))
        (halfShow O sp (x1 • sp.h) m₁ tag) (plain O (Spec.issuerOf sp x0 x1) V tI) l ps ≤
      Spec.mean fun s : Fin N → Spec.ShowCoins =>
        ((A.deputy sp (x1 • sp.h) m₁ tag u (Spec.stretch s)).checked (Spec.issuerOf sp x0 x1)).expect
          (Spec.honestIssue O sp (Scalar.ofF x0) (Scalar.ofF x1)) (Spec.Attempt.value O (Spec.issuerOf sp x0 x1) V) R := by
  have hi := issue_sampled O sp (Scalar.ofF x0) (Scalar.ofF x1)
  have hw := half_sampled O sp (x1 • sp.h) m₁ tag
  have zero : ∀ (A : Spec.Onlooker G Spec.Attempt) l ps, (∃ e ∈ l, e.1 = tI) →
      A.expect (Spec.honestIssue O sp (Scalar.ofF x0) (Scalar.ofF x1)) (halfShow O sp (x1 • sp.h) m₁ tag)
        (plain O (Spec.issuerOf sp x0 x1) V tI) l ps = 0 :=
    expect_zero hi hw fun o l ps h => if_neg fun h' => h'.2.2 h
  have nonneg : ∀ (A : Spec.Impostor G Spec.Attempt) R, 0 ≤ A.expect
      (Spec.honestIssue O sp (Scalar.ofF x0) (Scalar.ofF x1)) (Spec.Attempt.value O (Spec.issuerOf sp x0 x1) V) R :=
    fun A R => (Reduction.expect01 (Reduction.honest01 O sp _ _) (Reduction.value01 O _ V) A R).1
  have nonneg' : ∀ {α : Type} [Fintype α] [Nonempty α] (f : α → ℚ), (∀ a, 0 ≤ f a) → 0 ≤ Spec.mean f := by
    intro α _ _ f h
    exact (Sim.mean_const (α := α) 0).ge.trans (Sim.mean_mono h)
  have hIr : ¬ IsRoster G tI := by
    obtain ⟨p, c, rfl⟩ := hI
    rintro ⟨q, c', e⟩
    exact nomatch C32_injective e
  have inI : ∀ (l : Spec.HashLog) a, ∃ e ∈ l.asked tI a, e.1 = tI := fun l a =>
    ⟨_, List.mem_append_right _ (List.mem_singleton.2 rfl), rfl⟩
  induction A with
  | out o =>
    intro R l u ps n N _ _ h
    simp only [Spec.Onlooker.checked, Spec.Onlooker.expect, Spec.Onlooker.deputy, Spec.Impostor.checked,
      Spec.Impostor.expect]
    refine le_of_le_of_eq ?_ (Sim.mean_const (α := Fin N → Spec.ShowCoins) _).symm
    refine Sim.mean_mono fun a => Sim.mean_mono fun a' => ?_
    set i := Spec.issuerOf sp x0 x1
    unfold plain
    split
    swap
    · exact (Reduction.value01 O i V o _).1
    rename_i hg
    obtain ⟨g, ne, nI⟩ := hg
    have t0 : o.query i 0 ≠ tI := fun e => nI ⟨_, List.mem_append_left _ (List.mem_append_right _
      (List.mem_singleton.2 rfl)), e⟩
    have t1 : o.query i 1 ≠ tI := fun e => nI ⟨_, List.mem_append_right _ (List.mem_singleton.2 rfl), e⟩
    have r0 : ¬ IsRoster G (o.query i 0) := query_not g
    have e0 := h.quiet_real t0 r0
    have e1 := h.real _ t1 fun p hp e => ne ⟨p, hp, e⟩
    rw [Spec.Attempt.value, if_pos]
    have ch : ∀ L : Spec.HashLog, (L.lookup (o.query i 0) = ((R.asked (o.query i 0) a).asked (o.query i 1) a').lookup
        (o.query i 0)) → (L.oracle O).chal (o.query i 0) "chal" 64 =
        (((R.asked (o.query i 0) a).asked (o.query i 1) a').oracle O).chal (o.query i 0) "chal" 64 := by
      intro L hL
      simp only [Spec.HashLog.oracle, hL]
    have ch' : ∀ L : Spec.HashLog, (L.lookup (o.query i 1) = ((R.asked (o.query i 0) a).asked (o.query i 1) a').lookup
        (o.query i 1)) → (L.oracle O).chal (o.query i 1) "chal" 64 =
        (((R.asked (o.query i 0) a).asked (o.query i 1) a').oracle O).chal (o.query i 1) "chal" 64 := by
      intro L hL
      simp only [Spec.HashLog.oracle, hL]
    have key : ∀ t, R.lookup t = l.lookup t →
        ((l.asked (o.query i 0) a).asked (o.query i 1) a').lookup t =
          ((R.asked (o.query i 0) a).asked (o.query i 1) a').lookup t := by
      intro t ht
      simp only [Spec.HashLog.asked, lookup_append_one, ht, e0, e1]
    exact good_congr (ch _ (key _ e0)) (ch' _ (key _ e1)) g
  | ask t next ih =>
    rintro R l u ps _ N ⟨n, rfl, hn⟩ hN h
    simp only [Spec.Onlooker.checked, Spec.Onlooker.expect, Spec.Onlooker.deputy, Spec.Impostor.checked,
      Spec.Impostor.expect]
    by_cases ht : t = tI
    · subst ht
      refine le_trans (le_of_eq ?_) (nonneg' _ fun s => nonneg' _ fun a => nonneg _ _)
      exact (Sim.mean_congr fun a => zero _ _ ps (inI l a)).trans (Sim.mean_const (α := Spec.Answer) 0)
    · rw [Sim.mean_comm]
      refine Sim.mean_mono fun a => ?_
      simp only [h.answer ht]
      exact ih _ _ _ _ ps n N (hn _) (by omega) (h.ask ht a)
  | issue m next ih =>
    rintro R l u ps _ N ⟨n, rfl, hn⟩ hN h
    simp only [Spec.Onlooker.checked, Spec.Onlooker.expect, Spec.Onlooker.deputy, Spec.Impostor.checked,
      Spec.Impostor.expect]
    simp only [issue_step]
    conv_rhs => rw [Sim.mean_comm]
    refine Sim.mean_mono fun b => ?_
    conv_rhs => rw [Sim.mean_comm]
    refine Sim.mean_mono fun z => ?_
    conv_rhs => rw [Sim.mean_comm]
    refine Sim.mean_mono fun ρ => ?_
    conv_rhs => rw [Sim.mean_comm]
    refine Sim.mean_mono fun a => ?_
    have hr : ¬ IsRoster G (issueQuery sp (Scalar.ofF x0) (Scalar.ofF x1) m b z ρ) := by
      rintro ⟨q, c', e⟩
      rw [issueQuery, IssuanceRevealed.zkQuery_eq] at e
      exact nomatch C32_injective (show Spec.Query.ops (.issuanceRevealed _ _ _) = _ from e)
    generalize issueQuery sp (Scalar.ofF x0) (Scalar.ofF x1) m b z ρ = t at hr ⊢
    by_cases ht : t = tI
    · subst ht
      rw [zero _ _ ps (inI l a)]
      exact nonneg' _ fun s => nonneg _ _
    · rw [h.quiet_real ht hr]
      exact ih _ _ _ u ps n N (hn _) (by omega) (h.quiet ht hr a)
  | watch w next ih =>
    rintro R l u ps _ N ⟨n, rfl, hn⟩ hN h
    obtain ⟨N, rfl⟩ : ∃ N', N = N' + 1 := ⟨N - 1, by omega⟩
    simp only [Spec.Onlooker.checked, Spec.Onlooker.expect, deputy_watch, Spec.Impostor.checked,
      Spec.Impostor.expect]
    rw [half_step]
    let K : Spec.ShowCoins → (ℕ → Spec.ShowCoins) → ℚ := fun c c' => Spec.mean fun a : Spec.Answer =>
      let p := showWith sp m₁ tag (w.entry sp).commitment c.1 c.2.1
        ((R.lookup (showQuery sp (x1 • sp.h) m₁ tag c.1 c.2.1)).getD a) c.2.2.1 c.2.2.2
      (((next p).deputy sp (x1 • sp.h) m₁ tag (u ++ [(Spec.rosterQuery sp p, c.2.2.1)]) c').checked
        (Spec.issuerOf sp x0 x1)).expect (Spec.honestIssue O sp (Scalar.ofF x0) (Scalar.ofF x1))
        (Spec.Attempt.value O (Spec.issuerOf sp x0 x1) V) (R.asked (showQuery sp (x1 • sp.h) m₁ tag c.1 c.2.1) a)
    refine le_of_le_of_eq ?_ (mean_cons (N := N) K).symm
    refine Sim.mean_mono fun c => ?_
    dsimp only [K]
    rw [Sim.mean_comm]
    refine Sim.mean_mono fun a => ?_
    have hr : ¬ IsRoster G (showQuery sp (x1 • sp.h) m₁ tag c.1 c.2.1) := by
      rintro ⟨q, c', e⟩
      exact nomatch C32_injective (show Spec.Query.ops (.validCredential _ _ _) = _ from e)
    have ht : showQuery sp (x1 • sp.h) m₁ tag c.1 c.2.1 ≠ tI := by
      obtain ⟨p, c', rfl⟩ := hI
      intro e
      exact nomatch C32_injective (show Spec.Query.ops (.validCredential _ _ _) = _ from e)
    have e := h.quiet_real ht hr
    have := ih (showWith sp m₁ tag (w.entry sp).commitment c.1 c.2.1
        ((l.lookup (showQuery sp (x1 • sp.h) m₁ tag c.1 c.2.1)).getD a) c.2.2.1 c.2.2.2) _ _ _ _ n N (hn _) (by omega)
      ((h.quiet ht hr a).fix (showWith sp m₁ tag (w.entry sp).commitment c.1 c.2.1
        ((l.lookup (showQuery sp (x1 • sp.h) m₁ tag c.1 c.2.1)).getD a) c.2.2.1 c.2.2.2) c.2.2.1)
    refine this.trans (le_of_eq (Sim.mean_congr fun s => ?_))
    rw [← e]

end

omit [AddCommGroup G] [Module F G] [Ristretto G] in
theorem sampled_close {K : Type} {Pf : K → Type} {c : ℕ} {s : Spec.Server K Pf} (h : Sampled c s) : Sim.Close c s s := by
  have h01 : ∀ x l f, Sim.Unit01 f → 0 ≤ s x l f ∧ s x l f ≤ 1 := by
    intro x l f hf
    obtain ⟨Ω, _, _, σ, h1, h2⟩ := h x l
    rw [h2]
    exact Sim.mean01 fun ω => hf _ _
  refine ⟨h01, h01, fun x l f g ε hf hg hfg => ?_⟩
  obtain ⟨Ω, _, _, σ, h1, h2⟩ := h x l
  rw [h2, h2]
  refine le_trans (Sim.abs_sub_mean_le fun ω => hfg _ _ (h1 ω).2) ?_
  have : (0 : ℚ) ≤ c * (l.length + c) / ell := by positivity
  linarith

theorem checked_within {i : Issuer G} (A : Spec.Onlooker G Spec.Attempt) : ∀ n, A.Within n →
    (A.checked i).Within (n + 2) := by
  induction A with
  | out o => intro n _; exact ⟨n + 1, rfl, fun _ => ⟨n, rfl, fun _ => trivial⟩⟩
  | ask t next ih =>
    rintro _ ⟨n, rfl, hw⟩
    exact ⟨n + 2, rfl, fun a => ih a n (hw a)⟩
  | issue m next ih =>
    rintro _ ⟨n, rfl, hw⟩
    exact ⟨n + 2, rfl, fun a => ih a n (hw a)⟩
  | watch w next ih =>
    rintro _ ⟨n, rfl, hw⟩
    exact ⟨n + 2, by omega, fun a => ih a n (hw a)⟩

section
variable {O : Oracle} {sp : SystemParameters G} {x0 x1 : F} {V : Set F}

open Classical in
/-- One if the claim is accepted and does not use the query of a presentation that was seen. -/
noncomputable def novel (O : Oracle) (i : Issuer G) (V : Set F) : Final G Spec.Attempt :=
  fun o l ps => if o.Good (l.oracle O) i V ∧ ¬ o.Echoes i ps then 1 else 0

theorem novel01 (i : Issuer G) (o : Spec.Attempt) (l : Spec.HashLog) (ps : List (SignalCredentialPresentation G)) :
    0 ≤ novel O i V o l ps ∧ novel O i V o l ps ≤ 1 := by
  unfold novel
  split <;> norm_num

/-- The query of the issuance to the deputy is not among few other queries. -/
theorem novel_plain (hh : sp.h ≠ 0) (i : Issuer G) (x0' x1' m : Scalar) (b z : F) {N : ℕ} (o : Spec.Attempt)
    (l : Spec.HashLog) (ps : List (SignalCredentialPresentation G)) (hl : l.length ≤ N) :
    novel O i V o l ps - N / ell ≤ Spec.mean fun ρ => plain O i V (issueQuery sp x0' x1' m b z ρ) o l ps := by
  classical
  have hit := Sim.hit_bound (query := fun ρ => issueQuery sp x0' x1' m b z ρ)
    (fun t => IssuanceRevealed.zk_unlikely (.inr (.inr hh)) _ t) l
  rw [← Sim.mean_indicator] at hit
  have hN : (l.length : ℚ) / ell ≤ N / ell := by gcongr
  rw [sub_le_iff_le_add]
  refine le_trans ?_ (add_le_add_right (hit.trans hN) _)
  rw [← Sim.mean_add]
  refine le_of_eq_of_le (Sim.mean_const (α := F × F × F × F) _).symm (Sim.mean_mono fun ρ => ?_)
  unfold novel plain
  by_cases h1 : o.Good (l.oracle O) i V ∧ ¬ o.Echoes i ps
  · by_cases h2 : ∃ e ∈ l, e.1 = issueQuery sp x0' x1' m b z ρ
    · rw [if_pos h1, if_neg (fun h => h.2.2 h2), if_pos]
      · norm_num
      · by_contra hn
        rw [Option.not_isSome_iff_eq_none, List.lookup_eq_none_iff] at hn
        obtain ⟨e, he, ht⟩ := h2
        have := hn e he
        rw [ht] at this
        simp at this
    · rw [if_pos h1, if_pos ⟨h1.1, h1.2, h2⟩]
      split <;> norm_num
  · rw [if_neg h1]
    refine add_nonneg ?_ ?_ <;> split <;> norm_num

/-- The game with simulated presentations, against the one of the deputy. -/
theorem deputy_le (hh : sp.h ≠ 0) (m₁ : Scalar) {T : ℕ} {A : Spec.Onlooker G Spec.Attempt} (hA : A.Within T) :
    (A.checked (Spec.issuerOf sp x0 x1)).expect (Spec.honestIssue O sp (Scalar.ofF x0) (Scalar.ofF x1))
        (simShow sp (Scalar.ofF x0) (Scalar.ofF x1)) (novel O (Spec.issuerOf sp x0 x1) V) [] [] ≤
      (Spec.mean fun c : Fin T → Spec.ShowCoins =>
        ((Spec.deputy m₁ A sp (x1 • sp.h) (Spec.stretch c)).checked (Spec.issuerOf sp x0 x1)).expect
          (Spec.honestIssue O sp (Scalar.ofF x0) (Scalar.ofF x1)) (Spec.Attempt.value O (Spec.issuerOf sp x0 x1) V) []) +
      (T + 3) ^ 2 / ell := by
  set i := Spec.issuerOf sp x0 x1 with hi
  set E := (A.checked i).expect (Spec.honestIssue O sp (Scalar.ofF x0) (Scalar.ofF x1))
        (simShow sp (Scalar.ofF x0) (Scalar.ofF x1)) (novel O i V) [] [] with hE
  have hell : (0 : ℚ) < ell := Tagging.ell_pos
  have hw := checked_within (i := i) A T hA
  let tag : F → Tag G := fun b => ⟨b • basepoint G, ((Scalar.ofF x0).val + (Scalar.ofF x1).val * m₁.val) • (b • basepoint G)⟩
  let tI : F → F → (F × F × F × F) → Transcript := fun b z ρ => issueQuery sp (Scalar.ofF x0) (Scalar.ofF x1) m₁ b z ρ
  have step1 : ∀ b, E - (if b = 0 then 1 else 0) - (T + 2) ^ 2 / ell ≤
      (A.checked i).expect (Spec.honestIssue O sp (Scalar.ofF x0) (Scalar.ofF x1))
        (halfShow O sp (x1 • sp.h) m₁ (tag b)) (novel O i V) [] [] := by
    intro b
    have hpos := (expect01 (sampled_close (issue_sampled O sp (Scalar.ofF x0) (Scalar.ofF x1))).range
      (sampled_close (half_sampled O sp (x1 • sp.h) m₁ (tag b))).range (novel01 (O := O) (V := V) i) (A.checked i) [] []).1
    have hT : (0 : ℚ) ≤ (T + 2) ^ 2 / ell := by positivity
    by_cases hb : b = 0
    · have h1 := (expect01 (sampled_close (issue_sampled O sp (Scalar.ofF x0) (Scalar.ofF x1))).range
        (member_close O sp hh (Scalar.ofF x0) (Scalar.ofF x1)).range' (novel01 (O := O) (V := V) i) (A.checked i) [] []).2
      rw [if_pos hb]
      linarith
    · rw [if_neg hb, sub_zero]
      have hc := half_close O sp hh (Scalar.ofF x0) (Scalar.ofF x1) m₁ (tag := tag b) (fun e => hb (by
        dsimp only [tag] at e
        rwa [← zero_smul F (basepoint G), smul_left_inj Ristretto.base_ne] at e)) rfl
      rw [Scalar.val_ofF] at hc
      have h2 := expect_close (sampled_close (issue_sampled O sp (Scalar.ofF x0) (Scalar.ofF x1))) hc
        (novel01 (O := O) (V := V) i) (A.checked i) [] [] (T + 2) hw
      have h3 := (abs_sub_le_iff.1 h2).2
      simp only [List.length_nil, Nat.cast_zero, zero_add] at h3
      push_cast at h3
      rw [← sq] at h3
      linarith
  have step2 : ∀ b z, (A.checked i).expect (Spec.honestIssue O sp (Scalar.ofF x0) (Scalar.ofF x1))
        (halfShow O sp (x1 • sp.h) m₁ (tag b)) (novel O i V) [] [] - ((T + 2 : ℕ) : ℚ) / ell ≤
      Spec.mean fun ρ => (A.checked i).expect (Spec.honestIssue O sp (Scalar.ofF x0) (Scalar.ofF x1))
        (halfShow O sp (x1 • sp.h) m₁ (tag b)) (plain O i V (tI b z ρ)) [] [] := fun b z =>
    expect_avg (issue_sampled O sp _ _) (half_sampled O sp _ _ _)
      (fun o l ps hl => novel_plain hh i _ _ m₁ b z o l ps hl) (A.checked i) [] [] (T + 2) hw (by simp)
  have step3 : ∀ b z ρ a, (A.checked i).expect (Spec.honestIssue O sp (Scalar.ofF x0) (Scalar.ofF x1))
        (halfShow O sp (x1 • sp.h) m₁ (tag b)) (plain O i V (tI b z ρ)) [] [] ≤
      Spec.mean fun c : Fin T → Spec.ShowCoins =>
        ((A.deputy sp (x1 • sp.h) m₁ (tag b) [] (Spec.stretch c)).checked i).expect
          (Spec.honestIssue O sp (Scalar.ofF x0) (Scalar.ofF x1)) (Spec.Attempt.value O i V)
          (Spec.HashLog.asked [] (tI b z ρ) a) := by
    intro b z ρ a
    refine mimic (tI := tI b z ρ) ?_ A _ [] [] [] T T hA le_rfl ⟨?_, ?_, ?_, ?_⟩
    · dsimp only [tI]
      rw [issueQuery, IssuanceRevealed.zkQuery_eq]
      exact ⟨_, _, rfl⟩
    · intro t ht _
      rw [asked_ne ht]
    · intro t b h
      cases h
    · intro t _ _
      rfl
    · intro p hp
      cases hp
  have step4 : (Spec.mean fun c : Fin T → Spec.ShowCoins =>
        ((Spec.deputy m₁ A sp (x1 • sp.h) (Spec.stretch c)).checked i).expect
          (Spec.honestIssue O sp (Scalar.ofF x0) (Scalar.ofF x1)) (Spec.Attempt.value O i V) []) =
      Spec.mean fun b : F => Spec.mean fun z : F => Spec.mean fun ρ : F × F × F × F => Spec.mean fun a : Spec.Answer =>
        Spec.mean fun c : Fin T → Spec.ShowCoins =>
        ((A.deputy sp (x1 • sp.h) m₁ (tag b) [] (Spec.stretch c)).checked i).expect
          (Spec.honestIssue O sp (Scalar.ofF x0) (Scalar.ofF x1)) (Spec.Attempt.value O i V)
          (Spec.HashLog.asked [] (tI b z ρ) a) := by
    simp only [Spec.deputy, Spec.Impostor.checked, Spec.Impostor.expect, issue_step]
    rw [Sim.mean_comm]
    refine Sim.mean_congr fun b => ?_
    rw [Sim.mean_comm]
    refine Sim.mean_congr fun z => ?_
    rw [Sim.mean_comm]
    refine Sim.mean_congr fun ρ => ?_
    rw [Sim.mean_comm]
    rfl
  rw [step4]
  have step5 : ∀ b z, E - (if b = 0 then 1 else 0) - (T + 2) ^ 2 / ell - ((T + 2 : ℕ) : ℚ) / ell ≤
      Spec.mean fun ρ : F × F × F × F => Spec.mean fun a : Spec.Answer => Spec.mean fun c : Fin T → Spec.ShowCoins =>
        ((A.deputy sp (x1 • sp.h) m₁ (tag b) [] (Spec.stretch c)).checked i).expect
          (Spec.honestIssue O sp (Scalar.ofF x0) (Scalar.ofF x1)) (Spec.Attempt.value O i V)
          (Spec.HashLog.asked [] (tI b z ρ) a) := by
    intro b z
    refine le_trans ((sub_le_sub_right (step1 b) _).trans (step2 b z)) (Sim.mean_mono fun ρ => ?_)
    exact le_of_eq_of_le (Sim.mean_const (α := Spec.Answer) _).symm (Sim.mean_mono fun a => step3 b z ρ a)
  have step6 := Sim.mean_mono fun b : F => le_of_eq_of_le (Sim.mean_const (α := F) _).symm
    (Sim.mean_mono fun z : F => step5 b z)
  refine le_trans ?_ (add_le_add_left step6 _)
  rw [Sim.mean_sub, Sim.mean_sub, Sim.mean_sub, Sim.mean_const (α := F), Sim.mean_const (α := F), Sim.mean_const (α := F)]
  have h0 : (Spec.mean fun b : F => if b = 0 then (1 : ℚ) else 0) = 1 / ell := by
    unfold Spec.mean
    rw [Finset.sum_ite_eq' Finset.univ (0 : F) fun _ => (1 : ℚ), if_pos (Finset.mem_univ _),
      show Fintype.card F = ell from ZMod.card ell]
  rw [h0]
  have : ((T : ℚ) + 3) ^ 2 / ell = (T + 2) ^ 2 / ell + ((T + 2 : ℕ) : ℚ) / ell + 1 / ell + (T + 2) / ell := by
    push_cast
    ring
  have h1 : (0 : ℚ) ≤ (T + 2) / ell := by positivity
  rw [this]
  linarith

end

/-! ## How long it runs -/

omit [AddCommGroup G] [Module F G] [Ristretto G] in
theorem within_mono (B : Spec.Impostor G Out) : ∀ q q', q ≤ q' → B.Within q → B.Within q' := by
  induction B with
  | out o => exact fun _ _ _ _ => trivial
  | ask t next ih =>
    rintro _ q' hq ⟨q, rfl, h⟩
    exact ⟨q' - 1, by omega, fun a => ih a q (q' - 1) (by omega) (h a)⟩
  | issue m next ih =>
    rintro _ q' hq ⟨q, rfl, h⟩
    exact ⟨q' - 1, by omega, fun a => ih a q (q' - 1) (by omega) (h a)⟩

theorem deputy_within {sp : SystemParameters G} {X : G} {m₁ : Scalar} {tag : Tag G} (A : Spec.Onlooker G Out) :
    ∀ u c n, A.Within n → (A.deputy sp X m₁ tag u c).Within n := by
  induction A with
  | out o => exact fun _ _ _ _ => trivial
  | ask t next ih =>
    rintro u c _ ⟨n, rfl, h⟩
    exact ⟨n, rfl, fun a => ih _ _ _ n (h _)⟩
  | issue m next ih =>
    rintro u c _ ⟨n, rfl, h⟩
    exact ⟨n, rfl, fun a => ih _ _ _ n (h _)⟩
  | watch w next ih =>
    rintro u c _ ⟨n, rfl, h⟩
    exact ⟨n + 1, rfl, fun a => within_mono _ n (n + 1) (by omega) (ih _ _ _ n (h _))⟩

theorem deputy_avoids {sp : SystemParameters G} {X : G} {m₁ : Scalar} {tag : Tag G} {V : Set F} (A : Spec.Onlooker G Out) :
    ∀ u c, A.Avoids V → (A.deputy sp X m₁ tag u c).Avoids V := by
  induction A with
  | out o => exact fun _ _ _ => trivial
  | ask t next ih => exact fun u c h a => ih _ _ _ (h _)
  | issue m next ih => exact fun u c h => ⟨h.1, fun a => ih _ _ _ (h.2 _)⟩
  | watch w next ih => exact fun u c h a => ih _ _ _ (h _)

end Deputy

end Verif
