import Verif.Props.Mint

/-!
# Making an issuance without the issuer, after watching presentations (C104)

As `Mint`, but the adversary also watches honest users present, who have any numbers and roster openings it likes. Whoever
knows `x0` and the public key can act these users: the hash queries of presentations are not those of issuances, so that
their answers can be fixed.
-/

set_option maxRecDepth 100000

namespace Verif

open Amacs

variable {G : Type} [AddCommGroup G] [Module F G] [Ristretto G] {Out : Type}

/-! ## The game -/

/-- As `Spec.Impostor.delivered`, for adversaries that watch. -/
def Spec.Onlooker.delivered (sp : SystemParameters G) (X : G) :
    Spec.Onlooker G Bytes → List (CredentialIssuance G) → Spec.Onlooker G (Bytes × List (CredentialIssuance G))
  | .out b, cs => .ask (Spec.mintQuery sp X b) fun _ => .out (b, cs)
  | .ask t next, cs => .ask t fun a => (next a).delivered sp X cs
  | .issue m next, cs => .issue m fun c => (next c).delivered sp X (c :: cs)
  | .watch w next, cs => .watch w fun p => (next p).delivered sp X cs

open Classical in
/-- The probability that an adversary that watches presentations makes a new issuance that a user accepts. It is given the
parameters and the public key; setup `σ`, coins `ω` and the issuer's secret key are uniform. -/
noncomputable def Spec.watchingMinterWins {S Ω : Type} [Fintype S] [Fintype Ω] (O : Oracle) (sp : S → SystemParameters G)
    (A : SystemParameters G → G → Ω → Spec.Onlooker G Bytes) : ℚ :=
  Spec.mean fun x : S × Ω × F × F =>
    let X := x.2.2.2 • (sp x.1).h
    ((A (sp x.1) X x.2.1).delivered (sp x.1) X []).expect
      (Spec.honestIssue O (sp x.1) (Scalar.ofF x.2.2.1) (Scalar.ofF x.2.2.2))
      (Spec.memberShow O (sp x.1) (Scalar.ofF x.2.2.1) (Scalar.ofF x.2.2.2))
      (fun o l _ => if Spec.Minted (l.oracle O) (User.new (sp x.1) ⟨[X]⟩ none) o.1 o.2 then 1 else 0) [] []

open Classical in
/-- The probability that one of the quotients of `Spec.quotients` is the logarithm of `h`, if the adversary is run once,
with an issuer and users of one's own. -/
noncomputable def Spec.watchingQuotientWins {S Ω : Type} [Fintype S] [Fintype Ω] (O : Oracle) (sp : S → SystemParameters G)
    (A : SystemParameters G → G → Ω → Spec.Onlooker G Bytes) : ℚ :=
  Spec.mean fun x : S × Ω × F × F =>
    let X := x.2.2.2 • (sp x.1).h
    ((A (sp x.1) X x.2.1).delivered (sp x.1) X []).expect
      (Spec.honestIssue O (sp x.1) (Scalar.ofF x.2.2.1) (Scalar.ofF x.2.2.2))
      (Spec.memberShow O (sp x.1) (Scalar.ofF x.2.2.1) (Scalar.ofF x.2.2.2))
      (fun o _ _ => if Spec.Divided (sp x.1) o.1 o.2 then 1 else 0) [] []

/-! ## Acting the users -/

/-- Coins for a presentation: three points, and the answer of the hash and the responses for each proof. -/
abbrev Spec.ActCoins := (F × F × F) × (Spec.Answer × (F × F × F)) × Spec.Answer × (F × F × F)

/-- The presentation for a roster entry `D`. -/
def Spec.acted (sp : SystemParameters G) (D : G) (c : Spec.ActCoins) : SignalCredentialPresentation G :=
  ⟨D, ⟨c.1.2.2 • sp.h, c.1.1 • sp.h, [], [c.1.2.1 • sp.h],
      ⟨Scalar.fromWide c.2.1.1.1, ValidCredential.respOf c.2.1.2⟩⟩,
    ⟨Scalar.fromWide c.2.2.1.1, CommittedValuesEqual.respOf c.2.2.2⟩⟩

/-- What its first proof is about, from `x0` and the public key. -/
def Spec.actedPublics (sp : SystemParameters G) (X : G) (x0 : F) (c : Spec.ActCoins) : ValidCredential.Publics G :=
  ⟨sp.g, sp.h, X, c.1.1 • sp.h, (x0 * c.1.1) • sp.h + c.1.2.1 • X - c.1.2.2 • sp.h, c.1.2.1 • sp.h⟩

/-- The hash query of its first proof. -/
def Spec.actedQuery (sp : SystemParameters G) (X : G) (x0 : F) (c : Spec.ActCoins) : Transcript :=
  ValidCredential.verifyTranscript [.init "AEONFLUX SHOW"] (Spec.actedPublics sp X x0 c)
    (ValidCredential.recommit (Spec.actedPublics sp X x0 c)
      ⟨Scalar.fromWide c.2.1.1.1, ValidCredential.respOf c.2.1.2⟩)

/-- Runs an adversary that watches, and acts the users. `u` are the hash queries that the adversary made or that were fixed
for it. -/
def Spec.Onlooker.actor (sp : SystemParameters G) (X : G) (x0 : F) :
    Spec.Onlooker G Out → Spec.HashLog → (ℕ → Spec.ActCoins) → Spec.Impostor G Out
  | .out o, _, _ => .out o
  | .ask t next, u, c => .ask t fun a =>
    (next ((u.lookup t).getD a)).actor sp X x0 (u ++ [(t, (u.lookup t).getD a)]) c
  | .issue m next, u, c => .issue m fun x => (next x).actor sp X x0 u c
  | .watch w next, u, c =>
    let p := Spec.acted sp (w.m.val • sp.h + w.r.val • sp.g) (c 0)
    (next p).actor sp X x0 ((u ++ [(Spec.actedQuery sp X x0 (c 0), (c 0).2.1.1)]) ++
      [(Spec.rosterQuery sp p, (c 0).2.2.1)]) fun k => c (k + 1)

open Classical in
/-- The probability that `Spec.unlock` finds the logarithm of the public key `X`, with users acted for the adversary.
`X` and everything else are uniform. -/
noncomputable def Spec.watchingUnlockWins {S Ω : Type} [Fintype S] [Fintype Ω] (sp : S → SystemParameters G)
    (A : SystemParameters G → G → Ω → Spec.Onlooker G Bytes) (T : ℕ) : ℚ :=
  Spec.mean fun x : S × (Ω × (Fin T → Spec.ActCoins)) × F × F =>
  Spec.mean fun s : (Fin (T + 1) → Spec.Cell × F) × (Fin (T + 1) → Spec.Cell × F) =>
    let X := x.2.2.2 • (sp x.1).h
    let B := (A (sp x.1) X x.2.1.1).actor (sp x.1) X x.2.2.1 [] (Spec.stretch x.2.1.2)
    if X = Spec.unlock (sp x.1) X x.2.2.1 B (Reduction.cellsOf s.1) (Reduction.cellsOf s.2)
      (Spec.coinsOf s.1) (Spec.coinsOf s.2) • (sp x.1).h then 1 else 0

namespace Bystander

open Watching Reduction

omit [AddCommGroup G] [Module F G] [Ristretto G] in
theorem within_mono (A : Spec.Onlooker G Out) : ∀ n n', n ≤ n' → A.Within n → A.Within n' := by
  induction A with
  | out o => exact fun _ _ _ _ => trivial
  | ask t next ih =>
    rintro _ n' hn ⟨n, rfl, h⟩
    exact ⟨n' - 1, by omega, fun a => ih a n _ (by omega) (h a)⟩
  | issue m next ih =>
    rintro _ n' hn ⟨n, rfl, h⟩
    exact ⟨n' - 1, by omega, fun a => ih a n _ (by omega) (h a)⟩
  | watch w next ih =>
    rintro _ n' hn ⟨n, rfl, h⟩
    exact ⟨n' - 2, by omega, fun a => ih a n _ (by omega) (h a)⟩

theorem delivered_within {sp : SystemParameters G} {X : G} (A : Spec.Onlooker G Bytes) :
    ∀ cs n, A.Within n → (A.delivered sp X cs).Within (n + 1) := by
  induction A with
  | out b => intro cs n _; exact ⟨n, rfl, fun _ => trivial⟩
  | ask t next ih =>
    rintro cs _ ⟨n, rfl, h⟩
    exact ⟨n + 1, rfl, fun a => ih a cs n (h a)⟩
  | issue m next ih =>
    rintro cs _ ⟨n, rfl, h⟩
    exact ⟨n + 1, rfl, fun c => ih c _ n (h c)⟩
  | watch w next ih =>
    rintro cs _ ⟨n, rfl, h⟩
    exact ⟨n + 1, by omega, fun c => ih c _ n (h c)⟩

theorem actor_within {sp : SystemParameters G} {X : G} {x0 : F} (A : Spec.Onlooker G Out) :
    ∀ u c n, A.Within n → (A.actor sp X x0 u c).Within n := by
  induction A with
  | out o => exact fun _ _ _ _ => trivial
  | ask t next ih =>
    rintro u c _ ⟨n, rfl, h⟩
    exact ⟨n, rfl, fun a => ih _ _ _ n (h _)⟩
  | issue m next ih =>
    rintro u c _ ⟨n, rfl, h⟩
    exact ⟨n, rfl, fun a => ih _ _ _ n (h _)⟩
  | watch w next ih =>
    rintro u c _ ⟨n, rfl, h⟩
    exact Deputy.within_mono _ n (n + 2) (by omega) (ih _ _ _ n (h _))

theorem sim_step (sp : SystemParameters G) (x0 x1 : F) (w : Spec.Member) (l : Spec.HashLog)
    (k : Spec.HashLog → SignalCredentialPresentation G → ℚ) :
    simShow sp (Scalar.ofF x0) (Scalar.ofF x1) w l k = Spec.mean fun c : Spec.ActCoins =>
      let p := Spec.acted sp (w.m.val • sp.h + w.r.val • sp.g) c
      k ((l ++ [(Spec.actedQuery sp (x1 • sp.h) x0 c, c.2.1.1)]) ++ [(Spec.rosterQuery sp p, c.2.2.1)]) p := by
  rw [Tagging.mean_prod]
  unfold simShow Spec.simulateShow
  refine Sim.mean_congr fun v => ?_
  dsimp only
  rw [Tagging.mean_prod, Tagging.mean_prod]
  unfold Spec.ValidCredential.simulated
  refine Sim.mean_congr fun a => Sim.mean_congr fun z => ?_
  dsimp only
  rw [Tagging.mean_prod]
  unfold Spec.CommittedValuesEqual.simulated
  refine Sim.mean_congr fun a' => Sim.mean_congr fun z' => ?_
  dsimp only
  have e : (Scalar.ofF x0).val • (v.1 • sp.h) + (Scalar.ofF x1).val • (v.2.1 • sp.h) - v.2.2 • sp.h =
      (x0 * v.1) • sp.h + v.2.1 • (x1 • sp.h) - v.2.2 • sp.h := by
    rw [Scalar.val_ofF, Scalar.val_ofF]
    module
  rw [e, Scalar.val_ofF]
  rfl

/-- How the queries `R` that really were made, the queries `l` in the game with simulated presentations, and the queries
`u` that were answered for the adversary are related. -/
structure Acts (G : Type) [AddCommGroup G] [Module F G] [Ristretto G] (R l u : Spec.HashLog) : Prop where
  real : ∀ t, IsIssuance G t → R.lookup t = l.lookup t
  known : ∀ t b, u.lookup t = some b → l.lookup t = some b
  unknown : ∀ t, ¬ IsIssuance G t → u.lookup t = none → l.lookup t = none ∧ R.lookup t = none

namespace Acts

variable {R l u : Spec.HashLog}

theorem answer (h : Acts G R l u) (t : Transcript) (a : Spec.Answer) :
    (u.lookup t).getD ((R.lookup t).getD a) = (l.lookup t).getD a := by
  cases hu : u.lookup t with
  | some b => rw [h.known t b hu]; rfl
  | none =>
    rw [Option.getD_none]
    by_cases hi : IsIssuance G t
    · rw [h.real t hi]
    · obtain ⟨h1, h2⟩ := h.unknown t hi hu
      rw [h1, h2]

theorem asked_congr {t t' : Transcript} (h : R.lookup t' = l.lookup t') (a : Spec.Answer) :
    (R.asked t a).lookup t' = (l.asked t a).lookup t' := by
  by_cases e : t' = t
  · subst e
    rw [Sim.lookup_asked, Sim.lookup_asked, h]
  · rw [Deputy.asked_ne e, Deputy.asked_ne e, h]

theorem issue (h : Acts G R l u) {t : Transcript} (ht : IsIssuance G t) (a : Spec.Answer) :
    Acts G (R.asked t a) (l.asked t a) u where
  real t' h' := asked_congr (h.real t' h') a
  known t' b hu := Deputy.Mimics.mono (h.known t' b hu) _ _
  unknown t' h1 h2 := by
    have : t' ≠ t := fun e => h1 (e ▸ ht)
    rw [Deputy.asked_ne this, Deputy.asked_ne this]
    exact h.unknown t' h1 h2

theorem ask (h : Acts G R l u) (t : Transcript) (a : Spec.Answer) :
    Acts G (R.asked t a) (l.asked t a) (u ++ [(t, (l.lookup t).getD a)]) where
  real t' h' := asked_congr (h.real t' h') a
  known t' b hu := by
    rw [Deputy.lookup_append_one] at hu
    cases hu' : u.lookup t' with
    | some b' =>
      rw [hu', Option.some_or] at hu
      cases hu
      exact Deputy.Mimics.mono (h.known t' b hu') _ _
    | none =>
      rw [hu', Option.none_or] at hu
      split at hu
      · rename_i e
        subst e
        rw [Sim.lookup_asked, ← hu]
      · cases hu
  unknown t' h1 h2 := by
    rw [Deputy.lookup_append_one] at h2
    by_cases e : t' = t
    · rw [if_pos e] at h2
      cases hu : u.lookup t' <;> rw [hu] at h2 <;> cases h2
    · rw [if_neg e, Option.or_none] at h2
      rw [Deputy.asked_ne e, Deputy.asked_ne e]
      exact h.unknown t' h1 h2

theorem fix (h : Acts G R l u) {t : Transcript} (ht : ¬ IsIssuance G t) (a : Spec.Answer) :
    Acts G R (l ++ [(t, a)]) (u ++ [(t, a)]) where
  real t' h' := by
    rw [Deputy.lookup_append_one, if_neg (show ¬ t' = t from fun e => ht (e ▸ h')), Option.or_none]
    exact h.real t' h'
  known t' b hu := by
    rw [Deputy.lookup_append_one] at hu ⊢
    cases hu' : u.lookup t' with
    | some b' =>
      rw [hu', Option.some_or] at hu
      cases hu
      rw [h.known t' b hu', Option.some_or]
    | none =>
      rw [hu', Option.none_or] at hu
      split at hu
      · rename_i e
        rw [(h.unknown t' (e ▸ ht) hu').1, Option.none_or]
        exact (if_pos e).trans hu
      · cases hu
  unknown t' h1 h2 := by
    rw [Deputy.lookup_append_one] at h2 ⊢
    cases hu : u.lookup t' with
    | some b => rw [hu] at h2; cases h2
    | none =>
      rw [hu, Option.none_or] at h2
      rw [(h.unknown t' h1 hu).1, Option.none_or]
      exact ⟨h2, (h.unknown t' h1 hu).2⟩

end Acts

section
variable {O : Oracle} {sp : SystemParameters G} {x0 x1 : F}

/-- With simulated presentations, acting the users makes no difference. -/
theorem act {f : Bytes × List (CredentialIssuance G) → Spec.HashLog → ℚ}
    (hf : ∀ o l R, (∀ t, IsIssuance G t → R.lookup t = l.lookup t) → f o l = f o R) (A : Spec.Onlooker G Bytes) :
    ∀ (cs : List (CredentialIssuance G)) (R l u : Spec.HashLog) (ps : List (SignalCredentialPresentation G)) (n N : ℕ),
      A.Within n → n ≤ N → Acts G R l u →
      (A.delivered sp (x1 • sp.h) cs).expect (Spec.honestIssue O sp (Scalar.ofF x0) (Scalar.ofF x1))
        (simShow sp (Scalar.ofF x0) (Scalar.ofF x1)) (fun o l _ => f o l) l ps =
      Spec.mean fun s : Fin N → Spec.ActCoins =>
        ((A.actor sp (x1 • sp.h) x0 u (Spec.stretch s)).delivered sp (x1 • sp.h) cs).expect
          (Spec.honestIssue O sp (Scalar.ofF x0) (Scalar.ofF x1)) f R := by
  induction A with
  | out b =>
    intro cs R l u ps n N _ _ h
    simp only [Spec.Onlooker.delivered, Spec.Onlooker.expect, Spec.Onlooker.actor, Spec.Impostor.delivered,
      Spec.Impostor.expect]
    refine Eq.trans ?_ (Sim.mean_const (α := Fin N → Spec.ActCoins) _).symm
    exact Sim.mean_congr fun a => hf _ _ _ fun t ht => Acts.asked_congr (h.real t ht) a
  | ask t next ih =>
    rintro cs R l u ps _ N ⟨n, rfl, hn⟩ hN h
    simp only [Spec.Onlooker.delivered, Spec.Onlooker.expect, Spec.Onlooker.actor, Spec.Impostor.delivered,
      Spec.Impostor.expect]
    rw [Sim.mean_comm]
    refine Sim.mean_congr fun a => ?_
    simp only [h.answer]
    exact ih _ cs _ _ _ ps n N (hn _) (by omega) (h.ask t a)
  | issue m next ih =>
    rintro cs R l u ps _ N ⟨n, rfl, hn⟩ hN h
    simp only [Spec.Onlooker.delivered, Spec.Onlooker.expect, Spec.Onlooker.actor, Spec.Impostor.delivered,
      Spec.Impostor.expect]
    simp only [Deputy.issue_step]
    conv_rhs => rw [Sim.mean_comm]
    refine Sim.mean_congr fun b => ?_
    conv_rhs => rw [Sim.mean_comm]
    refine Sim.mean_congr fun z => ?_
    conv_rhs => rw [Sim.mean_comm]
    refine Sim.mean_congr fun ρ => ?_
    conv_rhs => rw [Sim.mean_comm]
    refine Sim.mean_congr fun a => ?_
    have hi : IsIssuance G (Deputy.issueQuery sp (Scalar.ofF x0) (Scalar.ofF x1) m b z ρ) := by
      rw [Deputy.issueQuery, IssuanceRevealed.zkQuery_eq]
      exact ⟨_, _, rfl⟩
    rw [h.real _ hi]
    exact ih _ _ _ _ u ps n N (hn _) (by omega) (h.issue hi a)
  | watch w next ih =>
    rintro cs R l u ps _ N ⟨n, rfl, hn⟩ hN h
    obtain ⟨N, rfl⟩ : ∃ N', N = N' + 1 := ⟨N - 1, by omega⟩
    simp only [Spec.Onlooker.delivered, Spec.Onlooker.expect, Spec.Onlooker.actor]
    rw [sim_step]
    let K : Spec.ActCoins → (ℕ → Spec.ActCoins) → ℚ := fun c c' =>
      let p := Spec.acted sp (w.m.val • sp.h + w.r.val • sp.g) c
      (((next p).actor sp (x1 • sp.h) x0 ((u ++ [(Spec.actedQuery sp (x1 • sp.h) x0 c, c.2.1.1)]) ++
        [(Spec.rosterQuery sp p, c.2.2.1)]) c').delivered sp (x1 • sp.h) cs).expect
        (Spec.honestIssue O sp (Scalar.ofF x0) (Scalar.ofF x1)) f R
    refine Eq.trans ?_ (Deputy.mean_cons (N := N) K).symm
    refine Sim.mean_congr fun c => ?_
    refine ih _ cs _ _ _ _ n N (hn _) (by omega) ((h.fix ?_ _).fix ?_ _)
    · rintro ⟨q, c', e⟩
      exact nomatch C32_injective (show Spec.Query.ops (.validCredential _ _ _) = _ from e)
    · rintro ⟨q, c', e⟩
      exact nomatch C32_injective (show Spec.Query.ops (.committedValuesEqual _ _ _) = _ from e)

theorem acts_nil : Acts G [] [] [] := ⟨fun _ _ => rfl, fun _ _ h => (by cases h), fun _ _ _ => ⟨rfl, rfl⟩⟩

/-- A user judges an issuance by the answer to the query of an issuance. -/
theorem minted_congr {X : G} {R l : Spec.HashLog} (h : ∀ t, IsIssuance G t → R.lookup t = l.lookup t) {b : Bytes}
    {cs : List (CredentialIssuance G)} (hm : Spec.Minted (l.oracle O) (User.new sp ⟨[X]⟩ none) b cs) :
    Spec.Minted (R.oracle O) (User.new sp ⟨[X]⟩ none) b cs := by
  obtain ⟨c, h1, h2, h3⟩ := hm
  refine ⟨c, h1, ?_, h3⟩
  have hv := Mint.accepted h2
  have hv' : IssuanceRevealed.verify (R.oracle O) [.init "AEONFLUX ISSUANCE"] c.proof (Spec.issuancePublics sp X c) =
      true := by
    rw [← hv, IssuanceRevealed.verify, IssuanceRevealed.verify, getChallenge, getChallenge]
    refine congrArg (fun b => decide (Scalar.fromWide b = c.proof.challenge)) ?_
    have := h (Spec.acceptQuery sp X c) ⟨_, _, rfl⟩
    unfold Spec.acceptQuery at this
    simp only [Spec.HashLog.oracle, this]
  unfold User.obtainFinish
  dsimp only [User.new, List.getElem?_cons_zero]
  split
  · rfl
  · rename_i h
    exact absurd hv' h

end

section
variable {S Ω : Type} [Fintype S] [Fintype Ω] {sp : S → SystemParameters G}
  {A : SystemParameters G → G → Ω → Spec.Onlooker G Bytes} {T : ℕ}

/-- The adversary with its users acted. -/
noncomputable def acting (sp : S → SystemParameters G) (A : SystemParameters G → G → Ω → Spec.Onlooker G Bytes) (T : ℕ) :
    S × (Ω × (Fin T → Spec.ActCoins)) × F × F → Spec.Impostor G Bytes := fun x =>
  (A (sp x.1) (x.2.2.2 • (sp x.1).h) x.2.1.1).actor (sp x.1) (x.2.2.2 • (sp x.1).h) x.2.2.1 [] (Spec.stretch x.2.1.2)

set_option synthInstance.maxSize 1000 in
/-- A game with honest users, and the same with users acted. -/
theorem close [Nonempty S] [Nonempty Ω] (O : Oracle) (hh : ∀ σ, (sp σ).h ≠ 0)
    (hA : ∀ σ X ω, (A (sp σ) X ω).Within T)
    {f : S × F × F → Bytes × List (CredentialIssuance G) → Spec.HashLog → ℚ} (h01 : ∀ y o l, 0 ≤ f y o l ∧ f y o l ≤ 1)
    (hf : ∀ y o l R, (∀ t, IsIssuance G t → R.lookup t = l.lookup t) → f y o l = f y o R) :
    |(Spec.mean fun x : S × Ω × F × F =>
        let X := x.2.2.2 • (sp x.1).h
        ((A (sp x.1) X x.2.1).delivered (sp x.1) X []).expect
          (Spec.honestIssue O (sp x.1) (Scalar.ofF x.2.2.1) (Scalar.ofF x.2.2.2))
          (Spec.memberShow O (sp x.1) (Scalar.ofF x.2.2.1) (Scalar.ofF x.2.2.2))
          (fun o l _ => f (x.1, x.2.2) o l) [] []) -
      (Spec.mean fun x : S × (Ω × (Fin T → Spec.ActCoins)) × F × F =>
        ((acting sp A T x).delivered (sp x.1) (x.2.2.2 • (sp x.1).h) []).expect
          (Spec.honestIssue O (sp x.1) (Scalar.ofF x.2.2.1) (Scalar.ofF x.2.2.2)) (f (x.1, x.2.2)) [])| ≤
      (T + 1) ^ 2 / ell := by
  have e : (Spec.mean fun x : S × (Ω × (Fin T → Spec.ActCoins)) × F × F =>
        ((acting sp A T x).delivered (sp x.1) (x.2.2.2 • (sp x.1).h) []).expect
          (Spec.honestIssue O (sp x.1) (Scalar.ofF x.2.2.1) (Scalar.ofF x.2.2.2)) (f (x.1, x.2.2)) []) =
      Spec.mean fun x : S × Ω × F × F => Spec.mean fun c : Fin T → Spec.ActCoins =>
        (((A (sp x.1) (x.2.2.2 • (sp x.1).h) x.2.1).actor (sp x.1) (x.2.2.2 • (sp x.1).h) x.2.2.1 []
          (Spec.stretch c)).delivered (sp x.1) (x.2.2.2 • (sp x.1).h) []).expect
          (Spec.honestIssue O (sp x.1) (Scalar.ofF x.2.2.1) (Scalar.ofF x.2.2.2)) (f (x.1, x.2.2)) [] := by
    unfold acting
    rw [Tagging.mean_prod (α := S), Tagging.mean_prod (α := S)]
    refine Sim.mean_congr fun σ => ?_
    rw [Tagging.mean_prod (α := Ω × (Fin T → Spec.ActCoins)), Tagging.mean_prod (α := Ω),
      Tagging.mean_prod (α := Ω)]
    refine Sim.mean_congr fun ω => ?_
    rw [Sim.mean_comm]
  rw [e]
  refine Sim.abs_sub_mean_le fun x => ?_
  dsimp only
  rw [← act (O := O) (sp := sp x.1) (x0 := x.2.2.1) (x1 := x.2.2.2) (f := f (x.1, x.2.2)) (hf (x.1, x.2.2))
    (A (sp x.1) (x.2.2.2 • (sp x.1).h) x.2.1) [] [] [] [] [] T T (hA _ _ _) le_rfl acts_nil]
  have h := expect_close
    (Deputy.sampled_close (Deputy.issue_sampled O (sp x.1) (Scalar.ofF x.2.2.1) (Scalar.ofF x.2.2.2)))
    (member_close O (sp x.1) (hh x.1) (Scalar.ofF x.2.2.1) (Scalar.ofF x.2.2.2))
    (f := fun o l _ => f (x.1, x.2.2) o l) (fun o l _ => h01 _ o l)
    ((A (sp x.1) (x.2.2.2 • (sp x.1).h) x.2.1).delivered (sp x.1) (x.2.2.2 • (sp x.1).h) []) [] [] (T + 1)
    (delivered_within _ [] T (hA _ _ _))
  simp only [List.length_nil, Nat.cast_zero, zero_add] at h
  push_cast at h
  rwa [← sq] at h

end

end Bystander

/-! ## C104 -/

/-- **C104**, for adversaries that also watch honest users present, whose numbers and roster openings they choose: the
probability of making an issuance which a user accepts, and which was not received from the issuer, is at most
`ε + ε' + 4(T+1)²/ℓ`, where `Spec.unlock` (with users acted) finds the logarithm of the public key with probability at
least `ε²/(T+1) - ε·2⁻²⁵²`, and running the adversary once, with an issuer and users of one's own, gives the logarithm of
`h` to the base `g` with probability `ε'`. So presentations are of no use for making issuances. -/
theorem C104_watching {S Ω : Type} [Fintype S] [Nonempty S] [Fintype Ω] [Nonempty Ω] (O : Oracle)
    (sp : S → SystemParameters G) (hg : ∀ σ, (sp σ).g ≠ 0) (hh : ∀ σ, (sp σ).h ≠ 0)
    (A : SystemParameters G → G → Ω → Spec.Onlooker G Bytes) (T : ℕ) (hA : ∀ σ X ω, (A (sp σ) X ω).Within T) :
    ∃ ε : ℚ, 0 ≤ ε ∧
      Spec.watchingMinterWins O sp A ≤ ε + Spec.watchingQuotientWins O sp A + 4 * (T + 1) ^ 2 / ell ∧
      ε ^ 2 / (T + 1) - ε / 2 ^ 252 ≤ Spec.watchingUnlockWins sp A T := by
  classical
  let B := Bystander.acting sp A T
  have hB : ∀ x, (B x).Within T := fun x => Bystander.actor_within _ _ _ T (hA _ _ _)
  refine ⟨Mint.novelty O sp B T, ?_, ?_, Mint.novel_le O hB⟩
  · unfold Mint.novelty
    exact (Sim.mean01 fun x => Sim.mean01 fun s => by split <;> norm_num).1
  have h1 := Mint.wins_le O hg hh hB
  have h2 := (abs_sub_le_iff.1 (Bystander.close O hh hA
    (f := fun y o l => if Spec.Minted (l.oracle O) (User.new (sp y.1) ⟨[y.2.2 • (sp y.1).h]⟩ none) o.1 o.2 then 1 else 0)
    (fun y o l => by split <;> norm_num)
    (fun y o l R h => by
      refine if_congr ⟨Bystander.minted_congr h, Bystander.minted_congr fun t ht => (h t ht).symm⟩ rfl rfl))).1
  have h3 := (abs_sub_le_iff.1 (Bystander.close O hh hA
    (f := fun y o _ => if Spec.Divided (sp y.1) o.1 o.2 then 1 else 0)
    (fun y o l => by split <;> norm_num) (fun y o l R h => rfl))).2
  change Spec.watchingMinterWins O sp A - Mint.wins O sp B ≤ _ at h2
  change Mint.divides O sp B - Spec.watchingQuotientWins O sp A ≤ _ at h3
  have e : 4 * ((T : ℚ) + 1) ^ 2 / ell = 2 * (T + 1) ^ 2 / ell + (T + 1) ^ 2 / ell + (T + 1) ^ 2 / ell := by ring
  rw [e]
  linarith

/-- **C104**, for adversaries that also watch, as a bound: if the logarithm of the public key is found with probability at
most `t²/(2(T+1))`, and that of `h` with probability at most `u`, then the adversary succeeds with probability at most
`t + u + 4(T+1)²/ℓ + 2(T+1)·2⁻²⁵²`. -/
theorem C104_watching_bound {S Ω : Type} [Fintype S] [Nonempty S] [Fintype Ω] [Nonempty Ω] (O : Oracle)
    (sp : S → SystemParameters G) (hg : ∀ σ, (sp σ).g ≠ 0) (hh : ∀ σ, (sp σ).h ≠ 0)
    (A : SystemParameters G → G → Ω → Spec.Onlooker G Bytes) (T : ℕ) (hA : ∀ σ X ω, (A (sp σ) X ω).Within T)
    (t u : ℚ) (ht : 0 ≤ t) (h1 : Spec.watchingUnlockWins sp A T ≤ t ^ 2 / (2 * (T + 1)))
    (h2 : Spec.watchingQuotientWins O sp A ≤ u) :
    Spec.watchingMinterWins O sp A ≤ t + u + 4 * (T + 1) ^ 2 / ell + 2 * (T + 1) / 2 ^ 252 := by
  obtain ⟨ε, h0, h3, h4⟩ := C104_watching O sp hg hh A T hA
  have hT : (0 : ℚ) < T + 1 := by positivity
  have hD : (0 : ℚ) < 2 ^ 252 := by positivity
  have k1 := Theft.root hT hD h0 ht h4 h1
  linarith

/-- **C104**: for adversaries that do not watch, the game is that of `C104_reduction`. -/
theorem C104_includes {S Ω : Type} [Fintype S] [Fintype Ω] (O : Oracle) (sp : S → SystemParameters G)
    (A : SystemParameters G → G → Ω → Spec.Impostor G Bytes) :
    Spec.watchingMinterWins O sp (fun sp X ω => (A sp X ω).blindfolded) = Spec.minterWins O sp A := by
  unfold Spec.watchingMinterWins Spec.minterWins
  refine Sim.mean_congr fun x => ?_
  dsimp only
  generalize A (sp x.1) (x.2.2.2 • (sp x.1).h) x.2.1 = B
  generalize ([] : Spec.HashLog) = l
  generalize ([] : List (CredentialIssuance G)) = cs
  induction B generalizing l cs with
  | out o => rfl
  | ask t next ih => exact Sim.mean_congr fun a => ih _ _ _
  | issue m next ih =>
    change Spec.honestIssue _ _ _ _ _ _ _ = Spec.honestIssue _ _ _ _ _ _ _
    congr 1
    funext l' c
    exact ih c l' _

/-- In the toy group, where logarithms are easy, an adversary always succeeds. It meets the hypotheses of
`C104_watching`. -/
example (O : Oracle) : ∃ A : SystemParameters F → F → Unit → Spec.Onlooker F Bytes, (∀ X ω, (A ⟨1, 4⟩ X ω).Within 1) ∧
    1 ≤ Spec.watchingMinterWins O (fun _ : Unit => (⟨1, 4⟩ : SystemParameters F)) A := by
  classical
  have h := C104_converse (Ω := Unit) O (fun _ : Unit => (⟨1, 4⟩ : SystemParameters F)) (fun sp X _ => X / sp.h)
  refine ⟨fun sp X _ => (Spec.counterfeit sp (X / sp.h)).blindfolded, fun X ω => ⟨0, rfl, fun _ => trivial⟩,
    le_trans (le_of_eq ?_) (h.1.trans_eq (C104_includes O _ _).symm)⟩
  refine Eq.trans (Sim.mean_const (α := Unit × Unit × F × F) 1).symm (Sim.mean_congr fun x => ?_)
  have h4 : (4 : F) ≠ 0 := by decide +kernel
  rw [if_pos]
  simp only [smul_eq_mul]
  rw [div_mul_cancel₀ _ h4]

set_option synthInstance.maxSize 1000 in
/-- An adversary that watches, and then sends nothing that can be decoded, meets the hypotheses of `C104_watching_bound`:
the algorithm returns zero. -/
example (O : Oracle) : let w : Spec.Member := ⟨⟨8, by decide +kernel⟩, ⟨3, by decide +kernel⟩, 1, one_ne_zero⟩
    let A : SystemParameters F → F → Unit → Spec.Onlooker F Bytes := fun _ _ _ => .watch w fun _ => .out []
    (∀ X ω, (A ⟨1, 4⟩ X ω).Within 2) ∧
    Spec.watchingUnlockWins (fun _ : Unit => (⟨1, 4⟩ : SystemParameters F)) A 2 ≤
      (1 / 2 ^ 100) ^ 2 / (2 * ((2 : ℕ) + 1)) ∧
    Spec.watchingQuotientWins O (fun _ : Unit => (⟨1, 4⟩ : SystemParameters F)) A ≤ 0 := by
  classical
  intro w A
  have hA : ∀ X ω, (A ⟨1, 4⟩ X ω).Within 2 := fun _ _ => ⟨0, rfl, fun _ => trivial⟩
  refine ⟨hA, ?_, ?_⟩
  swap
  · unfold Spec.watchingQuotientWins
    refine le_of_le_of_eq (Sim.mean_mono fun x => ?_) (Sim.mean_const (α := Unit × Unit × F × F) 0)
    have hd : ¬ Spec.Divided (⟨1, 4⟩ : SystemParameters F) [] [] := by
      rintro ⟨y, hy, -⟩
      cases hy
    have hs : ∀ (l : Spec.HashLog) (k : Spec.HashLog → SignalCredentialPresentation F → ℚ), (∀ l' p, k l' p = 0) →
        Spec.memberShow O (⟨1, 4⟩ : SystemParameters F) (Scalar.ofF x.2.2.1) (Scalar.ofF x.2.2.2) w l k = 0 := by
      intro l k hk
      have : k = fun _ _ => 0 := funext fun l' => funext fun p => hk l' p
      subst this
      unfold Spec.memberShow Spec.honestShow
      dsimp only
      refine Eq.trans (Sim.mean_congr (g := fun _ => (0 : ℚ)) fun d => ?_) (Sim.mean_const (α := F × F × F) 0)
      refine Eq.trans (Sim.mean_congr (g := fun _ => (0 : ℚ)) fun ρ => ?_) (Sim.mean_const (α := F × F × F) 0)
      refine Eq.trans (Sim.mean_congr (g := fun _ => (0 : ℚ)) fun a => ?_) (Sim.mean_const (α := Spec.Answer) 0)
      refine Eq.trans (Sim.mean_congr (g := fun _ => (0 : ℚ)) fun ρ' => ?_) (Sim.mean_const (α := F × F × F) 0)
      exact Sim.mean_const (α := Spec.Answer) 0
    refine le_of_eq (hs _ _ fun l' p => ?_)
    refine Eq.trans (Sim.mean_congr fun a => ?_) (Sim.mean_const (α := Spec.Answer) 0)
    exact if_neg hd
  have e : Spec.watchingUnlockWins (fun _ : Unit => (⟨1, 4⟩ : SystemParameters F)) A 2 = 1 / ell := by
    unfold Spec.watchingUnlockWins
    have g (f : F → ℚ) : (Spec.mean fun x : Unit × (Unit × (Fin 2 → Spec.ActCoins)) × F × F => f x.2.2.2) =
        Spec.mean f := by
      rw [Tagging.mean_prod]
      refine Eq.trans (Sim.mean_congr (g := fun _ => Spec.mean f) fun a => ?_) (Sim.mean_const (α := Unit) (Spec.mean f))
      rw [Tagging.mean_prod]
      refine Eq.trans (Sim.mean_congr (g := fun _ => Spec.mean f) fun a => ?_)
        (Sim.mean_const (α := Unit × (Fin 2 → Spec.ActCoins)) (Spec.mean f))
      exact Echo.mean_snd (β := F) f
    refine Eq.trans (Sim.mean_congr (g := fun x : Unit × (Unit × (Fin 2 → Spec.ActCoins)) × F × F =>
      if x.2.2.2 = 0 then (1 : ℚ) else 0) fun x => ?_) (Eq.trans (g fun z => if z = 0 then (1 : ℚ) else 0) ?_)
    · refine Eq.trans (Sim.mean_congr (g := fun _ => if x.2.2.2 = 0 then (1 : ℚ) else 0) fun s => ?_)
        (Sim.mean_const (if x.2.2.2 = 0 then (1 : ℚ) else 0))
      have o : ∀ (X : F) (c c' : ℕ → Spec.Cell) (b b' : ℕ → F),
          Spec.unlock (⟨1, 4⟩ : SystemParameters F) X x.2.2.1
            ((A ⟨1, 4⟩ X x.2.1.1).actor ⟨1, 4⟩ X x.2.2.1 [] (Spec.stretch x.2.1.2)) c c' b b' = 0 := by
        intro X c c' b b'
        have : Spec.proofIn F [] = ⟨0, 0, 0, 0, 0⟩ := rfl
        change (IssuanceRevealed.extract (Spec.proofIn F []) (Spec.proofIn F [])).x1.val = 0
        rw [this]
        simp [IssuanceRevealed.extract, Scalar.val_ofF]
      simp only [o]
      refine if_congr ?_ rfl rfl
      have h4 : (4 : F) ≠ 0 := by decide +kernel
      simp [h4]
    · unfold Spec.mean
      rw [Finset.sum_ite_eq' Finset.univ, if_pos (Finset.mem_univ _), ZMod.card]
  have : (2 : ℚ) ^ 252 ≤ ell := by exact_mod_cast (by decide +kernel : 2 ^ 252 ≤ ell)
  rw [e]
  refine (one_div_le_one_div_of_le (by positivity) this).trans ?_
  norm_num

end Verif
