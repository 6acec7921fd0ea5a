import Verif.Props.Reduction

/-!
# Adversaries that also watch presentations (C94): the games

As C93, but the adversary also sees presentations of honest users, whose numbers and roster openings it chooses. It may
then not just repeat one of them. This file has the games, and replaces honest presentations by simulated ones.
-/

set_option maxRecDepth 100000

namespace Verif

open Amacs

variable {G : Type} [AddCommGroup G] [Module F G] [Ristretto G] {Out : Type}

/-! ## The game -/

/-- An honest user that presents: its number, the opening of its roster entry, and the logarithm of the nonce
of its credential. All are chosen by the adversary. -/
structure Spec.Member where
  m : Scalar
  r : Scalar
  b : F
  ne : b ≠ 0

/-- The user's roster entry. -/
def Spec.Member.entry (sp : SystemParameters G) (w : Spec.Member) : RosterEntryCommitment G :=
  ⟨w.m.val • sp.h + w.r.val • sp.g, w.r⟩

/-- The user with a credential of the issuer with the given secret key. -/
def Spec.Member.holder (sp : SystemParameters G) (x0 x1 : Scalar) (w : Spec.Member) : Spec.Holder sp x0 x1 where
  credential := ⟨⟨w.b • basepoint G, (x1.val * w.m.val + x0.val) • (w.b • basepoint G)⟩, [w.m]⟩
  m := w.m
  ros := w.entry sp
  valid := by simp [Spec.MacValid, Spec.macFactor]
  nonce := fun e => w.ne (by
    dsimp only at e
    rwa [← zero_smul F (basepoint G), smul_right_inj' Ristretto.base_ne] at e)
  entry := rfl

/-- An adversary that asks the hash, gets attributes issued, watches presentations, and finally returns something. -/
inductive Spec.Onlooker (G Out : Type) where
  | out (o : Out)
  | ask (t : Transcript) (next : Spec.Answer → Spec.Onlooker G Out)
  | issue (m : Scalar) (next : CredentialIssuance G → Spec.Onlooker G Out)
  | watch (w : Spec.Member) (next : SignalCredentialPresentation G → Spec.Onlooker G Out)

namespace Spec.Onlooker

/-- At most `n` hash queries, by anybody: one for each issuance, two for each presentation. -/
def Within : Spec.Onlooker G Out → ℕ → Prop
  | out _, _ => True
  | ask _ next, n => ∃ n', n = n' + 1 ∧ ∀ a, (next a).Within n'
  | issue _ next, n => ∃ n', n = n' + 1 ∧ ∀ c, (next c).Within n'
  | watch _ next, n => ∃ n', n = n' + 2 ∧ ∀ p, (next p).Within n'

/-- No attribute in `V` is issued to the adversary. It may watch users with such attributes. -/
def Avoids (V : Set F) : Spec.Onlooker G Out → Prop
  | out _ => True
  | ask _ next => ∀ a, (next a).Avoids V
  | issue m next => m.val ∉ V ∧ ∀ c, (next c).Avoids V
  | watch _ next => ∀ p, (next p).Avoids V

/-- The expected value of `f` at the end, after the queries `l` and the presentations `ps`, if `iss` issues and
`shw` presents. -/
noncomputable def expect (iss : Spec.Server Scalar fun _ => CredentialIssuance G)
    (shw : Spec.Server Spec.Member fun _ => SignalCredentialPresentation G)
    (f : Out → Spec.HashLog → List (SignalCredentialPresentation G) → ℚ) :
    Spec.Onlooker G Out → Spec.HashLog → List (SignalCredentialPresentation G) → ℚ
  | out o, l, ps => f o l ps
  | ask t next, l, ps => Spec.mean fun a => (next ((l.lookup t).getD a)).expect iss shw f (l.asked t a) ps
  | issue m next, l, ps => iss m l fun l' c => (next c).expect iss shw f l' ps
  | watch w next, l, ps => shw w l fun l' p => (next p).expect iss shw f l' (p :: ps)

/-- The adversary's claim is checked: the issuer makes its two queries. -/
def checked (i : Issuer G) : Spec.Onlooker G Spec.Attempt → Spec.Onlooker G Spec.Attempt
  | .out o => .ask (o.query i 0) fun _ => .ask (o.query i 1) fun _ => .out o
  | .ask t next => .ask t fun a => (next a).checked i
  | .issue m next => .issue m fun c => (next c).checked i
  | .watch w next => .watch w fun p => (next p).checked i

end Spec.Onlooker

/-- The claim is one of the presentations that were seen. -/
def Spec.Attempt.Copies (o : Spec.Attempt) (ps : List (SignalCredentialPresentation G)) : Prop :=
  ∃ p ∈ ps, SignalCredentialPresentation.fromBytes o.bytes = .ok p

open Classical in
/-- One if the claim is accepted and not one of the presentations that were seen. -/
noncomputable def Spec.Attempt.fresh (O : Oracle) (i : Issuer G) (V : Set F) (o : Spec.Attempt) (l : Spec.HashLog)
    (ps : List (SignalCredentialPresentation G)) : ℚ :=
  if o.Good (l.oracle O) i V ∧ ¬ o.Copies ps then 1 else 0

/-- `SignalUser::show` by the users that the adversary chooses. -/
noncomputable def Spec.memberShow (O : Oracle) (sp : SystemParameters G) (x0 x1 : Scalar) :
    Spec.Server Spec.Member fun _ => SignalCredentialPresentation G :=
  fun w => Spec.honestShow O sp x0 x1 (w.holder sp x0 x1)

/-- The probability that an adversary gets accepted for a number in `V`, without repeating a presentation that it
saw. It is given the parameters and the public key; setup `σ`, coins `ω` and the issuer's secret key are uniform. -/
noncomputable def Spec.onlookerWins {S Ω : Type} [Fintype S] [Fintype Ω] (O : Oracle) (sp : S → SystemParameters G)
    (A : SystemParameters G → G → Ω → Spec.Onlooker G Spec.Attempt) (V : Set F) : ℚ :=
  Spec.mean fun x : S × Ω × F × F =>
    let i := Spec.issuerOf (sp x.1) x.2.2.1 x.2.2.2
    ((A (sp x.1) (x.2.2.2 • (sp x.1).h) x.2.1).checked i).expect
      (Spec.honestIssue O (sp x.1) (Scalar.ofF x.2.2.1) (Scalar.ofF x.2.2.2))
      (Spec.memberShow O (sp x.1) (Scalar.ofF x.2.2.1) (Scalar.ofF x.2.2.2)) (Spec.Attempt.fresh O i V) [] []

/-! ## Replacing issuances and presentations -/

namespace Watching

open Spec.Onlooker

abbrev Issues (G : Type) := Spec.Server Scalar fun _ => CredentialIssuance G
abbrev Shows (G : Type) := Spec.Server Spec.Member fun _ => SignalCredentialPresentation G
abbrev Final (G Out : Type) := Out → Spec.HashLog → List (SignalCredentialPresentation G) → ℚ

omit [AddCommGroup G] [Module F G] [Ristretto G] in
theorem expect01 {iss : Issues G} {shw : Shows G}
    (hs : ∀ x l f, Sim.Unit01 f → 0 ≤ iss x l f ∧ iss x l f ≤ 1)
    (hw : ∀ x l f, Sim.Unit01 f → 0 ≤ shw x l f ∧ shw x l f ≤ 1) {f : Final G Out}
    (hf : ∀ o l ps, 0 ≤ f o l ps ∧ f o l ps ≤ 1) (A : Spec.Onlooker G Out) :
    ∀ l ps, 0 ≤ A.expect iss shw f l ps ∧ A.expect iss shw f l ps ≤ 1 := by
  induction A with
  | out o => intro l ps; exact hf o l ps
  | ask t next ih => intro l ps; exact Sim.mean01 fun a => ih _ _ _
  | issue m next ih => intro l ps; exact hs m l _ fun l' c => ih c l' ps
  | watch w next ih => intro l ps; exact hw w l _ fun l' p => ih p l' (p :: ps)

omit [AddCommGroup G] [Module F G] [Ristretto G] in
theorem expect_close {iss iss' : Issues G} {shw shw' : Shows G} (h : Sim.Close 1 iss iss') (h' : Sim.Close 2 shw shw')
    {f : Final G Out} (hf : ∀ o l ps, 0 ≤ f o l ps ∧ f o l ps ≤ 1)
    (A : Spec.Onlooker G Out) : ∀ (l : Spec.HashLog) (ps : List (SignalCredentialPresentation G)) (n : ℕ), A.Within n →
      |A.expect iss shw f l ps - A.expect iss' shw' f l ps| ≤ n * (l.length + n) / ell := by
  have hell : (0 : ℚ) < ell := Tagging.ell_pos
  induction A with
  | out o =>
    intro l ps n _
    simp only [expect, sub_self, abs_zero]
    positivity
  | ask t next ih =>
    intro l ps n hw
    obtain ⟨n, rfl, hw⟩ := hw
    refine Sim.abs_sub_mean_le fun a => (ih _ (l.asked t a) ps n (hw _)).trans ?_
    rw [show (l.asked t a).length = l.length + 1 by simp [Spec.HashLog.asked]]
    refine div_le_div_of_nonneg_right ?_ hell.le
    push_cast
    nlinarith [show (0 : ℚ) ≤ l.length by positivity, show (0 : ℚ) ≤ n by positivity]
  | issue m next ih =>
    intro l ps n hw
    obtain ⟨n, rfl, hw⟩ := hw
    refine (h.close m l _ _ (n * (l.length + 1 + n) / ell)
      (fun l' c => expect01 h.range h'.range hf (next c) l' ps)
      (fun l' c => expect01 h.range' h'.range' hf (next c) l' ps)
      (fun l' c hl => ?_)).trans ?_
    · have := ih c l' ps n (hw c)
      rw [hl] at this
      push_cast at this
      exact this
    · rw [← add_div]
      refine div_le_div_of_nonneg_right ?_ hell.le
      push_cast
      nlinarith [show (0 : ℚ) ≤ l.length by positivity, show (0 : ℚ) ≤ n by positivity]
  | watch w next ih =>
    intro l ps n hw
    obtain ⟨n, rfl, hw⟩ := hw
    refine (h'.close w l _ _ (n * (l.length + 2 + n) / ell)
      (fun l' p => expect01 h.range h'.range hf (next p) l' (p :: ps))
      (fun l' p => expect01 h.range' h'.range' hf (next p) l' (p :: ps))
      (fun l' p hl => ?_)).trans ?_
    · have := ih p l' (p :: ps) n (hw p)
      rw [hl] at this
      push_cast at this
      exact this
    · rw [← add_div]
      refine div_le_div_of_nonneg_right ?_ hell.le
      push_cast
      nlinarith [show (0 : ℚ) ≤ l.length by positivity, show (0 : ℚ) ≤ n by positivity]

theorem close_symm {K : Type} {Pf : K → Type} {c : ℕ} {s s' : Spec.Server K Pf} (h : Sim.Close c s s') :
    Sim.Close c s' s where
  range := h.range'
  range' := h.range
  close x l f g ε hf hg hfg := by
    rw [abs_sub_comm]
    exact h.close x l g f ε hg hf fun l' π hl => by rw [abs_sub_comm]; exact hfg l' π hl

/-- The server that simulates presentations, from the issuer's keys. -/
noncomputable def simShow (sp : SystemParameters G) (x0 x1 : Scalar) : Shows G :=
  fun w => Spec.simulateShow sp x0 x1 (w.entry sp).commitment

theorem member_close (O : Oracle) (sp : SystemParameters G) (hh : sp.h ≠ 0) (x0 x1 : Scalar) :
    Sim.Close 2 (Spec.memberShow O sp x0 x1) (simShow sp x0 x1) where
  range w := (Sim.show_close O sp hh x0 x1).range (w.holder sp x0 x1)
  range' w := (Sim.show_close O sp hh x0 x1).range' (w.holder sp x0 x1)
  close w := (Sim.show_close O sp hh x0 x1).close (w.holder sp x0 x1)

/-- Presentations with a real credential on another number, and a simulated proof about the roster entry. -/
noncomputable def halfShow (O : Oracle) (sp : SystemParameters G) (X : G) (m : Scalar) (tag : Tag G) : Shows G :=
  fun w l k => Spec.mean fun d : F × F × F =>
    let P := d.2.1 • tag.nonce
    let C := m.val • P + d.1 • sp.h
    let D := (w.entry sp).commitment
    Spec.ValidCredential.honest O [.init "AEONFLUX SHOW"]
      ⟨sp.g, sp.h, X, P, d.1 • X - d.2.2 • sp.h, C⟩ ⟨m, Scalar.ofF d.1, -Scalar.ofF d.2.2⟩ l fun l₁ π =>
      Spec.CommittedValuesEqual.simulated [.init "SIGNAL GROUP MEMBERSHIP"] ⟨sp.g, sp.h, P, C, D⟩ l₁ fun l₂ π' =>
        k l₂ ⟨D, ⟨d.2.1 • tag.mac + d.2.2 • sp.h, P, [], [C], π⟩, π'⟩

theorem half_close (O : Oracle) (sp : SystemParameters G) (hh : sp.h ≠ 0) (x0 x1 m : Scalar) {tag : Tag G}
    (hn : tag.nonce ≠ 0) (ht : tag.mac = (x0.val + x1.val * m.val) • tag.nonce) :
    Sim.Close 2 (halfShow O sp (x1.val • sp.h) m tag) (simShow sp x0 x1) where
  range w l f hf := Sim.mean01 fun d => ValidCredential.honest01 _ _ _ _ _ fun _ _ =>
      CommittedValuesEqual.simulated01 _ _ _ fun _ _ => hf _ _
  range' w l f hf := Sim.mean01 fun v => ValidCredential.simulated01 _ _ _ fun _ _ =>
      CommittedValuesEqual.simulated01 _ _ _ fun _ _ => hf _ _
  close w l f g ε hf hg hfg := by
    obtain ⟨P, Q⟩ := tag
    dsimp only at hn ht
    obtain ⟨a, ha⟩ := exists_smul_of_ne_zero hh P
    have ha0 : a ≠ 0 := by
      rintro rfl
      exact hn (by rw [ha, zero_smul])
    subst ha ht
    have key : simShow sp x0 x1 w l g =
        Spec.mean fun d : F × F × F =>
          Spec.ValidCredential.simulated [.init "AEONFLUX SHOW"]
            ⟨sp.g, sp.h, x1.val • sp.h, d.2.1 • (a • sp.h),
              d.1 • (x1.val • sp.h) - d.2.2 • sp.h, m.val • (d.2.1 • (a • sp.h)) + d.1 • sp.h⟩
            l fun l₁ π =>
              Spec.CommittedValuesEqual.simulated [.init "SIGNAL GROUP MEMBERSHIP"]
                ⟨sp.g, sp.h, d.2.1 • (a • sp.h),
                  m.val • (d.2.1 • (a • sp.h)) + d.1 • sp.h, (w.entry sp).commitment⟩
                l₁ fun l₂ π' =>
                  g l₂ ⟨(w.entry sp).commitment,
                    ⟨d.2.1 • ((x0.val + x1.val * m.val) • (a • sp.h)) + d.2.2 • sp.h,
                    d.2.1 • (a • sp.h), [],
                    [m.val • (d.2.1 • (a • sp.h)) + d.1 • sp.h], π⟩, π'⟩ := by
      unfold simShow Spec.simulateShow
      rw [← Sim.mean_equiv (Sim.showEquiv a m.val (x1.val * m.val + x0.val) ha0)]
      refine Sim.mean_congr fun d => ?_
      simp only [Sim.showEquiv, Equiv.coe_fn_mk]
      have e1 : (d.2.1 * a) • sp.h = d.2.1 • (a • sp.h) := by module
      have e2 : (m.val * (d.2.1 * a) + d.1) • sp.h = m.val • (d.2.1 • (a • sp.h)) + d.1 • sp.h := by module
      have e3 : ((x1.val * m.val + x0.val) * (d.2.1 * a) + d.2.2) • sp.h =
          d.2.1 • ((x0.val + x1.val * m.val) • (a • sp.h)) + d.2.2 • sp.h := by module
      have e4 : x0.val • (d.2.1 • (a • sp.h)) + x1.val • (m.val • (d.2.1 • (a • sp.h)) + d.1 • sp.h) -
          (d.2.1 • ((x0.val + x1.val * m.val) • (a • sp.h)) + d.2.2 • sp.h) =
          d.1 • (x1.val • sp.h) - d.2.2 • sp.h := by module
      rw [e1, e2, e3, e4]
    rw [key]
    have hb : ε + ((2 : ℕ) : ℚ) * (l.length + ((2 : ℕ) : ℚ)) / ell ≥ ε + (l.length : ℚ) / ell := by
      have hell : (0 : ℚ) < ell := Tagging.ell_pos
      gcongr
      push_cast
      have : (0 : ℚ) ≤ l.length := by positivity
      linarith
    refine le_trans (Sim.abs_sub_mean_le fun d => ?_) hb
    refine ValidCredential.zk_close O _ ?_ (Or.inr (Or.inl hh)) l _ _ _
      (fun _ _ => CommittedValuesEqual.simulated01 _ _ _ fun _ _ => hf _ _) fun l₁ π h1 => ?_
    · simp only [Spec.ValidCredential, Scalar.val_neg, Scalar.val_ofF]
      exact ⟨trivial, by module⟩
    · refine Sim.abs_sub_mean_le fun a => Sim.abs_sub_mean_le fun z => hfg _ _ ?_
      simp [h1]

end Watching

end Verif
