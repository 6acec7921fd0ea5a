import Verif.Props.Deputy

/-!
# Adversaries that also watch presentations (C94): using part of a presentation

If the claim of an adversary uses the hash query of the second proof of a presentation that it saw, but is not a copy,
then one finds the logarithm of `h` to the base `g`, by running the adversary twice.
-/

set_option maxRecDepth 100000

namespace Verif

open Amacs

variable {G : Type} [AddCommGroup G] [Module F G] [Ristretto G] {Out : Type}

/-! ## The algorithm -/

/-- Randomness for one step: an answer of the hash; coins for an issuance; coins for a presentation; answer of the hash
and responses for its two proofs. -/
abbrev Spec.RunCell := Spec.Answer × (F × F × F × F × F × F) × (F × F × F × F) × (Spec.Answer × F × F × F) ×
  (Spec.Answer × F × F × F)

/-- The blinded attribute of a presentation made from coins. -/
def Spec.RunCell.blind (sp : SystemParameters G) (c : Spec.RunCell) : G :=
  c.2.2.1.2.1 • sp.g + c.2.2.1.2.2.1 • sp.h

/-- A presentation made from coins, without credential. -/
def Spec.fakeShow (sp : SystemParameters G) (D : G) (c : Spec.RunCell) : SignalCredentialPresentation G :=
  ⟨D, ⟨c.2.2.1.2.2.2 • sp.h, c.2.2.1.1 • sp.g, [], [c.blind sp],
    ⟨Scalar.fromWide c.2.2.2.1.1.1, ValidCredential.respOf c.2.2.2.1.2⟩⟩,
    ⟨Scalar.fromWide c.2.2.2.2.1.1, CommittedValuesEqual.respOf c.2.2.2.2.2⟩⟩

/-- Runs an adversary with given randomness, knowing the issuer's secret key. The step after `n` hash queries uses `s n`.
Presentations are recorded with `n`. -/
def Spec.Onlooker.run (sp : SystemParameters G) (x0 x1 : F) (s : ℕ → Spec.RunCell) :
    Spec.Onlooker G Out → Spec.HashLog → List (ℕ × SignalCredentialPresentation G) →
      Out × Spec.HashLog × List (ℕ × SignalCredentialPresentation G)
  | .out o, l, seen => (o, l, seen)
  | .ask t next, l, seen =>
    (next ((l.lookup t).getD (s l.length).1)).run sp x0 x1 s (l.asked t (s l.length).1) seen
  | .issue m next, l, seen =>
    let c := s l.length
    let t := Deputy.issueQuery sp (Scalar.ofF x0) (Scalar.ofF x1) m c.2.1.1 c.2.1.2.1 c.2.1.2.2
    (next (Deputy.issueWith sp (Scalar.ofF x0) (Scalar.ofF x1) m c.2.1.1 c.2.1.2.1 c.2.1.2.2
      ((l.lookup t).getD c.1))).run sp x0 x1 s (l.asked t c.1) seen
  | .watch w next, l, seen =>
    let p := Spec.fakeShow sp (w.entry sp).commitment (s l.length)
    (next p).run sp x0 x1 s (l ++ [(Spec.showQuery (Spec.issuerOf sp x0 x1) p.presentation, (s l.length).2.2.2.1.1),
      (Spec.rosterQuery sp p, (s l.length).2.2.2.2.1)]) ((l.length, p) :: seen)

/-- Candidates for the logarithm, from the claims `p` and `p'` of two runs and the presentations in the first. -/
def Spec.candidates (s : ℕ → Spec.RunCell) (p p' : SignalCredentialPresentation G)
    (seen : List (ℕ × SignalCredentialPresentation G)) : List F :=
  seen.flatMap fun e =>
    let c := (s e.1).2.2.1
    let opened (m z : F) : F := (c.2.1 - m * c.1) / (z - c.2.2.1)
    let e1 := CommittedValuesEqual.extract p.rosterMembershipProof e.2.rosterMembershipProof
    let e2 := ValidCredential.extract p.presentation.proof p'.presentation.proof
    let e3 := ValidCredential.extract p.presentation.proof e.2.presentation.proof
    let r := p.rosterMembershipProof.responses
    let r' := e.2.rosterMembershipProof.responses
    let q := p.presentation.proof.responses
    let q' := e.2.presentation.proof.responses
    [opened e1.m0.val e1.z0.val, opened e2.m0.val e2.z0.val, opened e3.m0.val e3.z0.val,
      (r'.z1.val - r.z1.val) / (r.m0.val - r'.m0.val), (q'.m0.val - q.m0.val) * c.1 / (q.z0.val - q'.z0.val)]

/-- The algorithm: runs the adversary with `s`, and again, with `s'` from the step on in which the claim's first query was
made. It returns five candidates for every presentation. -/
def Spec.finder (sp : SystemParameters G) (x0 x1 : F) (A : Spec.Onlooker G Spec.Attempt) (s s' : ℕ → Spec.RunCell) :
    List F :=
  let i := Spec.issuerOf sp x0 x1
  let r := (A.checked i).run sp x0 x1 s [] []
  let r' := (A.checked i).run sp x0 x1 (Spec.switch (Reduction.place r.2.1 (r.1.query i 0)) s s') [] []
  match r.1.presentation G, r'.1.presentation G with
  | some p, some p' => Spec.candidates s p p' r.2.2
  | _, _ => []

set_option synthInstance.maxSize 1000 in
open Classical in
/-- The probability that one of the candidates is the logarithm of `h` to the base `g`. -/
noncomputable def Spec.finderWins {S Ω : Type} [Fintype S] [Fintype Ω] (sp : S → SystemParameters G)
    (A : SystemParameters G → G → Ω → Spec.Onlooker G Spec.Attempt) (T : ℕ) : ℚ :=
  Spec.mean fun x : S × Ω × F × F => Spec.mean fun s : (Fin (T + 2) → Spec.RunCell) × (Fin (T + 2) → Spec.RunCell) =>
    if ∃ y ∈ Spec.finder (sp x.1) x.2.2.1 x.2.2.2 (A (sp x.1) (x.2.2.2 • (sp x.1).h) x.2.1)
      (Spec.stretch s.1) (Spec.stretch s.2), (sp x.1).h = y • (sp x.1).g then 1 else 0

namespace Echo

open Watching Spec.Onlooker

/-! ## Runs -/

theorem mean_snd {β γ : Type} [Fintype β] [Fintype γ] [Nonempty β] (h : γ → ℚ) :
    (Spec.mean fun p : β × γ => h p.2) = Spec.mean h := by
  rw [Tagging.mean_prod]
  exact Sim.mean_const (α := β) (Spec.mean h)

/-- Three values, from four of which one is superfluous. -/
def coins (x : F) (hx : x ≠ 0) : F × F × F × F ≃ F × F × F × F where
  toFun c := (c.1 / x, c.2.1 / x + c.2.2.1, c.2.2.1, c.2.2.2)
  invFun d := (d.1 * x, (d.2.1 - d.2.2.1) * x, d.2.2.1, d.2.2.2)
  left_inv c := by
    obtain ⟨a, b, e, f⟩ := c
    simp only [Prod.mk.injEq, and_true]
    constructor <;> field_simp
    ring
  right_inv d := by
    obtain ⟨a, b, e, f⟩ := d
    simp only [Prod.mk.injEq, and_true]
    constructor <;> field_simp
    ring

theorem show_cell {sp : SystemParameters G} (hg : sp.g ≠ 0) (hh : sp.h ≠ 0) (x0 x1 : F) (w : Spec.Member)
    (l : Spec.HashLog) (k : Spec.HashLog → SignalCredentialPresentation G → ℚ) :
    simShow sp (Scalar.ofF x0) (Scalar.ofF x1) w l k = Spec.mean fun c : Spec.RunCell =>
      let p := Spec.fakeShow sp (w.entry sp).commitment c
      k (l ++ [(Spec.showQuery (Spec.issuerOf sp x0 x1) p.presentation, c.2.2.2.1.1),
        (Spec.rosterQuery sp p, c.2.2.2.2.1)]) p := by
  obtain ⟨x, hx⟩ := exists_smul_of_ne_zero hg sp.h
  have hx0 : x ≠ 0 := by
    rintro rfl
    exact hh (by rw [hx, zero_smul])
  let K : G → G → G → (Spec.Answer × F × F × F) → (Spec.Answer × F × F × F) → ℚ := fun P C CQ a a' =>
    let p : SignalCredentialPresentation G := ⟨(w.entry sp).commitment, ⟨CQ, P, [], [C],
      ⟨Scalar.fromWide a.1.1, ValidCredential.respOf a.2⟩⟩, ⟨Scalar.fromWide a'.1.1, CommittedValuesEqual.respOf a'.2⟩⟩
    k (l ++ [(Spec.showQuery (Spec.issuerOf sp x0 x1) p.presentation, a.1), (Spec.rosterQuery sp p, a'.1)]) p
  have e1 : simShow sp (Scalar.ofF x0) (Scalar.ofF x1) w l k = Spec.mean fun v : F × F × F =>
      Spec.mean fun a => Spec.mean fun a' => K (v.1 • sp.h) (v.2.1 • sp.h) (v.2.2 • sp.h) a a' := by
    unfold simShow Spec.simulateShow
    refine Sim.mean_congr fun v => ?_
    unfold Spec.ValidCredential.simulated
    rw [Tagging.mean_prod]
    refine Sim.mean_congr fun a => Sim.mean_congr fun z => ?_
    unfold Spec.CommittedValuesEqual.simulated
    rw [Tagging.mean_prod]
    refine Sim.mean_congr fun a' => Sim.mean_congr fun z' => ?_
    dsimp only [K]
    rw [List.append_assoc]
    have hp : Spec.presentationPublics (Spec.issuerOf sp x0 x1) ⟨v.2.2 • sp.h, v.1 • sp.h, [], [v.2.1 • sp.h],
        ⟨Scalar.fromWide a.1, ValidCredential.respOf z⟩⟩ (x1 • sp.h) (v.2.1 • sp.h) =
        ⟨sp.g, sp.h, (Scalar.ofF x1).val • sp.h, v.1 • sp.h, (Scalar.ofF x0).val • v.1 • sp.h +
          (Scalar.ofF x1).val • v.2.1 • sp.h - v.2.2 • sp.h, v.2.1 • sp.h⟩ := by
      simp [Spec.presentationPublics, Spec.issuerOf, Spec.dot]
    simp only [Spec.showQuery, Spec.rosterQuery, Spec.issuerOf, List.headD_cons]
    simp only [Spec.issuerOf] at hp
    rw [hp]
    rfl
  rw [e1]
  have e2 : (Spec.mean fun c : Spec.RunCell =>
      let p := Spec.fakeShow sp (w.entry sp).commitment c
      k (l ++ [(Spec.showQuery (Spec.issuerOf sp x0 x1) p.presentation, c.2.2.2.1.1),
        (Spec.rosterQuery sp p, c.2.2.2.2.1)]) p) = Spec.mean fun c : F × F × F × F =>
      Spec.mean fun a => Spec.mean fun a' =>
        K (c.1 • sp.g) (c.2.1 • sp.g + c.2.2.1 • sp.h) (c.2.2.2 • sp.h) a a' := by
    refine Eq.trans (mean_snd (β := Spec.Answer) fun c : (F × F × F × F × F × F) × (F × F × F × F) ×
      (Spec.Answer × F × F × F) × (Spec.Answer × F × F × F) =>
        K (c.2.1.1 • sp.g) (c.2.1.2.1 • sp.g + c.2.1.2.2.1 • sp.h) (c.2.1.2.2.2 • sp.h) c.2.2.1 c.2.2.2) ?_
    refine Eq.trans (mean_snd (β := F × F × F × F × F × F) fun c : (F × F × F × F) ×
      (Spec.Answer × F × F × F) × (Spec.Answer × F × F × F) =>
        K (c.1.1 • sp.g) (c.1.2.1 • sp.g + c.1.2.2.1 • sp.h) (c.1.2.2.2 • sp.h) c.2.1 c.2.2) ?_
    rw [Tagging.mean_prod]
    refine Sim.mean_congr fun c => ?_
    rw [Tagging.mean_prod]
  rw [e2]
  have e3 : (Spec.mean fun c : F × F × F × F => Spec.mean fun a => Spec.mean fun a' =>
        K (c.1 • sp.g) (c.2.1 • sp.g + c.2.2.1 • sp.h) (c.2.2.2 • sp.h) a a') =
      Spec.mean fun d : F × F × F × F => Spec.mean fun a => Spec.mean fun a' =>
        K (d.1 • sp.h) (d.2.1 • sp.h) (d.2.2.2 • sp.h) a a' := by
    refine Eq.trans (Sim.mean_congr fun c => ?_) (Sim.mean_equiv (coins x hx0) fun d : F × F × F × F =>
      Spec.mean fun a => Spec.mean fun a' => K (d.1 • sp.h) (d.2.1 • sp.h) (d.2.2.2 • sp.h) a a')
    simp only [coins, Equiv.coe_fn_mk]
    have f1 : (c.1 / x) • sp.h = c.1 • sp.g := by
      rw [hx, smul_smul, div_mul_cancel₀ _ hx0]
    have f2 : (c.2.1 / x + c.2.2.1) • sp.h = c.2.1 • sp.g + c.2.2.1 • sp.h := by
      rw [add_smul]
      congr 1
      rw [hx, smul_smul, div_mul_cancel₀ _ hx0]
    rw [f1, f2]
  rw [e3, Tagging.mean_prod, Tagging.mean_prod]
  refine Sim.mean_congr fun a => ?_
  rw [Tagging.mean_prod, Tagging.mean_prod]
  refine Sim.mean_congr fun b => ?_
  rw [mean_snd (β := F) fun c : F => Spec.mean fun r => Spec.mean fun r' => K (a • sp.h) (b • sp.h) (c • sp.h) r r']

/-- Coins that make the same presentations. -/
def Same (sp : SystemParameters G) (c c' : Spec.RunCell) : Prop :=
  c.1 = c'.1 ∧ c.2.1 = c'.2.1 ∧ c.2.2.2 = c'.2.2.2 ∧ ∀ D, Spec.fakeShow sp D c = Spec.fakeShow sp D c'

omit [Ristretto G] in
theorem same_refl (sp : SystemParameters G) (c : Spec.RunCell) : Same sp c c := ⟨rfl, rfl, rfl, fun _ => rfl⟩

theorem two_length (l : Spec.HashLog) (a b : Transcript × Spec.Answer) : (l ++ [a, b]).length = l.length + 2 := by simp

section
variable {sp : SystemParameters G} {x0 x1 : F} {s s' : ℕ → Spec.RunCell}

theorem run_congr (A : Spec.Onlooker G Out) : ∀ (l : Spec.HashLog) (seen : List (ℕ × SignalCredentialPresentation G)),
    (∀ n, l.length ≤ n → Same sp (s n) (s' n)) → A.run sp x0 x1 s l seen = A.run sp x0 x1 s' l seen := by
  induction A with
  | out o => intros; rfl
  | ask t next ih =>
    intro l seen h
    simp only [run]
    rw [← (h _ le_rfl).1]
    exact ih _ _ _ fun n hn => h n (by rw [Reduction.asked_length] at hn; omega)
  | issue m next ih =>
    intro l seen h
    simp only [run]
    rw [← (h _ le_rfl).1, ← (h _ le_rfl).2.1]
    exact ih _ _ _ fun n hn => h n (by rw [Reduction.asked_length] at hn; omega)
  | watch w next ih =>
    intro l seen h
    simp only [run]
    rw [← (h _ le_rfl).2.2.1, ← (h _ le_rfl).2.2.2]
    exact ih _ _ _ fun n hn => h n (by rw [two_length] at hn; omega)

theorem stretch_up {Q : ℕ} (s : Fin Q → Spec.RunCell) (i : Fin Q) (c : Spec.RunCell) {n : ℕ} (h : n ≠ i) :
    Spec.stretch (Function.update s i c) n = Spec.stretch s n := Reduction.stretch_update id s i c h

/-- The game with simulated presentations, with all randomness drawn in advance. -/
theorem run_tape (hg : sp.g ≠ 0) (hh : sp.h ≠ 0) (O : Oracle) (f : Final G Out) {Q : ℕ} (A : Spec.Onlooker G Out) :
    ∀ (l : Spec.HashLog) (seen : List (ℕ × SignalCredentialPresentation G)) (n : ℕ), A.Within n → l.length + n ≤ Q →
      A.expect (Spec.honestIssue O sp (Scalar.ofF x0) (Scalar.ofF x1)) (simShow sp (Scalar.ofF x0) (Scalar.ofF x1)) f l
        (seen.map Prod.snd) = Spec.mean fun s : Fin Q → Spec.RunCell =>
        let r := A.run sp x0 x1 (Spec.stretch s) l seen
        f r.1 r.2.1 (r.2.2.map Prod.snd) := by
  have step : ∀ {l : Spec.HashLog} (hQ : l.length < Q) (B : Spec.RunCell → Spec.Onlooker G Out)
      (L : Spec.RunCell → Spec.HashLog) (se : Spec.RunCell → List (ℕ × SignalCredentialPresentation G)),
      (∀ c, l.length < (L c).length) →
      (Spec.mean fun s : Fin Q → Spec.RunCell =>
        let r := (B (Spec.stretch s l.length)).run sp x0 x1 (Spec.stretch s) (L (Spec.stretch s l.length))
          (se (Spec.stretch s l.length))
        f r.1 r.2.1 (r.2.2.map Prod.snd)) =
      Spec.mean fun c : Spec.RunCell => Spec.mean fun s : Fin Q → Spec.RunCell =>
        let r := (B c).run sp x0 x1 (Spec.stretch s) (L c) (se c)
        f r.1 r.2.1 (r.2.2.map Prod.snd) := by
    intro l hQ B L se hL
    rw [← Reduction.mean_coord (⟨l.length, hQ⟩ : Fin Q)]
    · refine Sim.mean_congr fun s => ?_
      rw [Reduction.stretch_of_lt s hQ]
    · intro c s b
      dsimp only
      rw [run_congr (s' := Spec.stretch s)]
      intro n hn
      rw [stretch_up s ⟨l.length, hQ⟩ b (by have := hL c; dsimp only; omega)]
      exact same_refl _ _
  induction A with
  | out o =>
    intro l seen n _ _
    exact (Sim.mean_const (α := Fin Q → Spec.RunCell) _).symm
  | ask t next ih =>
    rintro l seen _ ⟨n, rfl, hw⟩ hn
    have hQ : l.length < Q := by omega
    refine Eq.trans ?_ (step hQ (fun c => next ((l.lookup t).getD c.1)) (fun c => l.asked t c.1) (fun _ => seen)
      (fun c => by rw [Reduction.asked_length]; omega)).symm
    refine Eq.trans ?_ (Sim.mean_congr fun c => ih _ (l.asked t c.1) seen n (hw _)
      (by rw [Reduction.asked_length]; omega))
    exact (Reduction.mean_fst fun a : Spec.Answer => (next ((l.lookup t).getD a)).expect
      (Spec.honestIssue O sp (Scalar.ofF x0) (Scalar.ofF x1)) (simShow sp (Scalar.ofF x0) (Scalar.ofF x1)) f
      (l.asked t a) (seen.map Prod.snd)).symm
  | issue m next ih =>
    rintro l seen _ ⟨n, rfl, hw⟩ hn
    have hQ : l.length < Q := by omega
    refine Eq.trans ?_ (step hQ
      (fun c => next (Deputy.issueWith sp (Scalar.ofF x0) (Scalar.ofF x1) m c.2.1.1 c.2.1.2.1 c.2.1.2.2
        ((l.lookup (Deputy.issueQuery sp (Scalar.ofF x0) (Scalar.ofF x1) m c.2.1.1 c.2.1.2.1 c.2.1.2.2)).getD c.1)))
      (fun c => l.asked (Deputy.issueQuery sp (Scalar.ofF x0) (Scalar.ofF x1) m c.2.1.1 c.2.1.2.1 c.2.1.2.2) c.1)
      (fun _ => seen) (fun c => by rw [Reduction.asked_length]; omega)).symm
    refine Eq.trans ?_ (Sim.mean_congr fun c => ih _ (l.asked (Deputy.issueQuery sp (Scalar.ofF x0) (Scalar.ofF x1) m
      c.2.1.1 c.2.1.2.1 c.2.1.2.2) c.1) seen n (hw _) (by rw [Reduction.asked_length]; omega))
    simp only [expect]
    rw [Deputy.issue_step]
    symm
    rw [Tagging.mean_prod, Sim.mean_comm]
    refine Eq.trans (Reduction.mean_fst fun u : F × F × F × F × F × F => Spec.mean fun a : Spec.Answer =>
      (next (Deputy.issueWith sp (Scalar.ofF x0) (Scalar.ofF x1) m u.1 u.2.1 u.2.2
        ((l.lookup (Deputy.issueQuery sp (Scalar.ofF x0) (Scalar.ofF x1) m u.1 u.2.1 u.2.2)).getD a))).expect
      (Spec.honestIssue O sp (Scalar.ofF x0) (Scalar.ofF x1)) (simShow sp (Scalar.ofF x0) (Scalar.ofF x1)) f
      (l.asked (Deputy.issueQuery sp (Scalar.ofF x0) (Scalar.ofF x1) m u.1 u.2.1 u.2.2) a) (seen.map Prod.snd)) ?_
    rw [Tagging.mean_prod]
    refine Sim.mean_congr fun b => ?_
    rw [Tagging.mean_prod]
  | watch w next ih =>
    rintro l seen _ ⟨n, rfl, hw⟩ hn
    have hQ : l.length < Q := by omega
    refine Eq.trans ?_ (step hQ
      (fun c => next (Spec.fakeShow sp (w.entry sp).commitment c))
      (fun c => l ++ [(Spec.showQuery (Spec.issuerOf sp x0 x1) (Spec.fakeShow sp (w.entry sp).commitment c).presentation,
        c.2.2.2.1.1), (Spec.rosterQuery sp (Spec.fakeShow sp (w.entry sp).commitment c), c.2.2.2.2.1)])
      (fun c => (l.length, Spec.fakeShow sp (w.entry sp).commitment c) :: seen)
      (fun c => by rw [two_length]; omega)).symm
    simp only [expect]
    rw [show_cell hg hh]
    refine Sim.mean_congr fun c => ?_
    exact ih _ _ ((l.length, Spec.fakeShow sp (w.entry sp).commitment c) :: seen) n (hw _) (by rw [two_length]; omega)

theorem run_prefix (A : Spec.Onlooker G Out) : ∀ (l : Spec.HashLog) (seen : List (ℕ × SignalCredentialPresentation G)),
    l <+: (A.run sp x0 x1 s l seen).2.1 := by
  induction A with
  | out o => intros; exact List.prefix_rfl
  | ask t next ih => intro l seen; exact (List.prefix_append l _).trans (ih _ _ _)
  | issue m next ih => intro l seen; exact (List.prefix_append l _).trans (ih _ _ _)
  | watch w next ih => intro l seen; exact (List.prefix_append l _).trans (ih _ _ _)

theorem run_length (A : Spec.Onlooker G Out) : ∀ (l : Spec.HashLog) (seen : List (ℕ × SignalCredentialPresentation G))
    (n : ℕ), A.Within n → (A.run sp x0 x1 s l seen).2.1.length ≤ l.length + n := by
  induction A with
  | out o => intro l _ n _; simp [run]
  | ask t next ih =>
    rintro l seen _ ⟨n, rfl, hw⟩
    refine (ih _ _ _ n (hw _)).trans ?_
    rw [Reduction.asked_length]; omega
  | issue m next ih =>
    rintro l seen _ ⟨n, rfl, hw⟩
    refine (ih _ _ _ n (hw _)).trans ?_
    rw [Reduction.asked_length]; omega
  | watch w next ih =>
    rintro l seen _ ⟨n, rfl, hw⟩
    refine (ih _ _ _ n (hw _)).trans ?_
    rw [two_length]; omega

theorem run_mono (A : Spec.Onlooker G Out) : ∀ (l : Spec.HashLog) (seen : List (ℕ × SignalCredentialPresentation G)),
    ∀ e ∈ seen, e ∈ (A.run sp x0 x1 s l seen).2.2 := by
  induction A with
  | out o => intro l seen e he; exact he
  | ask t next ih => intro l seen e he; exact ih _ _ _ e he
  | issue m next ih => intro l seen e he; exact ih _ _ _ e he
  | watch w next ih => intro l seen e he; exact ih _ _ _ e (List.mem_cons_of_mem _ he)

/-- What is recorded: every presentation was made from the coins of its step, and steps present once. -/
theorem run_seen (A : Spec.Onlooker G Out) : ∀ (l : Spec.HashLog) (seen : List (ℕ × SignalCredentialPresentation G)),
    (∀ e ∈ seen, e.1 < l.length ∧ ∃ D, e.2 = Spec.fakeShow sp D (s e.1)) →
    (∀ e ∈ seen, ∀ e' ∈ seen, e.1 = e'.1 → e = e') →
    (∀ e ∈ (A.run sp x0 x1 s l seen).2.2, e.1 < (A.run sp x0 x1 s l seen).2.1.length ∧
      ∃ D, e.2 = Spec.fakeShow sp D (s e.1)) ∧
    ∀ e ∈ (A.run sp x0 x1 s l seen).2.2, ∀ e' ∈ (A.run sp x0 x1 s l seen).2.2, e.1 = e'.1 → e = e' := by
  induction A with
  | out o => intro l seen h1 h2; exact ⟨h1, h2⟩
  | ask t next ih =>
    intro l seen h1 h2
    exact ih _ _ _ (fun e he => ⟨by rw [Reduction.asked_length]; have := (h1 e he).1; omega, (h1 e he).2⟩) h2
  | issue m next ih =>
    intro l seen h1 h2
    exact ih _ _ _ (fun e he => ⟨by rw [Reduction.asked_length]; have := (h1 e he).1; omega, (h1 e he).2⟩) h2
  | watch w next ih =>
    intro l seen h1 h2
    refine ih _ _ _ (fun e he => ?_) fun e he e' he' heq => ?_
    · rcases List.mem_cons.1 he with rfl | he
      · exact ⟨by rw [two_length]; dsimp only; omega, _, rfl⟩
      · exact ⟨by rw [two_length]; have := (h1 e he).1; omega, (h1 e he).2⟩
    · rcases List.mem_cons.1 he with rfl | he <;> rcases List.mem_cons.1 he' with rfl | he'
      · rfl
      · have := (h1 e' he').1
        dsimp only at heq
        omega
      · have := (h1 e he).1
        dsimp only at heq
        omega
      · exact h2 e he e' he' heq

/-- Two runs with the same randomness before step `j` make the same query there, unless the query is that of a
presentation. If the query is new, then the answers are those for the step. -/
theorem run_fork {j : ℕ} (hs : ∀ n < j, s n = s' n) {t t' : Transcript} {a a' : Spec.Answer}
    (hi : ¬ Reduction.IsIssuance G t) (hr : ¬ Deputy.IsRoster G t) (A : Spec.Onlooker G Out) :
    ∀ (l : Spec.HashLog) (seen seen' : List (ℕ × SignalCredentialPresentation G)), l.length ≤ j →
      (A.run sp x0 x1 s l seen).2.1[j]? = some (t, a) → (A.run sp x0 x1 s' l seen').2.1[j]? = some (t', a') →
      (∃ w, (j, w) ∈ (A.run sp x0 x1 s l seen).2.2 ∧ Spec.showQuery (Spec.issuerOf sp x0 x1) w.presentation = t) ∨
      (t' = t ∧ ((∀ e ∈ (A.run sp x0 x1 s l seen).2.1.take j, e.1 ≠ t) → a = (s j).1 ∧ a' = (s' j).1)) := by
  induction A with
  | out o =>
    intro l seen seen' hj h1 h2
    simp only [run] at h1
    rw [List.getElem?_eq_none hj] at h1
    cases h1
  | ask q next ih =>
    intro l seen seen' hj h1 h2
    rcases Nat.lt_or_ge l.length j with hlt | hge
    · simp only [run] at h1 h2 ⊢
      rw [← hs _ hlt] at h2
      exact ih _ _ _ _ (by rw [Reduction.asked_length]; omega) h1 h2
    · obtain rfl : j = l.length := by omega
      simp only [run] at h1 h2 ⊢
      obtain ⟨u1, u2⟩ := Reduction.prefix_at (e := (q, (l.lookup q).getD (s l.length).1))
        (run_prefix (sp := sp) (x0 := x0) (x1 := x1) (s := s)
          (next ((l.lookup q).getD (s l.length).1)) (l.asked q (s l.length).1) seen)
      obtain ⟨v1, v2⟩ := Reduction.prefix_at (e := (q, (l.lookup q).getD (s' l.length).1))
        (run_prefix (sp := sp) (x0 := x0) (x1 := x1) (s := s')
          (next ((l.lookup q).getD (s' l.length).1)) (l.asked q (s' l.length).1) seen')
      rw [u1] at h1
      rw [v1] at h2
      cases h1
      cases h2
      refine .inr ⟨rfl, fun hn => ?_⟩
      rw [u2] at hn
      rw [Knowledge.lookup_none hn]
      exact ⟨rfl, rfl⟩
  | issue m next ih =>
    intro l seen seen' hj h1 h2
    rcases Nat.lt_or_ge l.length j with hlt | hge
    · simp only [run] at h1 h2 ⊢
      rw [← hs _ hlt] at h2
      exact ih _ _ _ _ (by rw [Reduction.asked_length]; omega) h1 h2
    · obtain rfl : j = l.length := by omega
      simp only [run] at h1
      rw [(Reduction.prefix_at (run_prefix (sp := sp) (x0 := x0) (x1 := x1) (s := s) _ (l.asked
        (Deputy.issueQuery sp (Scalar.ofF x0) (Scalar.ofF x1) m (s l.length).2.1.1 (s l.length).2.1.2.1
          (s l.length).2.1.2.2) (s l.length).1) seen)).1] at h1
      cases h1
      refine absurd ?_ hi
      rw [Deputy.issueQuery, IssuanceRevealed.zkQuery_eq]
      exact ⟨_, _, rfl⟩
  | watch w next ih =>
    intro l seen seen' hj h1 h2
    rcases Nat.lt_or_ge l.length j with hlt | hge
    · rcases Nat.lt_or_ge (l.length + 1) j with hlt' | hge'
      · simp only [run] at h1 h2 ⊢
        rw [← hs _ hlt] at h2
        exact ih _ _ _ _ (by rw [two_length]; omega) h1 h2
      · obtain rfl : j = l.length + 1 := by omega
        simp only [run] at h1
        obtain ⟨v, hv⟩ := run_prefix (sp := sp) (x0 := x0) (x1 := x1) (s := s)
          (next (Spec.fakeShow sp (w.entry sp).commitment (s l.length)))
          (l ++ [(Spec.showQuery (Spec.issuerOf sp x0 x1)
            (Spec.fakeShow sp (w.entry sp).commitment (s l.length)).presentation, (s l.length).2.2.2.1.1),
            (Spec.rosterQuery sp (Spec.fakeShow sp (w.entry sp).commitment (s l.length)), (s l.length).2.2.2.2.1)])
          ((l.length, Spec.fakeShow sp (w.entry sp).commitment (s l.length)) :: seen)
        rw [← hv] at h1
        simp at h1
        exact absurd (h1.1 ▸ Deputy.rosterQuery_isRoster sp _) hr
    · obtain rfl : j = l.length := by omega
      simp only [run] at h1 ⊢
      refine .inl ⟨_, run_mono _ _ _ _ List.mem_cons_self, ?_⟩
      obtain ⟨v, hv⟩ := run_prefix (sp := sp) (x0 := x0) (x1 := x1) (s := s)
          (next (Spec.fakeShow sp (w.entry sp).commitment (s l.length)))
          (l ++ [(Spec.showQuery (Spec.issuerOf sp x0 x1)
            (Spec.fakeShow sp (w.entry sp).commitment (s l.length)).presentation, (s l.length).2.2.2.1.1),
            (Spec.rosterQuery sp (Spec.fakeShow sp (w.entry sp).commitment (s l.length)), (s l.length).2.2.2.2.1)])
          ((l.length, Spec.fakeShow sp (w.entry sp).commitment (s l.length)) :: seen)
      rw [← hv] at h1
      simp at h1
      exact h1.1

theorem checked_mem {i : Issuer G} (A : Spec.Onlooker G Spec.Attempt) :
    ∀ (l : Spec.HashLog) (seen : List (ℕ × SignalCredentialPresentation G)),
    ∃ e ∈ ((A.checked i).run sp x0 x1 s l seen).2.1,
      e.1 = ((A.checked i).run sp x0 x1 s l seen).1.query i 0 := by
  induction A with
  | out o =>
    intro l seen
    simp only [checked, run]
    refine ⟨(o.query i 0, (l.lookup (o.query i 0)).getD (s l.length).1), ?_, rfl⟩
    simp [Spec.HashLog.asked]
  | ask t next ih => intro l seen; exact ih _ _ _
  | issue m next ih => intro l seen; exact ih _ _ _
  | watch w next ih => intro l seen; exact ih _ _ _

end

/-! ## What is learnt from a claim -/

omit [Ristretto G] in
/-- An opening of the blinded attribute gives the logarithm, unless it is the one that was used. -/
theorem opened {sp : SystemParameters G} {c : Spec.RunCell} {m z : F}
    (h : c.blind sp = m • (c.2.2.1.1 • sp.g) + z • sp.h) (hz : z ≠ c.2.2.1.2.2.1) :
    sp.h = ((c.2.2.1.2.1 - m * c.2.2.1.1) / (z - c.2.2.1.2.2.1)) • sp.g := by
  have hne : z - c.2.2.1.2.2.1 ≠ 0 := sub_ne_zero.2 hz
  have e : (z - c.2.2.1.2.2.1) • sp.h = (c.2.2.1.2.1 - m * c.2.2.1.1) • sp.g := by
    rw [Spec.RunCell.blind] at h
    linear_combination (norm := module) -h
  rw [div_eq_inv_mul, mul_smul, ← e, smul_smul, inv_mul_cancel₀ hne, one_smul]

omit [Ristretto G] in
/-- Two proofs about a roster entry with the same commitments: they open the blinded attribute, or give the logarithm, or
are the same. -/
theorem roster_cases {p : CommittedValuesEqual.Publics G} {r r' : CommittedValuesEqual.Proof} (hA : p.A ≠ 0)
    (hB : p.B ≠ 0) (hq : CommittedValuesEqual.recommit p r = CommittedValuesEqual.recommit p r') :
    p.Cm0 = (CommittedValuesEqual.extract r r').m0.val • p.P + (CommittedValuesEqual.extract r r').z0.val • p.A ∨
    p.A = ((r'.responses.z1.val - r.responses.z1.val) / (r.responses.m0.val - r'.responses.m0.val)) • p.B ∨
    (r.challenge.val = r'.challenge.val ∧ r.responses.m0.val = r'.responses.m0.val ∧
      r.responses.z0.val = r'.responses.z0.val ∧ r.responses.z1.val = r'.responses.z1.val) := by
  simp only [CommittedValuesEqual.recommit, msm, List.zipWith_cons_cons, List.zipWith_nil_right,
    List.sum_cons, List.sum_nil, Scalar.smul_def, Scalar.val_neg, CommittedValuesEqual.Commitments.mk.injEq] at hq
  obtain ⟨h0, h1⟩ := hq
  by_cases hc : r.challenge.val = r'.challenge.val
  · by_cases hm : r.responses.m0.val = r'.responses.m0.val
    · refine .inr (.inr ⟨hc, hm, ?_, ?_⟩)
      · have e : r.responses.z0.val • p.A = r'.responses.z0.val • p.A := by
          rw [hc, hm] at h0
          linear_combination (norm := module) h0
        rwa [smul_left_inj hA] at e
      · have e : r.responses.z1.val • p.B = r'.responses.z1.val • p.B := by
          rw [hc, hm] at h1
          linear_combination (norm := module) h1
        rwa [smul_left_inj hB] at e
    · refine .inr (.inl ?_)
      have hne := sub_ne_zero.2 hm
      have e : (r.responses.m0.val - r'.responses.m0.val) • p.A =
          (r'.responses.z1.val - r.responses.z1.val) • p.B := by
        rw [hc] at h1
        linear_combination (norm := module) h1
      rw [div_eq_inv_mul, mul_smul, ← e, smul_smul, inv_mul_cancel₀ hne, one_smul]
  · left
    have hne := sub_ne_zero.2 hc
    simp only [CommittedValuesEqual.extract, Scalar.val_ofF, extract_smul, ← smul_add]
    apply extract_point hne
    linear_combination (norm := module) h0

omit [Ristretto G] in
/-- The same for the proofs about the credential. -/
theorem show_cases {p : ValidCredential.Publics G} {r r' : ValidCredential.Proof} {ρ : F} (hP : p.P = ρ • p.B)
    (hP0 : p.P ≠ 0) (hA : p.A ≠ 0) (hq : ValidCredential.recommit p r = ValidCredential.recommit p r') :
    p.Cm0 = (ValidCredential.extract r r').m0.val • p.P + (ValidCredential.extract r r').z0.val • p.A ∨
    p.A = ((r'.responses.m0.val - r.responses.m0.val) * ρ / (r.responses.z0.val - r'.responses.z0.val)) • p.B ∨
    (r.challenge.val = r'.challenge.val ∧ r.responses.m0.val = r'.responses.m0.val ∧
      r.responses.z0.val = r'.responses.z0.val ∧ r.responses.minus_zQ.val = r'.responses.minus_zQ.val) := by
  simp only [ValidCredential.recommit, msm, List.zipWith_cons_cons, List.zipWith_nil_right,
    List.sum_cons, List.sum_nil, Scalar.smul_def, Scalar.val_neg, ValidCredential.Commitments.mk.injEq] at hq
  obtain ⟨h0, h1⟩ := hq
  by_cases hc : r.challenge.val = r'.challenge.val
  · by_cases hz : r.responses.z0.val = r'.responses.z0.val
    · refine .inr (.inr ⟨hc, ?_, hz, ?_⟩)
      · have e : r.responses.m0.val • p.P = r'.responses.m0.val • p.P := by
          rw [hc, hz] at h0
          linear_combination (norm := module) h0
        rwa [smul_left_inj hP0] at e
      · have e : r.responses.minus_zQ.val • p.A = r'.responses.minus_zQ.val • p.A := by
          rw [hc, hz] at h1
          linear_combination (norm := module) h1
        rwa [smul_left_inj hA] at e
    · refine .inr (.inl ?_)
      have hne := sub_ne_zero.2 hz
      have e : (r.responses.z0.val - r'.responses.z0.val) • p.A =
          ((r'.responses.m0.val - r.responses.m0.val) * ρ) • p.B := by
        rw [mul_smul, ← hP]
        rw [hc] at h0
        linear_combination (norm := module) h0
      rw [div_eq_inv_mul, mul_smul, ← e, smul_smul, inv_mul_cancel₀ hne, one_smul]
  · left
    have hne := sub_ne_zero.2 hc
    simp only [ValidCredential.extract, Scalar.val_ofF, extract_smul, ← smul_add]
    apply extract_point hne
    linear_combination (norm := module) h0

/-- The runs' claims open the blinded attribute of a presentation. -/
def Opens (sp : SystemParameters G) (p p' : SignalCredentialPresentation G)
    (seen : List (ℕ × SignalCredentialPresentation G)) (n : ℕ) (z : F) : Prop :=
  ∃ e ∈ seen, ∃ m : F, e.1 = n ∧
    e.2.presentation.attributesBlinded = [m • e.2.presentation.rerandomizedNonce + z • sp.h] ∧
    (let e1 := CommittedValuesEqual.extract p.rosterMembershipProof e.2.rosterMembershipProof
      let e2 := ValidCredential.extract p.presentation.proof p'.presentation.proof
      let e3 := ValidCredential.extract p.presentation.proof e.2.presentation.proof
      (m = e1.m0.val ∧ z = e1.z0.val) ∨ (m = e2.m0.val ∧ z = e2.z0.val) ∨ (m = e3.m0.val ∧ z = e3.z0.val))

omit [Ristretto G] in
theorem opens_wins {sp : SystemParameters G} {s : ℕ → Spec.RunCell} {p p' : SignalCredentialPresentation G}
    {seen : List (ℕ × SignalCredentialPresentation G)} (hs : ∀ e ∈ seen, ∃ D, e.2 = Spec.fakeShow sp D (s e.1))
    {n : ℕ} {z : F} (h : Opens sp p p' seen n z) (hz : z ≠ (s n).2.2.1.2.2.1) :
    ∃ y ∈ Spec.candidates s p p' seen, sp.h = y • sp.g := by
  obtain ⟨e, he, m, rfl, hb, ho⟩ := h
  obtain ⟨D, hD⟩ := hs e he
  have hb' : (s e.1).blind sp = m • ((s e.1).2.2.1.1 • sp.g) + z • sp.h := by
    rw [hD] at hb
    simpa [Spec.fakeShow] using hb
  refine ⟨_, List.mem_flatMap.2 ⟨e, he, ?_⟩, opened hb' hz⟩
  rcases ho with ⟨rfl, rfl⟩ | ⟨rfl, rfl⟩ | ⟨rfl, rfl⟩
  · exact List.mem_cons_self
  · exact List.mem_cons_of_mem _ List.mem_cons_self
  · exact List.mem_cons_of_mem _ (List.mem_cons_of_mem _ List.mem_cons_self)

/-- A claim that uses the second query of a presentation that was seen, and the first of another one or that of
the claim of another run, is a copy, or opens a blinded attribute, or gives the logarithm. -/
theorem claim_cases {sp : SystemParameters G} (hg : sp.g ≠ 0) (hh : sp.h ≠ 0) {x0 x1 : F} {s : ℕ → Spec.RunCell}
    {p p' : SignalCredentialPresentation G} {seen : List (ℕ × SignalCredentialPresentation G)}
    (hs : ∀ e ∈ seen, ∃ D, e.2 = Spec.fakeShow sp D (s e.1))
    (hinj : ∀ e ∈ seen, ∀ e' ∈ seen, (s e.1).blind sp = (s e'.1).blind sp → e = e') {b : Bytes}
    (hok : SignalCredentialPresentation.fromBytes b = .ok p) (hP : p.presentation.rerandomizedNonce ≠ 0)
    (hecho : ∃ e ∈ seen, Spec.rosterQuery sp e.2 = Spec.rosterQuery sp p) (hcopy : ∀ e ∈ seen, e.2 ≠ p)
    (hfork : (∃ e ∈ seen, Spec.showQuery (Spec.issuerOf sp x0 x1) e.2.presentation =
        Spec.showQuery (Spec.issuerOf sp x0 x1) p.presentation) ∨
      p.presentation.attributesBlinded = [(ValidCredential.extract p.presentation.proof p'.presentation.proof).m0.val •
        p.presentation.rerandomizedNonce +
        (ValidCredential.extract p.presentation.proof p'.presentation.proof).z0.val • sp.h]) :
    (∃ n z, Opens sp p p' seen n z) ∨ ∃ y ∈ Spec.candidates s p p' seen, sp.h = y • sp.g := by
  obtain ⟨Cm, rest, ho, -⟩ := (C10_ok_iff b p).1 hok
  obtain ⟨D, ⟨CQ, P, as, Cs, π⟩, π'⟩ := p
  obtain ⟨⟨o1, o2, o3, o4, o5, o6⟩, o7, o8, o9, o10⟩ := ho
  dsimp only at o1 o2 o3 o4 o5 o6 o7 o8 o9 o10 hP
  subst o1 o2
  obtain ⟨e, he, hq⟩ := hecho
  obtain ⟨D', hD⟩ := hs e he
  have hq' := hq
  rw [hD] at hq
  simp only [Spec.rosterQuery, Spec.fakeShow, List.headD_cons] at hq
  have q := C32_injective hq
  simp only [Spec.Query.committedValuesEqual.injEq, CommittedValuesEqual.Publics.mk.injEq, true_and] at q
  obtain ⟨⟨q1, q2, q3⟩, q4⟩ := q
  subst q1 q3
  rw [q2] at q4
  have hw : e.2.rosterMembershipProof = ⟨Scalar.fromWide (s e.1).2.2.2.2.1.1,
    CommittedValuesEqual.respOf (s e.1).2.2.2.2.2⟩ := by rw [hD]; rfl
  have hb : e.2.presentation.attributesBlinded = [Cm] := by rw [hD, ← q2]; rfl
  have hn : e.2.presentation.rerandomizedNonce = (s e.1).2.2.1.1 • sp.g := by rw [hD]; rfl
  rw [← hw] at q4
  rcases roster_cases (p := ⟨sp.g, sp.h, (s e.1).2.2.1.1 • sp.g, Cm, D'⟩) hh hg q4.symm with k | k | k
  · refine .inl ⟨_, _, e, he, _, rfl, ?_, .inl ⟨rfl, rfl⟩⟩
    rw [hb, hn]
    exact congrArg (fun x => [x]) k
  · refine .inr ⟨_, List.mem_flatMap.2 ⟨e, he, ?_⟩, k⟩
    exact List.mem_cons_of_mem _ (List.mem_cons_of_mem _ (List.mem_cons_of_mem _ List.mem_cons_self))
  rcases hfork with ⟨e', he', hf⟩ | hf
  swap
  · refine .inl ⟨_, _, e, he, _, rfl, ?_, .inr (.inl ⟨rfl, rfl⟩)⟩
    rw [hb, hn]
    exact hf
  obtain ⟨D'', hD''⟩ := hs e' he'
  have hf' := hf
  rw [hD''] at hf
  have hpub : ∀ (P CQ C : G) (r : ValidCredential.Proof), Spec.presentationPublics (Spec.issuerOf sp x0 x1)
      ⟨CQ, P, [], [C], r⟩ (x1 • sp.h) C = ⟨sp.g, sp.h, x1 • sp.h, P, x0 • P + x1 • C - CQ, C⟩ := by
    intro P CQ C r
    simp [Spec.presentationPublics, Spec.dot, Spec.issuerOf]
  have hX : (Spec.issuerOf sp x0 x1).keypair.publicKey.Xn.headD 0 = x1 • sp.h := rfl
  simp only [Spec.showQuery, Spec.fakeShow, hX, List.headD_cons, hpub] at hf
  have f := C32_injective hf
  simp only [Spec.Query.validCredential.injEq, ValidCredential.Publics.mk.injEq, true_and] at f
  obtain ⟨⟨f1, f2, f3⟩, f4⟩ := f
  obtain rfl : e = e' := hinj e he e' he' (q2.trans f3.symm)
  have f2' : (s e.1).2.2.1.2.2.2 • sp.h = CQ := by
    rw [f3] at f2
    exact sub_right_injective f2
  subst f2'
  rw [f3] at f4
  have hw' : e.2.presentation.proof = ⟨Scalar.fromWide (s e.1).2.2.2.1.1.1,
    ValidCredential.respOf (s e.1).2.2.2.1.2⟩ := by rw [hD]; rfl
  rw [← hw'] at f4
  rcases show_cases (p := ⟨sp.g, sp.h, x1 • sp.h, (s e.1).2.2.1.1 • sp.g, x0 • (s e.1).2.2.1.1 • sp.g + x1 • Cm -
    (s e.1).2.2.1.2.2.2 • sp.h, Cm⟩) rfl hP hh f4.symm with j | j | j
  · refine .inl ⟨_, _, e, he, _, rfl, ?_, .inr (.inr ⟨rfl, rfl⟩)⟩
    rw [hb, hn]
    exact congrArg (fun x => [x]) j
  · refine .inr ⟨_, List.mem_flatMap.2 ⟨e, he, ?_⟩, j⟩
    exact List.mem_cons_of_mem _ (List.mem_cons_of_mem _ (List.mem_cons_of_mem _
      (List.mem_cons_of_mem _ List.mem_cons_self)))
  refine absurd ?_ (hcopy e he)
  rw [hD]
  rw [hw] at k
  rw [hw'] at j
  obtain ⟨π1, π2, π3, π4⟩ := π
  obtain ⟨κ1, κ2, κ3, κ4⟩ := π'
  dsimp only [ValidCredential.respOf, CommittedValuesEqual.respOf] at *
  obtain ⟨j1, j2, j3, j4⟩ := j
  obtain ⟨k1, k2, k3, k4⟩ := k
  simp only [Spec.fakeShow, ValidCredential.respOf, CommittedValuesEqual.respOf]
  rw [q2, Scalar.val_inj_of_reduced o3 (Scalar.reduced_fromWide _) j1, Scalar.val_inj_of_reduced o4 (Scalar.reduced_ofF _) j2,
    Scalar.val_inj_of_reduced o5 (Scalar.reduced_ofF _) j3, Scalar.val_inj_of_reduced o6 (Scalar.reduced_ofF _) j4,
    Scalar.val_inj_of_reduced o7 (Scalar.reduced_fromWide _) k1, Scalar.val_inj_of_reduced o8 (Scalar.reduced_ofF _) k2,
    Scalar.val_inj_of_reduced o9 (Scalar.reduced_ofF _) k3, Scalar.val_inj_of_reduced o10 (Scalar.reduced_ofF _) k4]

/-! ## Two runs -/

theorem stretch_splice {Q : ℕ} (j : ℕ) (s s' : Fin Q → Spec.RunCell) :
    Spec.stretch (Spec.splice j s s') = Spec.switch j (Spec.stretch s) (Spec.stretch s') := by
  funext n
  unfold Spec.stretch Spec.switch Spec.splice
  by_cases h : n < Q <;> by_cases h' : n < j <;> simp [h, h']

section runs
variable (O : Oracle) (sp : SystemParameters G) (x0 x1 : F) (V : Set F) (A : Spec.Onlooker G Spec.Attempt) {Q : ℕ}

/-- The run with a tape, with the issuer's check. -/
noncomputable def final (s : Fin Q → Spec.RunCell) :
    Spec.Attempt × Spec.HashLog × List (ℕ × SignalCredentialPresentation G) :=
  (A.checked (Spec.issuerOf sp x0 x1)).run sp x0 x1 (Spec.stretch s) [] []

/-- Two steps blind with the same value. -/
def Collides (s : Fin Q → Spec.RunCell) : Prop := ∃ n n' : Fin Q, n ≠ n' ∧ (s n).blind sp = (s n').blind sp

/-- The claim is accepted, not a copy, and uses the second query of a presentation. -/
def Echoing (i : Issuer G) (o : Spec.Attempt) (l : Spec.HashLog) (ps : List (SignalCredentialPresentation G)) : Prop :=
  o.Good (l.oracle O) i V ∧ ¬ o.Copies ps ∧ o.Echoes i ps

/-- What is to be shown to be unlikely. -/
def Win (s : Fin Q → Spec.RunCell) : Prop :=
  Echoing O V (Spec.issuerOf sp x0 x1) (final sp x0 x1 A s).1 (final sp x0 x1 A s).2.1
    ((final sp x0 x1 A s).2.2.map Prod.snd) ∧ ¬ Collides sp s

open Classical in
/-- `k`, if `W` holds and it is less than `Q`. -/
noncomputable def locate (Q : ℕ) (W : Prop) (k : ℕ) : Option (Fin Q) := if h : W ∧ k < Q then some ⟨k, h.2⟩ else none

/-- The step of the first query of the claim. -/
noncomputable def spot (s : Fin Q → Spec.RunCell) : Option (Fin Q) :=
  locate Q (Win O sp x0 x1 V A s)
    (Reduction.place (final sp x0 x1 A s).2.1 ((final sp x0 x1 A s).1.query (Spec.issuerOf sp x0 x1) 0))

/-- Both runs win, with different answers to the first query. -/
def Pair (s s' : Fin Q → Spec.RunCell) : Prop :=
  ∃ j, spot O sp x0 x1 V A s = some j ∧ spot O sp x0 x1 V A (Spec.splice j s s') = some j ∧
    (leVal (s j).1.1 : F) ≠ leVal (s' j).1.1

/-- The algorithm finds the logarithm. -/
def Found (s s' : Fin Q → Spec.RunCell) : Prop :=
  ∃ y ∈ Spec.finder sp x0 x1 A (Spec.stretch s) (Spec.stretch s'), sp.h = y • sp.g

/-- The runs open the blinded attribute of step `n` with `z`. -/
def Leads (s s' : Fin Q → Spec.RunCell) (n : Fin Q) (z : F) : Prop :=
  let r := final sp x0 x1 A s
  let r' := final sp x0 x1 A
    (Spec.splice (Reduction.place r.2.1 (r.1.query (Spec.issuerOf sp x0 x1) 0)) s s')
  ∃ p p', r.1.presentation G = some p ∧ r'.1.presentation G = some p' ∧ Opens sp p p' r.2.2 n z

variable {O sp x0 x1 V A}

theorem final_length {T : ℕ} (hA : A.Within T) (hQ : T + 2 ≤ Q) (s : Fin Q → Spec.RunCell) :
    (final sp x0 x1 A s).2.1.length ≤ Q := by
  have h := run_length (sp := sp) (x0 := x0) (x1 := x1) (s := Spec.stretch s) (A.checked (Spec.issuerOf sp x0 x1)) [] []
    _ (Deputy.checked_within A T hA)
  simp only [List.length_nil, Nat.zero_add] at h
  exact h.trans hQ

theorem spot_isSome {T : ℕ} (hA : A.Within T) (hQ : T + 2 ≤ Q) (s : Fin Q → Spec.RunCell) :
    (spot O sp x0 x1 V A s).isSome ↔ Win O sp x0 x1 V A s := by
  unfold spot locate
  split
  · rename_i h
    simp [h.1]
  · rename_i h
    simp only [Option.isSome_none, Bool.false_eq_true, false_iff]
    refine fun hg => h ⟨hg, ?_⟩
    have h1 := (Reduction.place_spec (checked_mem (sp := sp) (x0 := x0) (x1 := x1) (s := Spec.stretch s)
      (i := Spec.issuerOf sp x0 x1) A [] [])).1
    exact lt_of_lt_of_le h1 (final_length hA hQ s)

theorem spot_eq_some {s : Fin Q → Spec.RunCell} {j : Fin Q} (h : spot O sp x0 x1 V A s = some j) :
    Win O sp x0 x1 V A s ∧
    Reduction.place (final sp x0 x1 A s).2.1 ((final sp x0 x1 A s).1.query (Spec.issuerOf sp x0 x1) 0) = j := by
  unfold spot locate at h
  split at h
  · rename_i hg
    cases h
    exact ⟨hg.1, rfl⟩
  · cases h

/-- What was seen in a run. -/
theorem final_seen {T : ℕ} (hA : A.Within T) (hQ : T + 2 ≤ Q) (s : Fin Q → Spec.RunCell) :
    (∀ e ∈ (final sp x0 x1 A s).2.2, e.1 < Q ∧ ∃ D, e.2 = Spec.fakeShow sp D (Spec.stretch s e.1)) ∧
    ∀ e ∈ (final sp x0 x1 A s).2.2, ∀ e' ∈ (final sp x0 x1 A s).2.2, e.1 = e'.1 → e = e' := by
  obtain ⟨h1, h2⟩ := run_seen (sp := sp) (x0 := x0) (x1 := x1) (s := Spec.stretch s)
    (A.checked (Spec.issuerOf sp x0 x1)) [] [] (fun e he => nomatch he) (fun e he => nomatch he)
  exact ⟨fun e he => ⟨lt_of_lt_of_le (h1 e he).1 (final_length hA hQ s), (h1 e he).2⟩, h2⟩

theorem finder_eq (s s' : Fin Q → Spec.RunCell) {p p' : SignalCredentialPresentation G}
    (hp : (final sp x0 x1 A s).1.presentation G = some p)
    (hp' : (final sp x0 x1 A (Spec.splice (Reduction.place (final sp x0 x1 A s).2.1
      ((final sp x0 x1 A s).1.query (Spec.issuerOf sp x0 x1) 0)) s s')).1.presentation G = some p') :
    Spec.finder sp x0 x1 A (Spec.stretch s) (Spec.stretch s') =
      Spec.candidates (Spec.stretch s) p p' (final sp x0 x1 A s).2.2 := by
  unfold final at hp hp'
  rw [stretch_splice] at hp'
  unfold Spec.finder
  dsimp only
  rw [hp, hp']
  rfl

theorem leads_found {T : ℕ} (hA : A.Within T) (hQ : T + 2 ≤ Q) {s s' : Fin Q → Spec.RunCell} {n : Fin Q} {z : F}
    (h : Leads sp x0 x1 A s s' n z) (hz : z ≠ (s n).2.2.1.2.2.1) : Found sp x0 x1 A s s' := by
  obtain ⟨p, p', h1, h2, h3⟩ := h
  unfold Found
  rw [finder_eq s s' h1 h2]
  refine opens_wins (fun e he => ((final_seen hA hQ s).1 e he).2) h3 ?_
  rwa [Reduction.stretch_of_lt s n.2]

theorem pair_cases {T : ℕ} (hA : A.Within T) (hQ : T + 2 ≤ Q) (hg : sp.g ≠ 0) (hh : sp.h ≠ 0)
    {s s' : Fin Q → Spec.RunCell} (h : Pair O sp x0 x1 V A s s') :
    (∃ n z, Leads sp x0 x1 A s s' n z) ∨ Found sp x0 x1 A s s' := by
  obtain ⟨j, h1, h2, hr⟩ := h
  obtain ⟨⟨⟨good, copy, echo⟩, hcol⟩, e⟩ := spot_eq_some h1
  obtain ⟨⟨⟨good', -, -⟩, -⟩, e'⟩ := spot_eq_some h2
  obtain ⟨l1, ⟨a, l2⟩, l3⟩ := Reduction.place_spec (L := (final sp x0 x1 A s).2.1)
    (t := (final sp x0 x1 A s).1.query (Spec.issuerOf sp x0 x1) 0)
    (checked_mem (sp := sp) (x0 := x0) (x1 := x1) (s := Spec.stretch s) (i := Spec.issuerOf sp x0 x1) A [] [])
  obtain ⟨k1, ⟨a', k2⟩, k3⟩ := Reduction.place_spec (L := (final sp x0 x1 A (Spec.splice j s s')).2.1)
    (t := (final sp x0 x1 A (Spec.splice j s s')).1.query (Spec.issuerOf sp x0 x1) 0)
    (checked_mem (sp := sp) (x0 := x0) (x1 := x1) (s := Spec.stretch (Spec.splice j s s'))
      (i := Spec.issuerOf sp x0 x1) A [] [])
  rw [e] at l2 l3
  rw [e'] at k2 k3
  have fork := run_fork (sp := sp) (x0 := x0) (x1 := x1) (s := Spec.stretch s) (s' := Spec.stretch (Spec.splice j s s'))
    (j := j) (fun n hn => by rw [stretch_splice, Spec.switch, if_pos hn]) (Reduction.query_not_issuance good 0)
    (Deputy.query_not good) (A.checked (Spec.issuerOf sp x0 x1)) [] [] [] (Nat.zero_le _) l2 k2
  obtain ⟨hs1, hs2⟩ := final_seen (sp := sp) (x0 := x0) (x1 := x1) hA hQ s
  obtain ⟨p, v, R, a1, a2, a3, a4, -⟩ := good
  obtain ⟨p', v', R', b1, b2, b3, -⟩ := good'
  have hp : (final sp x0 x1 A s).1.presentation G = some p := by
    simp only [Spec.Attempt.presentation, a1]
  have hp' : (final sp x0 x1 A (Spec.splice j s s')).1.presentation G = some p' := by
    simp only [Spec.Attempt.presentation, b1]
  rw [← e] at hp'
  have key := claim_cases (x0 := x0) (x1 := x1) hg hh (s := Spec.stretch s) (p := p) (p' := p')
    (seen := (final sp x0 x1 A s).2.2) (fun e he => (hs1 e he).2)
    (fun e he e' he' hb => by
      by_contra hne
      refine hcol ⟨⟨e.1, (hs1 e he).1⟩, ⟨e'.1, (hs1 e' he').1⟩, fun h => hne (hs2 e he e' he' ?_), ?_⟩
      · exact congrArg Fin.val h
      · rw [Reduction.stretch_of_lt s (hs1 e he).1, Reduction.stretch_of_lt s (hs1 e' he').1] at hb
        exact hb)
    a1 a4
    (by
      obtain ⟨w, hw, hq⟩ := echo
      obtain ⟨e, he, rfl⟩ := List.mem_map.1 hw
      refine ⟨e, he, hq.trans ?_⟩
      simp only [Spec.Attempt.query, a1, Spec.onDecoded, Nat.one_ne_zero, if_false]
      rfl)
    (fun e he heq => copy ⟨e.2, List.mem_map.2 ⟨e, he, rfl⟩, heq ▸ a1⟩)
    (by
      simp only [Spec.Attempt.query, a1, Spec.onDecoded, if_true] at fork l2 l3
      simp only [Spec.Attempt.query, b1, Spec.onDecoded, if_true] at fork k2 k3
      rcases fork with ⟨w, hw, hq⟩ | ⟨f1, f2⟩
      · exact .inl ⟨(j, w), hw, hq⟩
      · right
        obtain ⟨f2, f3⟩ := f2 l3
        have hd : ∀ {b : Bytes} {p : SignalCredentialPresentation G},
            SignalCredentialPresentation.fromBytes b = .ok p →
            p.presentation.attributesRevealed = [] ∧ p.presentation.attributesBlinded.length = 1 := by
          intro b p hb
          obtain ⟨Cm, rest, ho, -⟩ := (C10_ok_iff b p).1 hb
          obtain ⟨o1, o2, -⟩ := ho.1
          exact ⟨o1, by rw [o2]; rfl⟩
        have hv : ∀ {O : Oracle} {p : SignalCredentialPresentation G} {v},
            SignalIssuer.verify O ⟨Spec.issuerOf sp x0 x1⟩ p = .ok v →
            ∃ w, (Spec.issuerOf sp x0 x1).verify O p.presentation = .ok w := by
          intro O p v hv
          rw [SignalIssuer.verify] at hv
          obtain ⟨w, hw, hv⟩ := Res.bind_eq_ok.1 hv
          exact ⟨w, hw⟩
        obtain ⟨w, hw⟩ := hv a2
        obtain ⟨w', hw'⟩ := hv b2
        have hi : Spec.KeypairMatches (Spec.issuerOf sp x0 x1) :=
          ⟨Scalar.ofF x1, rfl, by rw [Scalar.val_ofF]; rfl⟩
        have c1 := Reduction.oracle_chal (O := O) (Knowledge.lookup_first l2 l3)
        have c2 := Reduction.oracle_chal (O := O) (Knowledge.lookup_first k2 k3)
        rw [f1] at c2
        refine (Knowledge.show_extract hi (hd a1) (hd b1) hw hw' f1 ?_).1
        rw [c1, c2, f2, f3, stretch_splice, Spec.switch, if_neg (lt_irrefl _), Reduction.stretch_of_lt s j.2,
          Reduction.stretch_of_lt s' j.2]
        exact hr)
  rcases key with ⟨n, z, h⟩ | ⟨y, hy, h⟩
  · obtain ⟨e, he, m, rfl, h'⟩ := h
    exact .inl ⟨⟨e.1, (hs1 e he).1⟩, z, p, p', hp, hp', e, he, m, rfl, h'⟩
  · right
    unfold Found
    rw [finder_eq s s' hp hp']
    exact ⟨y, hy, h⟩

/-! ## What the runs do not tell -/

/-- Other coins for the same presentations. -/
def shift (x τ : F) : Spec.RunCell ≃ Spec.RunCell where
  toFun c := (c.1, c.2.1, (c.2.2.1.1, c.2.2.1.2.1 - x * τ, c.2.2.1.2.2.1 + τ, c.2.2.1.2.2.2), c.2.2.2)
  invFun c := (c.1, c.2.1, (c.2.2.1.1, c.2.2.1.2.1 + x * τ, c.2.2.1.2.2.1 - τ, c.2.2.1.2.2.2), c.2.2.2)
  left_inv c := by simp
  right_inv c := by simp

omit [Ristretto G] in
theorem shift_blind {x : F} (hx : sp.h = x • sp.g) (τ : F) (c : Spec.RunCell) :
    (shift x τ c).blind sp = c.blind sp := by
  simp only [shift, Equiv.coe_fn_mk, Spec.RunCell.blind, hx]
  module

omit [Ristretto G] in
theorem shift_same {x : F} (hx : sp.h = x • sp.g) (τ : F) (c : Spec.RunCell) : Same sp (shift x τ c) c := by
  refine ⟨rfl, rfl, rfl, fun D => ?_⟩
  unfold Spec.fakeShow
  rw [shift_blind hx]
  rfl

/-- Tapes that make the same presentations. -/
def SameTape (sp : SystemParameters G) (s t : Fin Q → Spec.RunCell) : Prop :=
  ∀ n, Same sp (s n) (t n) ∧ (s n).blind sp = (t n).blind sp

theorem final_same {s t : Fin Q → Spec.RunCell} (h : SameTape sp s t) :
    final sp x0 x1 A s = final sp x0 x1 A t := by
  refine run_congr _ _ _ fun n _ => ?_
  unfold Spec.stretch
  split
  · exact (h _).1
  · exact same_refl _ _

omit [Ristretto G] in
theorem splice_same {s t : Fin Q → Spec.RunCell} (h : SameTape sp s t) (j : ℕ) (s' : Fin Q → Spec.RunCell) :
    SameTape sp (Spec.splice j s s') (Spec.splice j t s') := by
  intro n
  unfold Spec.splice
  split
  · exact h n
  · exact ⟨same_refl _ _, rfl⟩

omit [Ristretto G] in
theorem collides_same {s t : Fin Q → Spec.RunCell} (h : SameTape sp s t) : Collides sp s ↔ Collides sp t := by
  unfold Collides
  simp only [(h _).2]

theorem spot_same {s t : Fin Q → Spec.RunCell} (h : SameTape sp s t) :
    spot O sp x0 x1 V A s = spot O sp x0 x1 V A t := by
  have hw : Win O sp x0 x1 V A s = Win O sp x0 x1 V A t := by
    unfold Win
    rw [final_same h, collides_same h]
  unfold spot
  rw [hw, final_same h]

theorem pair_same {s t : Fin Q → Spec.RunCell} (h : SameTape sp s t) (s' : Fin Q → Spec.RunCell) :
    Pair O sp x0 x1 V A s s' ↔ Pair O sp x0 x1 V A t s' := by
  unfold Pair
  simp only [spot_same h, spot_same (splice_same h _ s'), (h _).1.1]

theorem leads_same {s t : Fin Q → Spec.RunCell} (h : SameTape sp s t) (s' : Fin Q → Spec.RunCell) :
    Leads sp x0 x1 A s s' = Leads sp x0 x1 A t s' := by
  unfold Leads
  simp only [final_same h, final_same (splice_same h _ s')]

theorem mean_shift {α : Type} [Fintype α] [Nonempty α] (e : F → α ≃ α) (f : α → ℚ) :
    Spec.mean f = Spec.mean fun a => Spec.mean fun τ => f (e τ a) := by
  rw [Sim.mean_comm]
  refine Eq.trans (Sim.mean_const (α := F) _).symm (Sim.mean_congr fun τ => ?_)
  exact (Sim.mean_equiv (e τ) f).symm

theorem mean_unique {E : F → Prop} [DecidablePred E] (h : ∀ τ τ', E τ → E τ' → τ = τ') :
    (Spec.mean fun τ => if E τ then (1 : ℚ) else 0) ≤ 1 / ell := by
  unfold Spec.mean
  rw [show Fintype.card F = ell from ZMod.card ell]
  refine div_le_div_of_nonneg_right ?_ (by positivity)
  rw [Finset.sum_boole]
  exact_mod_cast Finset.card_le_one.2 fun a ha b hb => h a b (Finset.mem_filter.1 ha).2 (Finset.mem_filter.1 hb).2

open Classical in
/-- The runs find the logarithm, except with probability `1 / ℓ`. -/
theorem pair_le {T : ℕ} (hA : A.Within T) (hQ : T + 2 ≤ Q) (hg : sp.g ≠ 0) (hh : sp.h ≠ 0)
    (s' : Fin Q → Spec.RunCell) :
    (1 - 1 / ell : ℚ) * (Spec.mean fun s : Fin Q → Spec.RunCell => if Pair O sp x0 x1 V A s s' then (1 : ℚ) else 0) ≤
      Spec.mean fun s : Fin Q → Spec.RunCell => if Found sp x0 x1 A s s' then (1 : ℚ) else 0 := by
  obtain ⟨x, hx⟩ := exists_smul_of_ne_zero hg sp.h
  let e : F → (Fin Q → Spec.RunCell) ≃ (Fin Q → Spec.RunCell) := fun τ => Equiv.piCongrRight fun _ => shift x τ
  have he : ∀ τ s, SameTape sp (e τ s) s := fun τ s n => ⟨shift_same hx τ _, shift_blind hx τ _⟩
  have hbad : (Spec.mean fun s : Fin Q → Spec.RunCell =>
      if Pair O sp x0 x1 V A s s' ∧ ¬ Found sp x0 x1 A s s' then (1 : ℚ) else 0) ≤
      1 / ell * Spec.mean fun s : Fin Q → Spec.RunCell => if Pair O sp x0 x1 V A s s' then (1 : ℚ) else 0 := by
    rw [mean_shift e, ← Reduction.mean_mul]
    refine Sim.mean_mono fun s => ?_
    by_cases hp : Pair O sp x0 x1 V A s s'
    · rw [if_pos hp, mul_one]
      by_cases hl : ∃ n z, Leads sp x0 x1 A s s' n z
      · obtain ⟨n, z, hl⟩ := hl
        have hz : ∀ τ, Pair O sp x0 x1 V A (e τ s) s' ∧ ¬ Found sp x0 x1 A (e τ s) s' → z = (s n).2.2.1.2.2.1 + τ := by
          rintro τ ⟨-, hf⟩
          by_contra hz
          refine hf (leads_found hA hQ (n := n) (z := z) ?_ hz)
          rw [leads_same (he τ s)]
          exact hl
        refine mean_unique fun τ τ' h h' => ?_
        have := (hz τ h).symm.trans (hz τ' h')
        exact add_left_cancel this
      · refine le_trans (le_of_eq ?_) (show (0 : ℚ) ≤ 1 / ell by positivity)
        refine Eq.trans (Sim.mean_congr fun τ => if_neg ?_) (Sim.mean_const (α := F) 0)
        rintro ⟨h1, h2⟩
        rcases pair_cases hA hQ hg hh h1 with h | h
        · rw [leads_same (he τ s)] at h
          exact hl h
        · exact h2 h
    · rw [if_neg hp, mul_zero]
      refine le_of_eq (Eq.trans (Sim.mean_congr fun τ => if_neg ?_) (Sim.mean_const (α := F) 0))
      rw [pair_same (he τ s)]
      exact fun h => hp h.1
  have hsplit : (Spec.mean fun s : Fin Q → Spec.RunCell => if Pair O sp x0 x1 V A s s' then (1 : ℚ) else 0) ≤
      (Spec.mean fun s : Fin Q → Spec.RunCell => if Found sp x0 x1 A s s' then (1 : ℚ) else 0) +
      Spec.mean fun s : Fin Q → Spec.RunCell =>
        if Pair O sp x0 x1 V A s s' ∧ ¬ Found sp x0 x1 A s s' then (1 : ℚ) else 0 := by
    rw [← Sim.mean_add]
    refine Sim.mean_mono fun s => ?_
    by_cases h1 : Pair O sp x0 x1 V A s s' <;> by_cases h2 : Found sp x0 x1 A s s' <;> simp [h1, h2]
  linarith

set_option synthInstance.maxSize 1000 in
open Classical in
theorem pairs_le {T : ℕ} (hA : A.Within T) (hQ : T + 2 ≤ Q) (hg : sp.g ≠ 0) (hh : sp.h ≠ 0) :
    (1 - 1 / ell : ℚ) * (Spec.mean fun s : (Fin Q → Spec.RunCell) × (Fin Q → Spec.RunCell) =>
      if Pair O sp x0 x1 V A s.1 s.2 then (1 : ℚ) else 0) ≤
      Spec.mean fun s : (Fin Q → Spec.RunCell) × (Fin Q → Spec.RunCell) =>
        if Found sp x0 x1 A s.1 s.2 then (1 : ℚ) else 0 := by
  have e1 : ∀ f : (Fin Q → Spec.RunCell) → (Fin Q → Spec.RunCell) → ℚ,
      (Spec.mean fun s : (Fin Q → Spec.RunCell) × (Fin Q → Spec.RunCell) => f s.1 s.2) =
        Spec.mean fun s' => Spec.mean fun s => f s s' := fun f => by
    rw [Tagging.mean_prod, Sim.mean_comm]
  rw [e1 fun s s' => if Pair O sp x0 x1 V A s s' then (1 : ℚ) else 0,
    e1 fun s s' => if Found sp x0 x1 A s s' then (1 : ℚ) else 0, ← Reduction.mean_mul]
  exact Sim.mean_mono fun s' => pair_le hA hQ hg hh s'

omit [Ristretto G] in
open Classical in
theorem collides_le (hg : sp.g ≠ 0) :
    (Spec.mean fun s : Fin Q → Spec.RunCell => if Collides sp s then (1 : ℚ) else 0) ≤ (Q : ℚ) ^ 2 / ell := by
  have h1 : ∀ D : G, (Spec.mean fun c : Spec.RunCell => if c.blind sp = D then (1 : ℚ) else 0) ≤ 1 / ell := by
    intro D
    let e : F → Spec.RunCell ≃ Spec.RunCell := fun τ =>
      { toFun := fun c => (c.1, c.2.1, (c.2.2.1.1, c.2.2.1.2.1 + τ, c.2.2.1.2.2), c.2.2.2)
        invFun := fun c => (c.1, c.2.1, (c.2.2.1.1, c.2.2.1.2.1 - τ, c.2.2.1.2.2), c.2.2.2)
        left_inv := fun c => by simp
        right_inv := fun c => by simp }
    rw [mean_shift e]
    refine le_of_le_of_eq (Sim.mean_mono fun c => ?_) (Sim.mean_const (α := Spec.RunCell) (1 / ell : ℚ))
    refine mean_unique fun τ τ' h h' => ?_
    have h2 := h.trans h'.symm
    simp only [e, Equiv.coe_fn_mk, Spec.RunCell.blind, add_smul, add_left_inj, add_right_inj] at h2
    rwa [smul_left_inj hg] at h2
  have h2 : ∀ n n' : Fin Q, (Spec.mean fun s : Fin Q → Spec.RunCell =>
      if n ≠ n' ∧ (s n).blind sp = (s n').blind sp then (1 : ℚ) else 0) ≤ 1 / ell := by
    intro n n'
    by_cases hn : n = n'
    · subst hn
      refine le_trans (le_of_eq ?_) (show (0 : ℚ) ≤ 1 / ell by positivity)
      exact Eq.trans (Sim.mean_congr fun s => if_neg fun h => h.1 rfl) (Sim.mean_const (α := Fin Q → Spec.RunCell) 0)
    · rw [Reduction.mean_coord n (fun (c : Spec.RunCell) (s : Fin Q → Spec.RunCell) => if n ≠ n' ∧ c.blind sp = (s n').blind sp then (1 : ℚ) else 0)
        (fun a v b => by rw [Function.update_of_ne (Ne.symm hn)]), Sim.mean_comm]
      refine le_of_le_of_eq (Sim.mean_mono fun s => ?_) (Sim.mean_const (α := Fin Q → Spec.RunCell) (1 / ell : ℚ))
      refine le_trans (Sim.mean_mono fun c => ?_) (h1 ((s n').blind sp))
      by_cases h : c.blind sp = (s n').blind sp <;> simp [h, hn]
  have h3 : ∀ s : Fin Q → Spec.RunCell, (if Collides sp s then (1 : ℚ) else 0) ≤
      ∑ k : Fin Q × Fin Q, if k.1 ≠ k.2 ∧ (s k.1).blind sp = (s k.2).blind sp then (1 : ℚ) else 0 := by
    intro s
    have nn : ∀ k ∈ Finset.univ, (0 : ℚ) ≤ (fun k : Fin Q × Fin Q =>
        if k.1 ≠ k.2 ∧ (s k.1).blind sp = (s k.2).blind sp then (1 : ℚ) else 0) k := by
      intro k _
      dsimp only
      split <;> norm_num
    split
    · rename_i h
      obtain ⟨n, n', h⟩ := h
      refine le_trans (le_of_eq ?_) (Finset.single_le_sum nn (Finset.mem_univ (n, n')))
      exact (if_pos h).symm
    · exact Finset.sum_nonneg nn
  refine (Sim.mean_mono h3).trans ?_
  rw [Reduction.mean_sum]
  refine (Finset.sum_le_sum fun k _ => h2 k.1 k.2).trans (le_of_eq ?_)
  rw [Finset.sum_const, Finset.card_univ, Fintype.card_prod, Fintype.card_fin, nsmul_eq_mul]
  push_cast
  ring

end runs

/-! ## The bound -/

section bound
variable {S Ω : Type} [Fintype S] [Fintype Ω] {sp : S → SystemParameters G}
  {A : SystemParameters G → F × F → Ω → Spec.Onlooker G Spec.Attempt} {V : Set F} {T : ℕ}

set_option synthInstance.maxSize 1000 in
open Classical in
/-- The probability that `Spec.finder` finds the logarithm, with an adversary that may depend on the secret key. -/
noncomputable def finds {S Ω : Type} [Fintype S] [Fintype Ω] (sp : S → SystemParameters G)
    (A : SystemParameters G → F × F → Ω → Spec.Onlooker G Spec.Attempt) (T : ℕ) : ℚ :=
  Spec.mean fun x : S × Ω × F × F => Spec.mean fun s : (Fin (T + 2) → Spec.RunCell) × (Fin (T + 2) → Spec.RunCell) =>
    if ∃ y ∈ Spec.finder (sp x.1) x.2.2.1 x.2.2.2 (A (sp x.1) x.2.2 x.2.1)
      (Spec.stretch s.1) (Spec.stretch s.2), (sp x.1).h = y • (sp x.1).g then 1 else 0

open Classical in
/-- The probability of success, with simulated presentations, using the second query of one of them. -/
noncomputable def echoed {S Ω : Type} [Fintype S] [Fintype Ω] (O : Oracle) (sp : S → SystemParameters G)
    (A : SystemParameters G → F × F → Ω → Spec.Onlooker G Spec.Attempt) (V : Set F) : ℚ :=
  Spec.mean fun x : S × Ω × F × F =>
    let i := Spec.issuerOf (sp x.1) x.2.2.1 x.2.2.2
    ((A (sp x.1) x.2.2 x.2.1).checked i).expect
      (Spec.honestIssue O (sp x.1) (Scalar.ofF x.2.2.1) (Scalar.ofF x.2.2.2))
      (simShow (sp x.1) (Scalar.ofF x.2.2.1) (Scalar.ofF x.2.2.2))
      (fun o l ps => if Echoing O V i o l ps then 1 else 0) [] []

set_option synthInstance.maxSize 1000 in
/-- Such successes give the logarithm. -/
theorem echo_le [Nonempty S] [Nonempty Ω] (O : Oracle) (hg : ∀ σ, (sp σ).g ≠ 0) (hh : ∀ σ, (sp σ).h ≠ 0)
    (hA : ∀ σ k ω, (A (sp σ) k ω).Within T) :
    ∃ ε : ℚ, 0 ≤ ε ∧ ε ≤ 1 ∧ echoed O sp A V ≤ ε + (T + 2) ^ 2 / ell ∧
      (1 - 1 / ell) * (ε ^ 2 / (T + 2) - ε / 2 ^ 252) ≤ finds sp A T := by
  classical
  let B : S × Ω × F × F → Spec.Onlooker G Spec.Attempt := fun x => A (sp x.1) x.2.2 x.2.1
  have hB : ∀ x, (B x).Within T := fun x => hA _ _ _
  let run : S × Ω × F × F → (Fin (T + 2) → Spec.RunCell) → Option (Fin (T + 2)) := fun x s =>
    spot O (sp x.1) x.2.2.1 x.2.2.2 V (B x) s
  have hsome : ∀ x s, (run x s).isSome ↔ Win O (sp x.1) x.2.2.1 x.2.2.2 V (B x) s := fun x s =>
    spot_isSome (hB x) le_rfl s
  have hε : (Spec.prob fun x : (S × Ω × F × F) × (Fin (T + 2) → Spec.RunCell) => (run x.1 x.2).isSome) =
      Spec.mean fun x : S × Ω × F × F => Spec.mean fun s : Fin (T + 2) → Spec.RunCell =>
        if Win O (sp x.1) x.2.2.1 x.2.2.2 V (B x) s then (1 : ℚ) else 0 := by
    rw [← Sim.mean_indicator, Tagging.mean_prod (α := S × Ω × F × F)]
    refine Sim.mean_congr fun x => Sim.mean_congr fun s => ?_
    exact if_congr (hsome x s) rfl rfl
  have hcol : ∀ d : F, Spec.prob (fun c : Spec.RunCell => (leVal c.1.1 : F) = d) ≤ 1 / 2 ^ 252 := by
    intro d
    refine le_trans (le_of_eq ?_) (Knowledge.collision d)
    rw [← Sim.mean_indicator, ← Sim.mean_indicator]
    rw [Reduction.mean_fst fun c : Spec.Answer => if (leVal c.1 : F) = d then (1 : ℚ) else 0]
  have key := Fork.forking run (fun c : Spec.RunCell => (leVal c.1.1 : F)) (1 / 2 ^ 252) hcol
  refine ⟨Spec.prob fun x : (S × Ω × F × F) × (Fin (T + 2) → Spec.RunCell) => (run x.1 x.2).isSome, ?_, ?_, ?_, ?_⟩
  · rw [← Sim.mean_indicator]
    exact (Sim.mean01 fun x => by split <;> norm_num).1
  · rw [← Sim.mean_indicator]
    exact (Sim.mean01 fun x => by split <;> norm_num).2
  · rw [hε]
    unfold echoed
    rw [← Sim.mean_const (α := S × Ω × F × F) ((T + 2) ^ 2 / ell : ℚ), ← Sim.mean_add]
    refine Sim.mean_mono fun x => ?_
    have h1 := run_tape (x0 := x.2.2.1) (x1 := x.2.2.2) (hg x.1) (hh x.1) O
      (fun o l ps => if Echoing O V (Spec.issuerOf (sp x.1) x.2.2.1 x.2.2.2) o l ps then (1 : ℚ) else 0) (Q := T + 2)
      ((B x).checked (Spec.issuerOf (sp x.1) x.2.2.1 x.2.2.2)) [] [] (T + 2) (Deputy.checked_within _ T (hB x)) (by simp)
    refine (le_of_eq h1).trans ?_
    have h2 := collides_le (Q := T + 2) (hg x.1)
    push_cast at h2
    refine le_trans ?_ (add_le_add_right h2 _)
    rw [← Sim.mean_add]
    refine Sim.mean_mono fun s => ?_
    dsimp only
    by_cases hc : Collides (sp x.1) s
    · rw [if_pos hc]
      split <;> split <;> norm_num
    · rw [if_neg hc, add_zero]
      refine le_of_eq (if_congr ?_ rfl rfl)
      exact (and_iff_left hc).symm
  · push_cast at key
    rw [mul_one_div] at key
    have hpos : (0 : ℚ) ≤ 1 - 1 / ell := by
      rw [sub_nonneg, div_le_one (by exact_mod_cast Nat.pos_of_ne_zero (NeZero.ne ell))]
      exact_mod_cast Nat.one_le_iff_ne_zero.2 (NeZero.ne ell)
    refine (mul_le_mul_of_nonneg_left key hpos).trans ?_
    rw [← Sim.mean_indicator, Tagging.mean_prod (α := S × Ω × F × F), ← Reduction.mean_mul]
    unfold finds
    refine Sim.mean_mono fun x => ?_
    have h := pairs_le (O := O) (sp := sp x.1) (x0 := x.2.2.1) (x1 := x.2.2.2) (V := V) (A := B x) (Q := T + 2) (hB x)
      le_rfl (hg x.1) (hh x.1)
    refine le_trans (le_of_eq ?_) (h.trans (le_of_eq ?_))
    · refine congrArg _ (Sim.mean_congr fun s => ?_)
      exact if_congr Iff.rfl rfl rfl
    · refine Sim.mean_congr fun s => ?_
      exact if_congr Iff.rfl rfl rfl

end bound

end Echo

end Verif
