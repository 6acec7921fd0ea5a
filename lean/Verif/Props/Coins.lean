import Verif.Lemmas.Bias
import Verif.Props.Attack
import Verif.Props.Tagging

/-!
# C87: the guarantees with scalars as the code draws them

The code never draws a uniform scalar: it draws 64 bytes and reduces them modulo `ℓ`. Here the guarantees of
C81–C84 and C86 are for provers, users and issuers that do this.
-/

set_option maxRecDepth 100000
set_option exponentiation.threshold 600

namespace Verif

variable {G : Type} [AddCommGroup G] [Module F G] [Ristretto G]

/-- Any number of scalars, each of 64 bytes. -/
theorem C87_draws (k : ℕ) (f : (Fin k → F) → ℚ) (hf : ∀ v, 0 ≤ f v ∧ f v ≤ 1) :
    |(Spec.mean fun w : Fin k → Spec.Answer => f fun i => Spec.coin (w i).1) - Spec.mean f| ≤ k / 2 ^ 259 := by
  refine (Sim.Near.pi (fun _ => Sim.Near.coin) f hf).trans (le_of_eq ?_)
  rw [Finset.sum_const, Finset.card_univ, Fintype.card_fin, nsmul_eq_mul, mul_one_div]

/-- For example the probability that the first of 5 draws is zero. -/
example : ∃ f : (Fin 5 → F) → ℚ, (∀ v, 0 ≤ f v ∧ f v ≤ 1) ∧ f 0 = 1 ∧ f 1 = 0 :=
  ⟨fun v => if v 0 = 0 then 1 else 0, fun v => by dsimp only; split <;> norm_num, if_pos rfl,
    if_neg (by decide +kernel)⟩

/-! ## Proofs -/

/-- Three, four or six scalars, each of 64 bytes. -/
def Spec.drawn3 (w : Spec.Answer × Spec.Answer × Spec.Answer) : F × F × F :=
  (Spec.coin w.1.1, Spec.coin w.2.1.1, Spec.coin w.2.2.1)

@[inherit_doc Spec.drawn3]
def Spec.drawn4 (w : Spec.Answer × Spec.Answer × Spec.Answer × Spec.Answer) : F × F × F × F :=
  (Spec.coin w.1.1, Spec.drawn3 w.2)

@[inherit_doc Spec.drawn3]
def Spec.drawn6 (w : Spec.Answer × Spec.Answer × Spec.Answer × Spec.Answer × Spec.Answer × Spec.Answer) :
    F × F × F × F × F × F :=
  (Spec.coin w.1.1, Spec.coin w.2.1.1, Spec.drawn4 w.2.2)

/-- An honest `IssuanceRevealed` proof, with scalars drawn as the code does. The hash is asked once. -/
noncomputable def Spec.IssuanceRevealed.drawn (O : Oracle) (t : Transcript) (p : IssuanceRevealed.Publics G)
    (s : IssuanceRevealed.Secrets) (l : Spec.HashLog) (k : Spec.HashLog → IssuanceRevealed.Proof → ℚ) : ℚ :=
  Spec.mean fun w : Spec.Answer × Spec.Answer × Spec.Answer × Spec.Answer =>
    Spec.mean fun a : Spec.Answer =>
      let rand := IssuanceRevealed.randOf (Spec.drawn4 w)
      let l' := l.asked (IssuanceRevealed.commitCommitments (IssuanceRevealed.commitPublics t p)
        (IssuanceRevealed.commitmentsOf p rand)) a
      k l' (IssuanceRevealed.createWith (l'.oracle O) t p s rand)

/-- An honest `AttributesBlinded` proof, with scalars drawn as the code does. The hash is asked once. -/
noncomputable def Spec.AttributesBlinded.drawn (O : Oracle) (t : Transcript) (p : AttributesBlinded.Publics G)
    (s : AttributesBlinded.Secrets) (l : Spec.HashLog) (k : Spec.HashLog → AttributesBlinded.Proof → ℚ) : ℚ :=
  Spec.mean fun w : Spec.Answer × Spec.Answer × Spec.Answer × Spec.Answer =>
    Spec.mean fun a : Spec.Answer =>
      let rand := AttributesBlinded.randOf (Spec.drawn4 w)
      let l' := l.asked (AttributesBlinded.commitCommitments (AttributesBlinded.commitPublics t p)
        (AttributesBlinded.commitmentsOf p rand)) a
      k l' (AttributesBlinded.createWith (l'.oracle O) t p s rand)

/-- An honest `IssuanceBlinded` proof, with scalars drawn as the code does. The hash is asked once. -/
noncomputable def Spec.IssuanceBlinded.drawn (O : Oracle) (t : Transcript) (p : IssuanceBlinded.Publics G)
    (s : IssuanceBlinded.Secrets) (l : Spec.HashLog) (k : Spec.HashLog → IssuanceBlinded.Proof → ℚ) : ℚ :=
  Spec.mean fun w : Spec.Answer × Spec.Answer × Spec.Answer × Spec.Answer × Spec.Answer × Spec.Answer =>
    Spec.mean fun a : Spec.Answer =>
      let rand := IssuanceBlinded.randOf (Spec.drawn6 w)
      let l' := l.asked (IssuanceBlinded.commitCommitments (IssuanceBlinded.commitPublics t p)
        (IssuanceBlinded.commitmentsOf p rand)) a
      k l' (IssuanceBlinded.createWith (l'.oracle O) t p s rand)

/-- An honest `ValidCredential` proof, with scalars drawn as the code does. The hash is asked once. -/
noncomputable def Spec.ValidCredential.drawn (O : Oracle) (t : Transcript) (p : ValidCredential.Publics G)
    (s : ValidCredential.Secrets) (l : Spec.HashLog) (k : Spec.HashLog → ValidCredential.Proof → ℚ) : ℚ :=
  Spec.mean fun w : Spec.Answer × Spec.Answer × Spec.Answer =>
    Spec.mean fun a : Spec.Answer =>
      let rand := ValidCredential.randOf (Spec.drawn3 w)
      let l' := l.asked (ValidCredential.commitCommitments (ValidCredential.commitPublics t p)
        (ValidCredential.commitmentsOf p rand)) a
      k l' (ValidCredential.createWith (l'.oracle O) t p s rand)

/-- An honest `CommittedValuesEqual` proof, with scalars drawn as the code does. The hash is asked once. -/
noncomputable def Spec.CommittedValuesEqual.drawn (O : Oracle) (t : Transcript) (p : CommittedValuesEqual.Publics G)
    (s : CommittedValuesEqual.Secrets) (l : Spec.HashLog) (k : Spec.HashLog → CommittedValuesEqual.Proof → ℚ) : ℚ :=
  Spec.mean fun w : Spec.Answer × Spec.Answer × Spec.Answer =>
    Spec.mean fun a : Spec.Answer =>
      let rand := CommittedValuesEqual.randOf (Spec.drawn3 w)
      let l' := l.asked (CommittedValuesEqual.commitCommitments (CommittedValuesEqual.commitPublics t p)
        (CommittedValuesEqual.commitmentsOf p rand)) a
      k l' (CommittedValuesEqual.createWith (l'.oracle O) t p s rand)

/-- Honest proofs, with scalars drawn as the code does. -/
noncomputable def Spec.drawn (O : Oracle) : Spec.Server (Spec.Claim G) Spec.Claim.Proof
  | .issuanceRevealed t p s _ _, l, k => Spec.IssuanceRevealed.drawn O t p s l k
  | .attributesBlinded t p s _ _, l, k => Spec.AttributesBlinded.drawn O t p s l k
  | .issuanceBlinded t p s _ _, l, k => Spec.IssuanceBlinded.drawn O t p s l k
  | .validCredential t p s _ _, l, k => Spec.ValidCredential.drawn O t p s l k
  | .committedValuesEqual t p s _ _, l, k => Spec.CommittedValuesEqual.drawn O t p s l k

namespace Coins

/-- The distance between 64 bytes modulo `ℓ` and a uniform scalar. -/
irreducible_def bias : ℚ := 1 / 2 ^ 259

theorem bias_nonneg : 0 ≤ bias := by
  rw [bias]
  positivity

theorem scale (c : ℚ) (n : ℕ) : (n : ℚ) * (c * bias) = c * n / 2 ^ 259 := by
  rw [bias]
  ring

theorem near1 : Sim.Near bias fun a : Spec.Answer => Spec.coin a.1 := by
  rw [bias]
  exact Sim.Near.coin

theorem near3 : Sim.Near (3 * bias) Spec.drawn3 := by
  have := near1.prod (near1.prod near1)
  convert this using 1
  · ring
  · rfl

theorem near4 : Sim.Near (4 * bias) Spec.drawn4 := by
  have := near1.prod near3
  convert this using 1
  · ring
  · rfl

theorem near6 : Sim.Near (6 * bias) Spec.drawn6 := by
  have := near1.prod (near1.prod near4)
  convert this using 1
  · ring
  · rfl

/-- Two servers that behave alike, whatever happens afterwards. -/
structure Alike {K : Type} {Pf : K → Type} (δ : ℚ) (serve serve' : Spec.Server K Pf) : Prop where
  range : ∀ x l f, Sim.Unit01 f → 0 ≤ serve x l f ∧ serve x l f ≤ 1
  alike : ∀ x l f g ε, Sim.Unit01 f → (∀ l' π, |f l' π - g l' π| ≤ ε) →
    |serve x l f - serve' x l g| ≤ ε + δ

/-- The difference adds up. -/
theorem alike_yes {K : Type} {Pf : K → Type} {δ : ℚ} (hδ : 0 ≤ δ) {serve serve' : Spec.Server K Pf}
    (h : Alike δ serve serve') (A : Spec.Observer K Pf) : ∀ l q n, A.Within q n →
      |A.yes serve l - A.yes serve' l| ≤ n * δ := by
  induction A with
  | done b =>
    intro l q n _
    simp only [Spec.Observer.yes, sub_self, abs_zero]
    positivity
  | toss next ih =>
    intro l q n hw
    exact Sim.abs_sub_mean_le fun a => ih a l q n (hw a)
  | ask t next ih =>
    intro l q n hw
    obtain ⟨q', rfl, hw⟩ := hw
    exact Sim.abs_sub_mean_le fun a => ih _ _ q' n (hw _)
  | request x next ih =>
    intro l q n hw
    obtain ⟨n', rfl, hw⟩ := hw
    refine (h.alike x l _ _ (n' * δ) (fun l' π => Sim.yes01 h.range (next π) l') fun l' π =>
      ih π l' q n' (hw π)).trans (le_of_eq ?_)
    push_cast
    ring

theorem IssuanceRevealed.drawn01 (O : Oracle) (t : Transcript) (p : IssuanceRevealed.Publics G) (s : IssuanceRevealed.Secrets)
    (l : Spec.HashLog) {f : Spec.HashLog → IssuanceRevealed.Proof → ℚ} (hf : Sim.Unit01 f) :
    0 ≤ Spec.IssuanceRevealed.drawn O t p s l f ∧ Spec.IssuanceRevealed.drawn O t p s l f ≤ 1 :=
  Sim.mean01 fun _ => Sim.mean01 fun _ => hf _ _

theorem IssuanceRevealed.alike (O : Oracle) (t : Transcript) (p : IssuanceRevealed.Publics G) (s : IssuanceRevealed.Secrets)
    (l : Spec.HashLog) {f g : Spec.HashLog → IssuanceRevealed.Proof → ℚ} {ε : ℚ} (hf : Sim.Unit01 f)
    (h : ∀ l' π, |f l' π - g l' π| ≤ ε) :
    |Spec.IssuanceRevealed.drawn O t p s l f - Spec.IssuanceRevealed.honest O t p s l g| ≤ ε + 4 * bias := by
  unfold Spec.IssuanceRevealed.drawn Spec.IssuanceRevealed.honest
  exact near4.mean (f := fun u => Spec.mean fun a : Spec.Answer =>
      let l' := l.asked (IssuanceRevealed.commitCommitments (IssuanceRevealed.commitPublics t p)
        (IssuanceRevealed.commitmentsOf p (IssuanceRevealed.randOf u))) a
      f l' (IssuanceRevealed.createWith (l'.oracle O) t p s (IssuanceRevealed.randOf u)))
    (fun _ => Sim.mean01 fun _ => hf _ _) fun _ => Sim.abs_sub_mean_le fun _ => h _ _

theorem AttributesBlinded.drawn01 (O : Oracle) (t : Transcript) (p : AttributesBlinded.Publics G) (s : AttributesBlinded.Secrets)
    (l : Spec.HashLog) {f : Spec.HashLog → AttributesBlinded.Proof → ℚ} (hf : Sim.Unit01 f) :
    0 ≤ Spec.AttributesBlinded.drawn O t p s l f ∧ Spec.AttributesBlinded.drawn O t p s l f ≤ 1 :=
  Sim.mean01 fun _ => Sim.mean01 fun _ => hf _ _

theorem AttributesBlinded.alike (O : Oracle) (t : Transcript) (p : AttributesBlinded.Publics G) (s : AttributesBlinded.Secrets)
    (l : Spec.HashLog) {f g : Spec.HashLog → AttributesBlinded.Proof → ℚ} {ε : ℚ} (hf : Sim.Unit01 f)
    (h : ∀ l' π, |f l' π - g l' π| ≤ ε) :
    |Spec.AttributesBlinded.drawn O t p s l f - Spec.AttributesBlinded.honest O t p s l g| ≤ ε + 4 * bias := by
  unfold Spec.AttributesBlinded.drawn Spec.AttributesBlinded.honest
  exact near4.mean (f := fun u => Spec.mean fun a : Spec.Answer =>
      let l' := l.asked (AttributesBlinded.commitCommitments (AttributesBlinded.commitPublics t p)
        (AttributesBlinded.commitmentsOf p (AttributesBlinded.randOf u))) a
      f l' (AttributesBlinded.createWith (l'.oracle O) t p s (AttributesBlinded.randOf u)))
    (fun _ => Sim.mean01 fun _ => hf _ _) fun _ => Sim.abs_sub_mean_le fun _ => h _ _

theorem IssuanceBlinded.drawn01 (O : Oracle) (t : Transcript) (p : IssuanceBlinded.Publics G) (s : IssuanceBlinded.Secrets)
    (l : Spec.HashLog) {f : Spec.HashLog → IssuanceBlinded.Proof → ℚ} (hf : Sim.Unit01 f) :
    0 ≤ Spec.IssuanceBlinded.drawn O t p s l f ∧ Spec.IssuanceBlinded.drawn O t p s l f ≤ 1 :=
  Sim.mean01 fun _ => Sim.mean01 fun _ => hf _ _

theorem IssuanceBlinded.alike (O : Oracle) (t : Transcript) (p : IssuanceBlinded.Publics G) (s : IssuanceBlinded.Secrets)
    (l : Spec.HashLog) {f g : Spec.HashLog → IssuanceBlinded.Proof → ℚ} {ε : ℚ} (hf : Sim.Unit01 f)
    (h : ∀ l' π, |f l' π - g l' π| ≤ ε) :
    |Spec.IssuanceBlinded.drawn O t p s l f - Spec.IssuanceBlinded.honest O t p s l g| ≤ ε + 6 * bias := by
  unfold Spec.IssuanceBlinded.drawn Spec.IssuanceBlinded.honest
  exact near6.mean (f := fun u => Spec.mean fun a : Spec.Answer =>
      let l' := l.asked (IssuanceBlinded.commitCommitments (IssuanceBlinded.commitPublics t p)
        (IssuanceBlinded.commitmentsOf p (IssuanceBlinded.randOf u))) a
      f l' (IssuanceBlinded.createWith (l'.oracle O) t p s (IssuanceBlinded.randOf u)))
    (fun _ => Sim.mean01 fun _ => hf _ _) fun _ => Sim.abs_sub_mean_le fun _ => h _ _

theorem ValidCredential.drawn01 (O : Oracle) (t : Transcript) (p : ValidCredential.Publics G) (s : ValidCredential.Secrets)
    (l : Spec.HashLog) {f : Spec.HashLog → ValidCredential.Proof → ℚ} (hf : Sim.Unit01 f) :
    0 ≤ Spec.ValidCredential.drawn O t p s l f ∧ Spec.ValidCredential.drawn O t p s l f ≤ 1 :=
  Sim.mean01 fun _ => Sim.mean01 fun _ => hf _ _

theorem ValidCredential.alike (O : Oracle) (t : Transcript) (p : ValidCredential.Publics G) (s : ValidCredential.Secrets)
    (l : Spec.HashLog) {f g : Spec.HashLog → ValidCredential.Proof → ℚ} {ε : ℚ} (hf : Sim.Unit01 f)
    (h : ∀ l' π, |f l' π - g l' π| ≤ ε) :
    |Spec.ValidCredential.drawn O t p s l f - Spec.ValidCredential.honest O t p s l g| ≤ ε + 3 * bias := by
  unfold Spec.ValidCredential.drawn Spec.ValidCredential.honest
  exact near3.mean (f := fun u => Spec.mean fun a : Spec.Answer =>
      let l' := l.asked (ValidCredential.commitCommitments (ValidCredential.commitPublics t p)
        (ValidCredential.commitmentsOf p (ValidCredential.randOf u))) a
      f l' (ValidCredential.createWith (l'.oracle O) t p s (ValidCredential.randOf u)))
    (fun _ => Sim.mean01 fun _ => hf _ _) fun _ => Sim.abs_sub_mean_le fun _ => h _ _

theorem CommittedValuesEqual.drawn01 (O : Oracle) (t : Transcript) (p : CommittedValuesEqual.Publics G) (s : CommittedValuesEqual.Secrets)
    (l : Spec.HashLog) {f : Spec.HashLog → CommittedValuesEqual.Proof → ℚ} (hf : Sim.Unit01 f) :
    0 ≤ Spec.CommittedValuesEqual.drawn O t p s l f ∧ Spec.CommittedValuesEqual.drawn O t p s l f ≤ 1 :=
  Sim.mean01 fun _ => Sim.mean01 fun _ => hf _ _

theorem CommittedValuesEqual.alike (O : Oracle) (t : Transcript) (p : CommittedValuesEqual.Publics G) (s : CommittedValuesEqual.Secrets)
    (l : Spec.HashLog) {f g : Spec.HashLog → CommittedValuesEqual.Proof → ℚ} {ε : ℚ} (hf : Sim.Unit01 f)
    (h : ∀ l' π, |f l' π - g l' π| ≤ ε) :
    |Spec.CommittedValuesEqual.drawn O t p s l f - Spec.CommittedValuesEqual.honest O t p s l g| ≤ ε + 3 * bias := by
  unfold Spec.CommittedValuesEqual.drawn Spec.CommittedValuesEqual.honest
  exact near3.mean (f := fun u => Spec.mean fun a : Spec.Answer =>
      let l' := l.asked (CommittedValuesEqual.commitCommitments (CommittedValuesEqual.commitPublics t p)
        (CommittedValuesEqual.commitmentsOf p (CommittedValuesEqual.randOf u))) a
      f l' (CommittedValuesEqual.createWith (l'.oracle O) t p s (CommittedValuesEqual.randOf u)))
    (fun _ => Sim.mean01 fun _ => hf _ _) fun _ => Sim.abs_sub_mean_le fun _ => h _ _

theorem le_six {c : ℚ} (h : c ≤ 6) (ε : ℚ) : ε + c * bias ≤ ε + 6 * bias :=
  add_le_add_right (mul_le_mul_of_nonneg_right h bias_nonneg) _

theorem drawn_alike (O : Oracle) : Alike (6 * bias) (Spec.drawn (G := G) O) (Spec.honest O) where
  range x l f hf := by
    cases x
    · exact IssuanceRevealed.drawn01 O _ _ _ l hf
    · exact AttributesBlinded.drawn01 O _ _ _ l hf
    · exact IssuanceBlinded.drawn01 O _ _ _ l hf
    · exact ValidCredential.drawn01 O _ _ _ l hf
    · exact CommittedValuesEqual.drawn01 O _ _ _ l hf
  alike x l f g ε hf h := by
    cases x
    · exact (IssuanceRevealed.alike O _ _ _ l hf h).trans (le_six (by norm_num) ε)
    · exact (AttributesBlinded.alike O _ _ _ l hf h).trans (le_six (by norm_num) ε)
    · exact (IssuanceBlinded.alike O _ _ _ l hf h).trans (le_six (by norm_num) ε)
    · exact (ValidCredential.alike O _ _ _ l hf h).trans (le_six (by norm_num) ε)
    · exact (CommittedValuesEqual.alike O _ _ _ l hf h).trans (le_six (by norm_num) ε)

end Coins

/-- C87: proofs made as the code makes them, with scalars of 64 uniform bytes, are zero knowledge: C81 with
`6n/2^259` more. -/
theorem C87_zero_knowledge (O : Oracle) (A : Spec.Observer (Spec.Claim G) Spec.Claim.Proof) (q n : ℕ)
    (hA : A.Within q n) :
    |A.yes (Spec.drawn O) [] - A.yes Spec.simulated []| ≤ n * (q + n) / ell + 6 * n / 2 ^ 259 := by
  have h1 := Coins.alike_yes (mul_nonneg (by norm_num) Coins.bias_nonneg) (Coins.drawn_alike O) A [] q n hA
  have h2 := C81_zero_knowledge O A q n hA
  have h3 := abs_sub_le (A.yes (Spec.drawn O) []) (A.yes (Spec.honest O) []) (A.yes Spec.simulated [])
  rw [Coins.scale] at h1
  linarith

/-- The observer that asks for a proof and checks it; for it the bound is far below `2^-200`. -/
example : ∃ A : Spec.Observer (Spec.Claim F) Spec.Claim.Proof, A.Within 1 1 ∧
    ((1 : ℕ) * ((1 : ℕ) + (1 : ℕ)) / ell + 6 * (1 : ℕ) / 2 ^ 259 : ℚ) ≤ 1 / 2 ^ 200 :=
  let p : IssuanceRevealed.Publics F := ⟨2, 76, 11, 1, 4, 20⟩
  let x : Spec.Claim F := .issuanceRevealed [] p
    ⟨⟨3, by decide⟩, ⟨5, by decide⟩, ⟨2, by decide⟩, ⟨35, by decide⟩⟩
    (by simp only [Spec.IssuanceRevealed, p]; decide +kernel) (by simp only [p]; decide +kernel)
  ⟨.request x fun (π : IssuanceRevealed.Proof) =>
      .ask (IssuanceRevealed.verifyTranscript [] p (IssuanceRevealed.recommit p π)) fun a =>
        .done (decide (Scalar.fromWide a.1 = π.challenge)),
    ⟨0, rfl, fun _ => ⟨0, rfl, fun _ => trivial⟩⟩, by norm_num [ell]⟩

/-! ## Presentations and issuances -/

/-- `SignalUser::show` with nine scalars drawn as the code does. -/
noncomputable def Spec.drawnShow (O : Oracle) (sp : SystemParameters G) (x0 x1 : Scalar) :
    Spec.Server (Spec.Holder sp x0 x1) (fun _ => SignalCredentialPresentation G) :=
  fun x l k =>
    Spec.mean fun wd : Spec.Answer × Spec.Answer × Spec.Answer =>
    Spec.mean fun w : Spec.Answer × Spec.Answer × Spec.Answer => Spec.mean fun a : Spec.Answer =>
    Spec.mean fun w' : Spec.Answer × Spec.Answer × Spec.Answer => Spec.mean fun a' : Spec.Answer =>
      let d := Spec.drawn3 wd
      let ρ := Spec.drawn3 w
      let ρ' := Spec.drawn3 w'
      let X := x1.val • sp.h
      let P := d.2.1 • x.credential.mac.nonce
      let C := x.m.val • P + d.1 • sp.h
      let p : ValidCredential.Publics G := ⟨sp.g, sp.h, X, P, d.1 • X - d.2.2 • sp.h, C⟩
      let p' : CommittedValuesEqual.Publics G := ⟨sp.g, sp.h, P, C, x.ros.commitment⟩
      let l₁ := l.asked (ValidCredential.commitCommitments
        (ValidCredential.commitPublics [.init "AEONFLUX SHOW"] p)
        (ValidCredential.commitmentsOf p (ValidCredential.randOf ρ))) a
      let l₂ := l₁.asked (CommittedValuesEqual.commitCommitments
        (CommittedValuesEqual.commitPublics [.init "SIGNAL GROUP MEMBERSHIP"] p')
        (CommittedValuesEqual.commitmentsOf p' (CommittedValuesEqual.randOf ρ'))) a'
      k l₂ (Spec.present (l₂.oracle O) sp X x.credential x.m x.ros d ρ ρ')

/-- `Issuer::issue` with six scalars drawn as the code does. -/
noncomputable def Spec.drawnIssue (O : Oracle) (sp : SystemParameters G) (x0 x1 : Scalar) :
    Spec.Server Scalar (fun _ => CredentialIssuance G) :=
  fun m l k =>
    Spec.mean fun wb : Spec.Answer => Spec.mean fun wz : Spec.Answer =>
    Spec.mean fun w : Spec.Answer × Spec.Answer × Spec.Answer × Spec.Answer => Spec.mean fun a : Spec.Answer =>
      let b := Spec.coin wb.1
      let z := Spec.coin wz.1
      let ρ := Spec.drawn4 w
      let P := b • basepoint G
      let p : IssuanceRevealed.Publics G := ⟨P, (x0.val + x1.val * m.val) • P,
        x0.val • sp.g + z • sp.h, sp.g, sp.h, x1.val • sp.h⟩
      let l' := l.asked (IssuanceRevealed.commitCommitments
        (IssuanceRevealed.commitPublics [.init "AEONFLUX ISSUANCE"] p)
        (IssuanceRevealed.commitmentsOf p (IssuanceRevealed.randOf ρ))) a
      k l' (Spec.issued (l'.oracle O) sp x0 x1 m b z ρ)

namespace Coins

/-- The body of `Spec.honestShow`. -/
noncomputable def showBody (O : Oracle) {sp : SystemParameters G} {x0 x1 : Scalar} (x : Spec.Holder sp x0 x1)
    (l : Spec.HashLog) (k : Spec.HashLog → SignalCredentialPresentation G → ℚ) (d ρ : F × F × F)
    (a : Spec.Answer) (ρ' : F × F × F) (a' : Spec.Answer) : ℚ :=
  let X := x1.val • sp.h
  let P := d.2.1 • x.credential.mac.nonce
  let C := x.m.val • P + d.1 • sp.h
  let p : ValidCredential.Publics G := ⟨sp.g, sp.h, X, P, d.1 • X - d.2.2 • sp.h, C⟩
  let p' : CommittedValuesEqual.Publics G := ⟨sp.g, sp.h, P, C, x.ros.commitment⟩
  let l₁ := l.asked (ValidCredential.commitCommitments
    (ValidCredential.commitPublics [.init "AEONFLUX SHOW"] p)
    (ValidCredential.commitmentsOf p (ValidCredential.randOf ρ))) a
  let l₂ := l₁.asked (CommittedValuesEqual.commitCommitments
    (CommittedValuesEqual.commitPublics [.init "SIGNAL GROUP MEMBERSHIP"] p')
    (CommittedValuesEqual.commitmentsOf p' (CommittedValuesEqual.randOf ρ'))) a'
  k l₂ (Spec.present (l₂.oracle O) sp X x.credential x.m x.ros d ρ ρ')

theorem show_alike (O : Oracle) (sp : SystemParameters G) (x0 x1 : Scalar) :
    Alike (9 * bias) (Spec.drawnShow O sp x0 x1) (Spec.honestShow O sp x0 x1) where
  range x l f hf := Sim.mean01 fun _ => Sim.mean01 fun _ => Sim.mean01 fun _ => Sim.mean01 fun _ =>
    Sim.mean01 fun _ => hf _ _
  alike x l f g ε hf h := by
    have u : ∀ d ρ a ρ' a', 0 ≤ showBody O x l f d ρ a ρ' a' ∧ showBody O x l f d ρ a ρ' a' ≤ 1 :=
      fun _ _ _ _ _ => hf _ _
    have c : ∀ d ρ a ρ' a', |showBody O x l f d ρ a ρ' a' - showBody O x l g d ρ a ρ' a'| ≤ ε :=
      fun _ _ _ _ _ => h _ _
    have h1 : |(Spec.mean fun wd => Spec.mean fun w => Spec.mean fun a : Spec.Answer => Spec.mean fun w' =>
          Spec.mean fun a' : Spec.Answer =>
            showBody O x l f (Spec.drawn3 wd) (Spec.drawn3 w) a (Spec.drawn3 w') a') -
        Spec.mean fun d => Spec.mean fun ρ => Spec.mean fun a : Spec.Answer => Spec.mean fun ρ' =>
          Spec.mean fun a' : Spec.Answer => showBody O x l g d ρ a ρ' a'| ≤
        ((ε + 3 * bias) + 3 * bias) + 3 * bias := by
      refine near3.mean (f := fun d => Spec.mean fun w => Spec.mean fun a : Spec.Answer =>
          Spec.mean fun w' => Spec.mean fun a' : Spec.Answer =>
            showBody O x l f d (Spec.drawn3 w) a (Spec.drawn3 w') a')
        (fun _ => Sim.mean01 fun _ => Sim.mean01 fun _ => Sim.mean01 fun _ => Sim.mean01 fun _ => u _ _ _ _ _)
        fun d => ?_
      refine near3.mean (f := fun ρ => Spec.mean fun a : Spec.Answer =>
          Spec.mean fun w' => Spec.mean fun a' : Spec.Answer =>
            showBody O x l f d ρ a (Spec.drawn3 w') a')
        (fun _ => Sim.mean01 fun _ => Sim.mean01 fun _ => Sim.mean01 fun _ => u _ _ _ _ _) fun ρ => ?_
      refine Sim.abs_sub_mean_le fun a => ?_
      exact near3.mean (f := fun ρ' => Spec.mean fun a' : Spec.Answer => showBody O x l f d ρ a ρ' a')
        (fun _ => Sim.mean01 fun _ => u _ _ _ _ _) fun ρ' => Sim.abs_sub_mean_le fun a' => c _ _ _ _ _
    refine h1.trans (le_of_eq ?_)
    ring

/-- The body of `Spec.honestIssue`. -/
noncomputable def issueBody (O : Oracle) (sp : SystemParameters G) (x0 x1 m : Scalar)
    (l : Spec.HashLog) (k : Spec.HashLog → CredentialIssuance G → ℚ) (b z : F) (ρ : F × F × F × F)
    (a : Spec.Answer) : ℚ :=
  let P := b • basepoint G
  let p : IssuanceRevealed.Publics G := ⟨P, (x0.val + x1.val * m.val) • P,
    x0.val • sp.g + z • sp.h, sp.g, sp.h, x1.val • sp.h⟩
  let l' := l.asked (IssuanceRevealed.commitCommitments
    (IssuanceRevealed.commitPublics [.init "AEONFLUX ISSUANCE"] p)
    (IssuanceRevealed.commitmentsOf p (IssuanceRevealed.randOf ρ))) a
  k l' (Spec.issued (l'.oracle O) sp x0 x1 m b z ρ)

theorem issue_alike (O : Oracle) (sp : SystemParameters G) (x0 x1 : Scalar) :
    Alike (6 * bias) (Spec.drawnIssue O sp x0 x1) (Spec.honestIssue O sp x0 x1) where
  range x l f hf := Sim.mean01 fun _ => Sim.mean01 fun _ => Sim.mean01 fun _ => Sim.mean01 fun _ => hf _ _
  alike m l f g ε hf h := by
    have u : ∀ b z ρ a, 0 ≤ issueBody O sp x0 x1 m l f b z ρ a ∧ issueBody O sp x0 x1 m l f b z ρ a ≤ 1 :=
      fun _ _ _ _ => hf _ _
    have c : ∀ b z ρ a, |issueBody O sp x0 x1 m l f b z ρ a - issueBody O sp x0 x1 m l g b z ρ a| ≤ ε :=
      fun _ _ _ _ => h _ _
    have h1 : |(Spec.mean fun wb : Spec.Answer => Spec.mean fun wz : Spec.Answer => Spec.mean fun w =>
          Spec.mean fun a : Spec.Answer =>
            issueBody O sp x0 x1 m l f (Spec.coin wb.1) (Spec.coin wz.1) (Spec.drawn4 w) a) -
        Spec.mean fun b => Spec.mean fun z => Spec.mean fun ρ => Spec.mean fun a : Spec.Answer =>
          issueBody O sp x0 x1 m l g b z ρ a| ≤
        ((ε + 4 * bias) + bias) + bias := by
      refine near1.mean (f := fun b => Spec.mean fun wz : Spec.Answer => Spec.mean fun w =>
          Spec.mean fun a : Spec.Answer => issueBody O sp x0 x1 m l f b (Spec.coin wz.1) (Spec.drawn4 w) a)
        (fun _ => Sim.mean01 fun _ => Sim.mean01 fun _ => Sim.mean01 fun _ => u _ _ _ _) fun b => ?_
      refine near1.mean (f := fun z => Spec.mean fun w =>
          Spec.mean fun a : Spec.Answer => issueBody O sp x0 x1 m l f b z (Spec.drawn4 w) a)
        (fun _ => Sim.mean01 fun _ => Sim.mean01 fun _ => u _ _ _ _) fun z => ?_
      exact near4.mean (f := fun ρ => Spec.mean fun a : Spec.Answer => issueBody O sp x0 x1 m l f b z ρ a)
        (fun _ => Sim.mean01 fun _ => u _ _ _ _) fun ρ => Sim.abs_sub_mean_le fun a => c _ _ _ _
    refine h1.trans (le_of_eq ?_)
    ring

end Coins

/-- C87: C82 for users that draw scalars as the code does. -/
theorem C87_presentation_simulatable (O : Oracle) (sp : SystemParameters G) (hh : sp.h ≠ 0)
    (x0 x1 : Scalar)
    (A : Spec.Observer (Spec.Holder sp x0 x1) fun _ => SignalCredentialPresentation G) (q n : ℕ)
    (hA : A.Within q n) :
    |A.yes (Spec.drawnShow O sp x0 x1) [] - A.yes (Spec.simulatedShow sp x0 x1) []| ≤
      2 * n * (q + 2 * n) / ell + 9 * n / 2 ^ 259 := by
  have h1 := Coins.alike_yes (mul_nonneg (by norm_num) Coins.bias_nonneg) (Coins.show_alike O sp x0 x1) A [] q n hA
  have h2 := C82_presentation_simulatable O sp hh x0 x1 A q n hA
  have h3 := abs_sub_le (A.yes (Spec.drawnShow O sp x0 x1) []) (A.yes (Spec.honestShow O sp x0 x1) [])
    (A.yes (Spec.simulatedShow sp x0 x1) [])
  rw [Coins.scale] at h1
  linarith

/-- Somebody to present, and an observer that asks for the presentation. -/
example : ∃ A : Spec.Observer (Spec.Holder (⟨1, 2⟩ : SystemParameters F) ⟨3, by decide⟩ ⟨5, by decide⟩) fun _ =>
    SignalCredentialPresentation F, (⟨1, 2⟩ : SystemParameters F).h ≠ 0 ∧ A.Within 0 1 :=
  ⟨.request ⟨⟨⟨2, 76⟩, []⟩, ⟨7, by decide⟩, ⟨16, ⟨2, by decide⟩⟩, by
      simp only [Spec.MacValid, Spec.macFactor, List.map]; decide +kernel, by decide +kernel,
      by decide +kernel⟩ fun p => .done (decide (p.presentation.rerandomizedNonce = 0)),
    by decide +kernel, 0, rfl, fun _ => trivial⟩

/-- C87: C83 for issuers that draw scalars as the code does. -/
theorem C87_issuance_simulatable (O : Oracle) (sp : SystemParameters G) (hh : sp.h ≠ 0) (x0 x1 : Scalar)
    (A : Spec.Observer Scalar fun _ => CredentialIssuance G) (q n : ℕ) (hA : A.Within q n) :
    |A.yes (Spec.drawnIssue O sp x0 x1) [] -
      A.yes (Spec.simulatedIssue sp (x1.val • sp.h) fun m b =>
        ⟨b • basepoint G, (x0.val + x1.val * m.val) • (b • basepoint G)⟩) []| ≤
      n * (q + n) / ell + 6 * n / 2 ^ 259 := by
  have h1 := Coins.alike_yes (mul_nonneg (by norm_num) Coins.bias_nonneg) (Coins.issue_alike O sp x0 x1) A [] q n hA
  have h2 := C83_issuance_simulatable O sp hh x0 x1 A q n hA
  have h3 := abs_sub_le (A.yes (Spec.drawnIssue O sp x0 x1) []) (A.yes (Spec.honestIssue O sp x0 x1) [])
    (A.yes (Spec.simulatedIssue sp (x1.val • sp.h) fun m b =>
        ⟨b • basepoint G, (x0.val + x1.val * m.val) • (b • basepoint G)⟩) [])
  rw [Coins.scale] at h1
  linarith

/-- An observer that gets the number 7 issued and looks at the key commitment. -/
example : (⟨1, 2⟩ : SystemParameters F).h ≠ 0 ∧
    Spec.Observer.Within (.request ⟨7, by decide⟩ fun c => .done (decide (c.secretKeyCommitment = 0)) :
      Spec.Observer Scalar fun _ => CredentialIssuance F) 0 1 :=
  ⟨by decide +kernel, 0, rfl, fun _ => trivial⟩

/-- C87: presentations of different people look alike to the issuer, with scalars drawn as the code does:
if two populations have valid credentials under the same keys, or under keys that agree place by place, and
the same roster commitments, then no observer can tell which it is, except with the given advantage. -/
theorem C87_unlinkable (O : Oracle) {sp : SystemParameters G} (hh : sp.h ≠ 0) {J : Type}
    (who who' : J → Spec.AnyHolder sp) (hk : ∀ j, (who j).1 = (who' j).1)
    (hD : ∀ j, (who j).2.ros.commitment = (who' j).2.ros.commitment)
    (A : Spec.Observer J fun _ => SignalCredentialPresentation G) (q n : ℕ) (hA : A.Within q n) :
    |A.yes (fun j => Spec.drawnShow O sp (who j).1.1 (who j).1.2 (who j).2) [] -
      A.yes (fun j => Spec.drawnShow O sp (who' j).1.1 (who' j).1.2 (who' j).2) []| ≤
      4 * n * (q + 2 * n) / ell + 18 * n / 2 ^ 259 := by
  have key : ∀ w : J → Spec.AnyHolder sp,
      |A.yes (fun j => Spec.drawnShow O sp (w j).1.1 (w j).1.2 (w j).2) [] -
        A.yes (Spec.presents O w) []| ≤ n * (9 * Coins.bias) := fun w =>
    Coins.alike_yes (mul_nonneg (by norm_num) Coins.bias_nonneg)
      ⟨fun j => (Coins.show_alike O sp _ _).range (w j).2, fun j => (Coins.show_alike O sp _ _).alike (w j).2⟩
      A [] q n hA
  have h1 := key who
  have h2 := key who'
  have h3 := C86_leak_partial O hh who who' hk hD A q n hA
  rw [Coins.scale] at h1 h2
  rw [abs_le] at h1 h2 h3 ⊢
  have e : (18 * n / 2 ^ 259 : ℚ) = 9 * n / 2 ^ 259 + 9 * n / 2 ^ 259 := by ring
  constructor <;> linarith [h1.1, h1.2, h2.1, h2.2, h3.1, h3.2]

/-- Two people with different phone numbers and the same fitting keys and roster commitment. -/
example : ∃ (who who' : Unit → Spec.AnyHolder (⟨1, 2⟩ : SystemParameters F)),
    (∀ j, (who j).1 = (who' j).1) ∧ (∀ j, (who j).2.ros.commitment = (who' j).2.ros.commitment) ∧
    ∀ j, (who j).2.m ≠ (who' j).2.m :=
  ⟨fun _ => ⟨(⟨3, by decide⟩, ⟨5, by decide⟩),
    ⟨⟨⟨2, 76⟩, []⟩, ⟨7, by decide⟩, ⟨16, ⟨2, by decide⟩⟩, by
      simp only [Spec.MacValid, Spec.macFactor, List.map]; decide +kernel, by decide +kernel,
      by decide +kernel⟩⟩,
    fun _ => ⟨(⟨3, by decide⟩, ⟨5, by decide⟩),
    ⟨⟨⟨2, 56⟩, []⟩, ⟨5, by decide⟩, ⟨16, ⟨6, by decide⟩⟩, by
      simp only [Spec.MacValid, Spec.macFactor, List.map]; decide +kernel, by decide +kernel,
      by decide +kernel⟩⟩, fun _ => rfl, fun _ => rfl,
    fun _ h => absurd (congrArg Scalar.n h) (by decide : (7 : ℕ) ≠ 5)⟩

/-! ## Unforgeability -/

section
open Spec.Present Spec.Present.Attack Present

variable {N : ℕ}

/-- The proofs that the code makes, with scalars drawn as the code does. -/
noncomputable def Spec.Present.Attack.drawn (O : Oracle) : Provers G where
  issuance := Spec.IssuanceRevealed.drawn O [.init "AEONFLUX ISSUANCE"]
  credential := Spec.ValidCredential.drawn O [.init "AEONFLUX SHOW"]
  roster := Spec.CommittedValuesEqual.drawn O [.init "SIGNAL GROUP MEMBERSHIP"]

/-- The unknowns, from the logarithm `η` of `h` (which is not drawn as a scalar) and 64 bytes for each
scalar. `β` are the logarithms of the nonces of the users that are watched. -/
def Spec.Present.Attack.unknowns (β : Fin N → F) (η : F) (w : Var N → Spec.Answer) : Hidden N
  | .eta => η
  | .rho j => Spec.coin (w (.rho j)).1 * β j
  | x => Spec.coin (w x).1

/-- The probability that the adversary of C84 wins, with scalars drawn as the code does. -/
noncomputable def Spec.Present.Attack.Attacker.drawnProbability (G : Type) [AddCommGroup G] [Module F G]
    [Ristretto G] (O : Oracle) (β : Fin N → F) (A : Attacker N) : ℚ :=
  Spec.mean fun η : F => Spec.mean fun w : Var N → Spec.Answer =>
    A.wins O (Spec.Present.Attack.drawn (G := G) O) (unknowns β η w) ⟨⟨[], [], []⟩, []⟩ []

namespace Coins

theorem fair_drawn (O : Oracle) : Attack.Fair (Spec.Present.Attack.drawn (G := G) O) :=
  ⟨fun _ _ _ _ h => IssuanceRevealed.drawn01 _ _ _ _ _ h,
    fun _ _ _ _ h => ValidCredential.drawn01 _ _ _ _ _ h,
    fun _ _ _ _ h => CommittedValuesEqual.drawn01 _ _ _ _ _ h⟩

/-- Two provers that behave alike, whatever happens afterwards. -/
structure AlikeProvers (pr pr' : Provers G) : Prop where
  issuance : ∀ p s l f g ε, Sim.Unit01 f → (∀ l' π, |f l' π - g l' π| ≤ ε) →
    |pr.issuance p s l f - pr'.issuance p s l g| ≤ ε + 6 * bias
  credential : ∀ p s l f g ε, Sim.Unit01 f → (∀ l' π, |f l' π - g l' π| ≤ ε) →
    |pr.credential p s l f - pr'.credential p s l g| ≤ ε + 3 * bias
  roster : ∀ p s l f g ε, Sim.Unit01 f → (∀ l' π, |f l' π - g l' π| ≤ ε) →
    |pr.roster p s l f - pr'.roster p s l g| ≤ ε + 3 * bias

theorem provers_alike (O : Oracle) : AlikeProvers (Spec.Present.Attack.drawn (G := G) O) (honest O) :=
  ⟨fun _ _ l _ _ ε hf h => (IssuanceRevealed.alike O _ _ _ l hf h).trans (le_six (by norm_num) ε),
    fun _ _ l _ _ _ hf h => ValidCredential.alike O _ _ _ l hf h,
    fun _ _ l _ _ _ hf h => CommittedValuesEqual.alike O _ _ _ l hf h⟩

theorem wins_alike (O : Oracle) {pr pr' : Provers G} (hp : Attack.Fair pr) (hpr : AlikeProvers pr pr')
    (v : Hidden N) (A : Attacker N) : ∀ n, A.Within n → ∀ S l,
    |A.wins O pr v S l - A.wins O pr' v S l| ≤ n * (6 * bias) := by
  have hb := bias_nonneg
  have z : ∀ n : ℕ, |(0 : ℚ) - 0| ≤ n * (6 * bias) := by
    intro n
    rw [sub_zero, abs_zero]
    positivity
  have s : ∀ k : ℕ, ((k + 1 : ℕ) : ℚ) * (6 * bias) = k * (6 * bias) + 6 * bias := by
    intro k
    push_cast
    ring
  have mono : ∀ k : ℕ, (k : ℚ) * (6 * bias) ≤ ((k + 1 : ℕ) : ℚ) * (6 * bias) := by
    intro k
    rw [s]
    exact le_add_of_nonneg_right (by positivity)
  induction A with
  | issue m next ih =>
    rintro _ ⟨k, rfl, hk⟩ S l
    rw [Attacker.wins, Attacker.wins, s]
    split
    · exact hpr.issuance _ _ l _ _ _ (fun l' π => Attack.wins01 O hp v _ _ _)
        fun l' π => ih π k (hk π) _ _
    · rw [← s]
      exact z _
  | enrol m next ih =>
    rintro _ ⟨k, rfl, hk⟩ S l
    rw [Attacker.wins, Attacker.wins]
    split
    · exact (ih k hk _ _).trans (mono k)
    · exact z _
  | watch i next ih =>
    rintro _ ⟨k, rfl, hk⟩ S l
    rw [Attacker.wins, Attacker.wins]
    split
    · exact z _
    · split
      · refine (hpr.credential _ _ l _ _ (k * (6 * bias) + 3 * bias) (fun l' π => hp.roster _ _ _ _
          fun l' π => Attack.wins01 O hp v _ _ _) fun l' π => hpr.roster _ _ l' _ _ (k * (6 * bias))
            (fun l' π => Attack.wins01 O hp v _ _ _) fun l'' π' => ih π π' k (hk π π') _ _).trans (le_of_eq ?_)
        rw [s]
        ring
      · exact z _
  | test L yes no ih ih' =>
    rintro _ ⟨k, rfl, hy, hn⟩ S l
    rw [Attacker.wins, Attacker.wins]
    split
    · exact (ih k hy _ _).trans (mono k)
    · exact (ih' k hn _ _).trans (mono k)
  | toss next ih =>
    rintro _ ⟨k, rfl, hk⟩ S l
    exact Sim.abs_sub_mean_le fun c => (ih c k (hk c) _ _).trans (mono k)
  | hash q next ih =>
    rintro _ ⟨k, rfl, hk⟩ S l
    exact Sim.abs_sub_mean_le fun a => (ih _ k (hk _) _ _).trans (mono k)
  | present p next ih =>
    rintro _ ⟨k, rfl, hk⟩ S l
    exact Sim.abs_sub_mean_le fun a => (ih _ k (hk _) _ _).trans (mono k)
  | member p next ih =>
    rintro _ ⟨k, rfl, hk⟩ S l
    exact Sim.abs_sub_mean_le fun a => (ih _ k (hk _) _ _).trans (mono k)
  | outputShow p =>
    rintro _ ⟨k, rfl⟩ S l
    rw [Attacker.wins, Attacker.wins, sub_self, abs_zero]
    positivity
  | outputMember p =>
    rintro _ ⟨k, rfl⟩ S l
    rw [Attacker.wins, Attacker.wins, sub_self, abs_zero]
    positivity

/-- The unknowns, counted. -/
def varEquiv : Var N ≃ Fin 3 ⊕ (Fin 6 × Fin N) where
  toFun
    | .x0 => .inl 0
    | .x1 => .inl 1
    | .eta => .inl 2
    | .b j => .inr (0, j)
    | .t j => .inr (1, j)
    | .rho j => .inr (2, j)
    | .zeta j => .inr (3, j)
    | .xi j => .inr (4, j)
    | .y j => .inr (5, j)
  invFun
    | .inl 0 => .x0
    | .inl 1 => .x1
    | .inl 2 => .eta
    | .inr (0, j) => .b j
    | .inr (1, j) => .t j
    | .inr (2, j) => .rho j
    | .inr (3, j) => .zeta j
    | .inr (4, j) => .xi j
    | .inr (5, j) => .y j
  left_inv x := by cases x <;> rfl
  right_inv x := by
    rcases x with i | ⟨i, j⟩ <;> fin_cases i <;> rfl

theorem card_var : Fintype.card (Var N) = 6 * N + 3 := by
  rw [Fintype.card_congr varEquiv, Fintype.card_sum, Fintype.card_prod, Fintype.card_fin, Fintype.card_fin,
    Fintype.card_fin, add_comm]

/-- Uniform scalars to uniform unknowns, with `h` apart. -/
def unknownsEquiv (β : Fin N → F) (hβ : ∀ j, β j ≠ 0) : F × Hidden N ≃ F × Hidden N where
  toFun p := (p.2 .eta, fun
    | .eta => p.1
    | .rho j => p.2 (.rho j) * β j
    | x => p.2 x)
  invFun p := (p.2 .eta, fun
    | .eta => p.1
    | .rho j => p.2 (.rho j) / β j
    | x => p.2 x)
  left_inv p := by
    ext x
    · rfl
    · cases x <;> simp [hβ]
  right_inv p := by
    ext x
    · rfl
    · cases x <;> simp [hβ]

theorem near_unknowns (β : Fin N → F) (hβ : ∀ j, β j ≠ 0) :
    Sim.Near ((6 * N + 3) * bias) fun p : F × (Var N → Spec.Answer) => unknowns β p.1 p.2 := by
  have h1 : Sim.Near 0 fun p : F × Hidden N => p.2 := by
    intro f _
    rw [Sim.mean_pair]
    have e : (Spec.mean fun _ : F => Spec.mean fun v : Hidden N => f v) = Spec.mean f :=
      Sim.mean_const (α := F) (Spec.mean f)
    exact (congrArg (fun x => |x - Spec.mean f|) e).trans_le (by rw [sub_self, abs_zero])
  have h2 : Sim.Near ((6 * N + 3) * bias) fun (w : Var N → Spec.Answer) x => Spec.coin (w x).1 := by
    have := Sim.Near.pi fun _ : Var N => near1
    rw [Finset.sum_const, Finset.card_univ, card_var, nsmul_eq_mul] at this
    exact_mod_cast this
  have h3 := (((Sim.Near.equiv (Equiv.refl F)).prod h2).comp
    (Sim.Near.equiv (unknownsEquiv β hβ))).comp h1
  rw [zero_add, add_zero, add_zero] at h3
  convert h3 using 1
  funext p x
  cases x <;> rfl

end Coins

/-- C87: C84 for issuers and users that draw their scalars as the code does. -/
theorem C87_unforgeable (O : Oracle) (β : Fin N → F) (hβ : ∀ j, β j ≠ 0) (A : Attacker N) {n : ℕ}
    (h : A.Within n) :
    A.drawnProbability G O β ≤ (8 * n ^ 2 + 5 * n + 1) / ell + (6 * N + 3 + 6 * n) / 2 ^ 259 := by
  have h1 := Attack.C84_unforgeable (G := G) O A h
  have h2 : |A.drawnProbability G O β - A.probability G O| ≤
      n * (6 * Coins.bias) + (6 * N + 3) * Coins.bias := by
    unfold Attacker.drawnProbability Attacker.probability
    rw [← Sim.mean_pair fun p : F × (Var N → Spec.Answer) =>
      A.wins O (Spec.Present.Attack.drawn (G := G) O) (unknowns β p.1 p.2) ⟨⟨[], [], []⟩, []⟩ []]
    exact (Coins.near_unknowns β hβ).mean
      (f := fun v => A.wins O (Spec.Present.Attack.drawn (G := G) O) v ⟨⟨[], [], []⟩, []⟩ [])
      (fun v => Attack.wins01 O (Coins.fair_drawn O) v A _ _) fun v => Coins.wins_alike O (Coins.fair_drawn O) (Coins.provers_alike O) v A n h _ _
  have h3 := (abs_le.1 h2).2
  have e : ((6 * N + 3 + 6 * n) / 2 ^ 259 : ℚ) =
      n * (6 * Coins.bias) + (6 * N + 3) * Coins.bias := by
    rw [Coins.bias]
    ring
  rw [e]
  linarith

/-- The adversary of C84 that bets on the key being zero, with at most five users. -/
example (O : Oracle) : (Attack.lucky : Attacker 5).Within 2 ∧ (∀ j : Fin 5, (fun _ => 3 : Fin 5 → F) j ≠ 0) ∧
    (Attack.lucky : Attacker 5).drawnProbability G O (fun _ => 3) ≤ 43 / ell + 45 / 2 ^ 259 := by
  have h : Attacker.Within (Attack.lucky : Attacker 5) 2 := ⟨1, rfl, fun a => ⟨0, rfl⟩⟩
  have h3 : ∀ j : Fin 5, (fun _ => 3 : Fin 5 → F) j ≠ 0 := fun _ => (by decide +kernel : (3 : F) ≠ 0)
  exact ⟨h, h3, (C87_unforgeable O _ h3 Attack.lucky h).trans (le_of_eq (by norm_num))⟩

end

end Verif
