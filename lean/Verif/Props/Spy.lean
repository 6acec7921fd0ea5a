import Verif.Props.Onlooker
import Verif.Props.Intruder

/-!
# C94 for the code with its own generators

As `Intruder` does for C93: here the issuer and the users run the programs of `Issuer::issue` and `SignalUser::show`,
which draw from keyed generators, and the adversary may read generators as well.
-/

set_option maxRecDepth 100000
set_option exponentiation.threshold 300

namespace Verif

open Amacs

variable {G : Type} [AddCommGroup G] [Module F G] [Ristretto G]

/-! ## The game -/

/-- An adversary that asks the hash, reads transcript generators, gets attributes issued, watches presentations, and
finally claims something. -/
inductive Spec.Spy (G : Type) where
  | out (o : Spec.Attempt)
  | ask (t : Transcript) (next : Spec.Answer → Spec.Spy G)
  | read (q : Spec.Read) (next : Spec.Answer → Spec.Spy G)
  | issue (m : Scalar) (next : CredentialIssuance G → Spec.Spy G)
  | watch (w : Spec.Member) (next : SignalCredentialPresentation G → Spec.Spy G)

/-- At most `q` hash queries and `s` reads by the adversary, and `n` issuances and presentations. -/
def Spec.Spy.Within : Spec.Spy G → ℕ → ℕ → ℕ → Prop
  | .out _, _, _, _ => True
  | .ask _ next, q, s, n => ∃ q', q = q' + 1 ∧ ∀ a, (next a).Within q' s n
  | .read _ next, q, s, n => ∃ s', s = s' + 1 ∧ ∀ a, (next a).Within q s' n
  | .issue _ next, q, s, n => ∃ n', n = n' + 1 ∧ ∀ c, (next c).Within q s n'
  | .watch _ next, q, s, n => ∃ n', n = n' + 1 ∧ ∀ p, (next p).Within q s n'

/-- No attribute in `V` is issued to the adversary. -/
def Spec.Spy.Avoids (V : Set F) : Spec.Spy G → Prop
  | .out _ => True
  | .ask _ next => ∀ a, (next a).Avoids V
  | .read _ next => ∀ a, (next a).Avoids V
  | .issue m next => m.val ∉ V ∧ ∀ c, (next c).Avoids V
  | .watch _ next => ∀ p, (next p).Avoids V

/-- What the issuer and the users send. -/
def Spec.Sent (G : Type) : Scalar ⊕ Spec.Member → Type
  | .inl _ => CredentialIssuance G
  | .inr _ => SignalCredentialPresentation G

/-- What the issuer and the users do. -/
def Spec.sends (sp : SystemParameters G) (x0 x1 : Scalar) : (j : Scalar ⊕ Spec.Member) → Spec.Program (Spec.Sent G j)
  | .inl m => Spec.Program.issue sp x0 x1 m
  | .inr w => Spec.Program.show sp (x1.val • sp.h) (w.holder sp x0 x1).credential w.m (w.entry sp)

open Classical in
/-- The adversary together with the check of its claim, after the presentations `ps`. -/
noncomputable def Spec.Spy.watcher (O : Oracle) (i : Issuer G) (V : Set F) :
    Spec.Spy G → List (SignalCredentialPresentation G) → Spec.Watcher (Scalar ⊕ Spec.Member) (Spec.Sent G)
  | .out o, ps => .ask (o.query i 0) fun a => .ask (o.query i 1) fun b =>
      .done (decide (o.Good (Spec.HashLog.oracle O [(o.query i 0, a), (o.query i 1, b)]) i V ∧ ¬ o.Copies ps))
  | .ask t next, ps => .ask t fun a => (next a).watcher O i V ps
  | .read q next, ps => .read q fun a => (next a).watcher O i V ps
  | .issue m next, ps => .request (.inl m) fun c => (next c).watcher O i V ps
  | .watch w next, ps => .request (.inr w) fun p => (next p).watcher O i V (p :: ps)

/-- The probability that an adversary gets accepted for a number in `V` without repeating a presentation, if the
issuer and the users run the code with its own generators. -/
noncomputable def Spec.spyWins {S Ω : Type} [Fintype S] [Fintype Ω] (O : Oracle) (sp : S → SystemParameters G)
    (A : SystemParameters G → G → Ω → Spec.Spy G) (V : Set F) : ℚ :=
  Spec.mean fun x : S × Ω × F × F =>
    ((A (sp x.1) (x.2.2.2 • (sp x.1).h) x.2.1).watcher O (Spec.issuerOf (sp x.1) x.2.2.1 x.2.2.2) V []).yesRun
      (Spec.sends (sp x.1) (Scalar.ofF x.2.2.1) (Scalar.ofF x.2.2.2)) [] []

/-- The adversary that asks the hash instead of reading generators. -/
def Spec.Spy.pack : Spec.Spy G → Spec.Onlooker G Spec.Attempt
  | .out o => .out o
  | .ask t next => .ask (Forge.askedT t) fun a => (next a).pack
  | .read q next => .ask (Forge.packedT q) fun a => (next a).pack
  | .issue m next => .issue m fun c => (next c).pack
  | .watch w next => .watch w fun p => (next p).pack

namespace Onlooker

omit [AddCommGroup G] [Module F G] [Ristretto G] in
theorem onlooker_mono {Out : Type} (A : Spec.Onlooker G Out) : ∀ n n', n ≤ n' → A.Within n → A.Within n' := by
  induction A with
  | out o => intros; trivial
  | ask t next ih => rintro _ n' hn ⟨n, rfl, h⟩; exact ⟨n' - 1, by omega, fun a => ih a n _ (by omega) (h a)⟩
  | issue t next ih => rintro _ n' hn ⟨n, rfl, h⟩; exact ⟨n' - 1, by omega, fun a => ih a n _ (by omega) (h a)⟩
  | watch t next ih => rintro _ n' hn ⟨n, rfl, h⟩; exact ⟨n' - 2, by omega, fun a => ih a n _ (by omega) (h a)⟩

omit [AddCommGroup G] [Module F G] [Ristretto G] in
theorem pack_within (A : Spec.Spy G) : ∀ q s n, A.Within q s n → A.pack.Within (q + s + 2 * n) := by
  induction A with
  | out o => intros; trivial
  | ask t next ih => rintro _ s n ⟨q, rfl, h⟩; exact ⟨q + s + 2 * n, by omega, fun a => ih a q s n (h a)⟩
  | read t next ih => rintro q _ n ⟨s, rfl, h⟩; exact ⟨q + s + 2 * n, by omega, fun a => ih a q s n (h a)⟩
  | issue t next ih =>
    rintro q s _ ⟨n, rfl, h⟩
    exact ⟨q + s + 2 * n + 1, by omega, fun a => onlooker_mono _ _ _ (Nat.le_succ _) (ih a q s n (h a))⟩
  | watch t next ih => rintro q s _ ⟨n, rfl, h⟩; exact ⟨q + s + 2 * n, by omega, fun a => ih a q s n (h a)⟩

omit [AddCommGroup G] [Module F G] [Ristretto G] in
theorem pack_avoids {V : Set F} (A : Spec.Spy G) : A.Avoids V → A.pack.Avoids V := by
  induction A with
  | out o => intros; trivial
  | ask t next ih => exact fun h a => ih a (h a)
  | read t next ih => exact fun h a => ih a (h a)
  | issue t next ih => exact fun h => ⟨h.1, fun a => ih a (h.2 a)⟩
  | watch t next ih => exact fun h a => ih a (h a)

theorem watcher_within {O : Oracle} {i : Issuer G} {V : Set F} (A : Spec.Spy G) : ∀ ps q s n, A.Within q s n →
    (A.watcher O i V ps).Within (q + 2) s n := by
  induction A with
  | out o => intro ps q s n _; exact ⟨q + 1, rfl, fun _ => ⟨q, rfl, fun _ => trivial⟩⟩
  | ask t next ih => rintro ps _ s n ⟨q, rfl, h⟩; exact ⟨q + 2, rfl, fun a => ih a ps q s n (h a)⟩
  | read t next ih => rintro ps q _ n ⟨s, rfl, h⟩; exact ⟨s, rfl, fun a => ih a ps q s n (h a)⟩
  | issue t next ih => rintro ps q s _ ⟨n, rfl, h⟩; exact ⟨n, rfl, fun a => ih a ps q s n (h a)⟩
  | watch t next ih => rintro ps q s _ ⟨n, rfl, h⟩; exact ⟨n, rfl, fun a => ih a (a :: ps) q s n (h a)⟩

/-- The issuer and the users with uniform randomness. -/
noncomputable def honestly (O : Oracle) (sp : SystemParameters G) (x0 x1 : Scalar) :
    Spec.Server (Scalar ⊕ Spec.Member) (Spec.Sent G)
  | .inl m => Spec.honestIssue O sp x0 x1 m
  | .inr w => Spec.memberShow O sp x0 x1 w

/-- The same, with the coins of the code. -/
noncomputable def drawing (O : Oracle) (sp : SystemParameters G) (x0 x1 : Scalar) :
    Spec.Server (Scalar ⊕ Spec.Member) (Spec.Sent G)
  | .inl m => Spec.drawnIssue O sp x0 x1 m
  | .inr w => Spec.drawnShow O sp x0 x1 (w.holder sp x0 x1)

theorem drawing_alike (O : Oracle) (sp : SystemParameters G) (x0 x1 : Scalar) :
    Coins.Alike (9 * Coins.bias) (drawing O sp x0 x1) (honestly O sp x0 x1) where
  range
    | .inl m => (Coins.issue_alike O sp x0 x1).range m
    | .inr w => (Coins.show_alike O sp x0 x1).range (w.holder sp x0 x1)
  alike
    | .inl m => fun l f g ε hf h => ((Coins.issue_alike O sp x0 x1).alike m l f g ε hf h).trans (by
        have := Coins.bias_nonneg
        linarith)
    | .inr w => (Coins.show_alike O sp x0 x1).alike (w.holder sp x0 x1)

theorem sends_ideal (O : Oracle) (sp : SystemParameters G) (x0 x1 : Scalar) :
    (fun j l k => (Spec.sends sp x0 x1 j).ideal l k) = drawing O sp x0 x1 := by
  funext j l k
  cases j with
  | inl m => exact Code.issue_ideal O sp x0 x1 m l k
  | inr w => exact Code.show_ideal O (w.holder sp x0 x1) l k

theorem sends_distinct (sp : SystemParameters G) (x0 x1 : Scalar) (j : Scalar ⊕ Spec.Member) :
    (Spec.sends sp x0 x1 j).Distinct 0 [] := by
  cases j with
  | inl m => exact (C88_issue_distinct _ _ _ _).1
  | inr w => exact (C88_show_distinct _ _ _ _ _).1

theorem sends_within (sp : SystemParameters G) (x0 x1 : Scalar) (j : Scalar ⊕ Spec.Member) :
    (Spec.sends sp x0 x1 j).Within 3 8 := by
  cases j with
  | inl m => simp [Spec.sends, Spec.Program.issue, Spec.Program.issueThen, Spec.Program.issuanceRevealed, Spec.Program.Within]
  | inr w => exact (C88_show_distinct _ _ _ _ _).2

theorem code_le (O : Oracle) (sp : SystemParameters G) (x0 x1 : Scalar)
    (A : Spec.Watcher (Scalar ⊕ Spec.Member) (Spec.Sent G)) {q s n : ℕ} (hA : A.Within q s n) :
    |A.yesRun (Spec.sends sp x0 x1) [] [] - A.yes (honestly O sp x0 x1) [] []| ≤
      9 * n / 2 ^ 259 + 3 * n * (2 * s + 8 * n + 3) / 2 ^ 256 := by
  have h1 := Sim.watcher_advantage (Spec.sends sp x0 x1) (sends_distinct sp x0 x1) (sends_within sp x0 x1) A hA
  rw [sends_ideal O] at h1
  have h2 := Code.alike_watcher (mul_nonneg (by norm_num) Coins.bias_nonneg) (drawing_alike O sp x0 x1) A [] [] q s n hA
  rw [Coins.scale] at h2
  refine (abs_sub_le _ (A.yes (drawing O sp x0 x1) [] []) _).trans ((add_le_add h1 h2).trans (le_of_eq ?_))
  push_cast
  ring

theorem issue_rel (O : Oracle) {sp : SystemParameters G} {x0 x1 m : Scalar} {l h : Spec.HashLog} {r : Spec.ReadLog}
    {f g : Spec.HashLog → CredentialIssuance G → ℚ} (hr : Forge.Rel l h r)
    (hf : ∀ l' h' c, Forge.Rel l' h' r → f h' c = g l' c) :
    Spec.honestIssue O sp x0 x1 m h f = Spec.honestIssue O sp x0 x1 m l g := by
  rw [Deputy.issue_step, Deputy.issue_step]
  refine Sim.mean_congr fun b => Sim.mean_congr fun z => Sim.mean_congr fun ρ => Sim.mean_congr fun a => ?_
  rw [hf _ _ _ (hr.hash (Deputy.issueQuery sp x0 x1 m b z ρ) a), ← hr.1]
  rfl

theorem show_rel (O : Oracle) {sp : SystemParameters G} {x0 x1 : Scalar} {x : Spec.Holder sp x0 x1} {l h : Spec.HashLog}
    {r : Spec.ReadLog} {f g : Spec.HashLog → SignalCredentialPresentation G → ℚ} (hr : Forge.Rel l h r)
    (hf : ∀ l' h' c, Forge.Rel l' h' r → f h' c = g l' c) :
    Spec.honestShow O sp x0 x1 x h f = Spec.honestShow O sp x0 x1 x l g := by
  unfold Spec.honestShow
  refine Sim.mean_congr fun d => Sim.mean_congr fun ρ => Sim.mean_congr fun a => Sim.mean_congr fun ρ' =>
    Sim.mean_congr fun a' => ?_
  dsimp only
  unfold Spec.present ValidCredential.createWith CommittedValuesEqual.createWith
  dsimp only
  generalize hq : ValidCredential.commitCommitments
    (ValidCredential.commitPublics [.init "AEONFLUX SHOW"] (_ : ValidCredential.Publics G))
    (_ : ValidCredential.Commitments G) = t
  generalize hq' : CommittedValuesEqual.commitCommitments
    (CommittedValuesEqual.commitPublics [.init "SIGNAL GROUP MEMBERSHIP"] (_ : CommittedValuesEqual.Publics G))
    (_ : CommittedValuesEqual.Commitments G) = t'
  have ht : Forge.askedT t = t := by rw [← hq]; rfl
  have ht' : Forge.askedT t' = t' := by rw [← hq']; rfl
  have r1 := hr.hash t a
  have r2 := r1.hash t' a'
  have e1 := hr.1 t
  have e2 := r1.1 t'
  rw [ht] at r1 r2 e1 e2
  rw [ht'] at r2 e2
  rw [hf _ _ _ r2, Sim.getChallenge_oracle (Sim.lookup_asked_of_some (Sim.lookup_asked h t a) t' a'),
    Sim.getChallenge_oracle (Sim.lookup_asked _ t' a'),
    Sim.getChallenge_oracle (Sim.lookup_asked_of_some (Sim.lookup_asked l t a) t' a'),
    Sim.getChallenge_oracle (Sim.lookup_asked _ t' a'), e1, e2]

/-- Reading generators and asking the hash are alike. -/
theorem pack_yes (O : Oracle) {sp : SystemParameters G} {x0 x1 : F} {V : Set F}
    (A : Spec.Spy G) : ∀ (l h : Spec.HashLog) (r : Spec.ReadLog) (ps : List (SignalCredentialPresentation G)),
      Forge.Rel l h r →
      (A.watcher O (Spec.issuerOf sp x0 x1) V ps).yes (honestly O sp (Scalar.ofF x0) (Scalar.ofF x1)) h r =
        (A.pack.checked (Spec.issuerOf sp x0 x1)).expect (Spec.honestIssue O sp (Scalar.ofF x0) (Scalar.ofF x1))
          (Spec.memberShow O sp (Scalar.ofF x0) (Scalar.ofF x1))
          (Spec.Attempt.fresh O (Spec.issuerOf sp x0 x1) V) l ps := by
  induction A with
  | out o =>
    intro l h r ps hr
    simp only [Spec.Spy.watcher, Spec.Spy.pack, Spec.Onlooker.checked, Spec.Onlooker.expect, Spec.Watcher.yes]
    refine Sim.mean_congr fun a => Sim.mean_congr fun b => ?_
    have e0 := hr.1 (o.query (Spec.issuerOf sp x0 x1) 0)
    have h1 := hr.hash (o.query (Spec.issuerOf sp x0 x1) 0) a
    have e1 := h1.1 (o.query (Spec.issuerOf sp x0 x1) 1)
    rw [Reduction.head_query] at e0 h1
    rw [Reduction.head_query, Reduction.head_query] at e1
    rw [← e0, ← e1]
    have key : ∀ n, n = 0 ∨ n = 1 →
        (Spec.HashLog.oracle O [(o.query (Spec.issuerOf sp x0 x1) 0,
          (l.lookup (o.query (Spec.issuerOf sp x0 x1) 0)).getD a),
          (o.query (Spec.issuerOf sp x0 x1) 1, ((l.asked (o.query (Spec.issuerOf sp x0 x1) 0) a).lookup
            (o.query (Spec.issuerOf sp x0 x1) 1)).getD b)]).chal (o.query (Spec.issuerOf sp x0 x1) n) "chal" 64 =
        (((l.asked (o.query (Spec.issuerOf sp x0 x1) 0) a).asked (o.query (Spec.issuerOf sp x0 x1) 1) b).oracle O).chal
          (o.query (Spec.issuerOf sp x0 x1) n) "chal" 64 := by
      generalize ht0 : o.query (Spec.issuerOf sp x0 x1) 0 = t at *
      generalize ht : o.query (Spec.issuerOf sp x0 x1) 1 = t' at *
      rintro n (rfl | rfl)
      · rw [ht0]
        rw [Reduction.oracle_chal (Reduction.lookup_mono (Reduction.lookup_asked l t a))]
        exact Reduction.oracle_chal (by simp)
      · rw [ht]
        rw [Reduction.oracle_chal (Reduction.lookup_asked _ t' b)]
        refine Reduction.oracle_chal ?_
        by_cases e : t' = t
        · subst e
          rw [Reduction.lookup_asked l t' a]
          simp
        · simp [List.lookup_cons, beq_eq_false_iff_ne.2 e]
    unfold Spec.Attempt.fresh
    classical
    rw [if_congr decide_eq_true_iff rfl rfl]
    exact if_congr (and_congr_left' ⟨Reduction.good_congr key, Reduction.good_congr fun n hn => (key n hn).symm⟩) rfl rfl
  | ask t next ih =>
    intro l h r ps hr
    simp only [Spec.Spy.watcher, Spec.Spy.pack, Spec.Onlooker.checked, Spec.Onlooker.expect, Spec.Watcher.yes]
    refine Sim.mean_congr fun a => ?_
    rw [hr.1 t]
    exact ih _ _ _ _ _ (hr.hash t a)
  | read q next ih =>
    intro l h r ps hr
    simp only [Spec.Spy.watcher, Spec.Spy.pack, Spec.Onlooker.checked, Spec.Onlooker.expect, Spec.Watcher.yes]
    refine Sim.mean_congr fun a => ?_
    rw [hr.2 q]
    exact ih _ _ _ _ _ (hr.read q a)
  | issue m next ih =>
    intro l h r ps hr
    simp only [Spec.Spy.watcher, Spec.Spy.pack, Spec.Onlooker.checked, Spec.Onlooker.expect, Spec.Watcher.yes, honestly]
    exact issue_rel O hr fun l' h' c hr' => ih c l' h' r ps hr'
  | watch w next ih =>
    intro l h r ps hr
    simp only [Spec.Spy.watcher, Spec.Spy.pack, Spec.Onlooker.checked, Spec.Onlooker.expect, Spec.Watcher.yes, honestly]
    exact show_rel O hr fun l' h' p hr' => ih p l' h' r (p :: ps) hr'

end Onlooker

/-- **C94** for the code as it is: the issuer runs `Issuer::issue` and the users run `SignalUser::show` with their own
generators, and the adversary makes at most `q` hash queries, reads generators at most `s` times, and sees at most
`n` issuances and presentations. It succeeds at most as often as an adversary to which `C94_reduction` and `C94_bound`
apply with `T = q + s + 2n`, up to negligible terms. -/
theorem C94_code {S Ω : Type} [Fintype S] [Nonempty S] [Fintype Ω] [Nonempty Ω] (O : Oracle)
    (sp : S → SystemParameters G) (A : SystemParameters G → G → Ω → Spec.Spy G) (V : Set F) (q s n : ℕ)
    (hA : ∀ σ X ω, (A (sp σ) X ω).Within q s n) (hV : ∀ σ X ω, (A (sp σ) X ω).Avoids V) :
    let B := fun sp X ω => (A sp X ω).pack
    |Spec.spyWins O sp A V - Spec.onlookerWins O sp B V| ≤ 9 * n / 2 ^ 259 + 3 * n * (2 * s + 8 * n + 3) / 2 ^ 256 ∧
      ∀ σ X ω, (B (sp σ) X ω).Within (q + s + 2 * n) ∧ (B (sp σ) X ω).Avoids V := by
  refine ⟨?_, fun σ X ω => ⟨Onlooker.pack_within _ q s n (hA σ X ω), Onlooker.pack_avoids _ (hV σ X ω)⟩⟩
  unfold Spec.spyWins Spec.onlookerWins
  refine Sim.abs_sub_mean_le fun x => ?_
  have h := Onlooker.code_le O (sp x.1) (Scalar.ofF x.2.2.1) (Scalar.ofF x.2.2.2) _
    (Onlooker.watcher_within (O := O) (i := Spec.issuerOf (sp x.1) x.2.2.1 x.2.2.2) (V := V)
      (A (sp x.1) (x.2.2.2 • (sp x.1).h) x.2.1) [] q s n (hA x.1 (x.2.2.2 • (sp x.1).h) x.2.1))
  rwa [Onlooker.pack_yes O _ [] [] [] [] ⟨fun _ => rfl, fun _ => rfl⟩] at h

/-- **C94** for the code as it is, as a bound: `C94_bound` and `C94_code` together. -/
theorem C94_code_bound {S Ω : Type} [Fintype S] [Nonempty S] [Fintype Ω] [Nonempty Ω] (O : Oracle)
    (sp : S → SystemParameters G) (hg : ∀ σ, (sp σ).g ≠ 0) (hh : ∀ σ, (sp σ).h ≠ 0)
    (A : SystemParameters G → G → Ω → Spec.Spy G) (V : Set F) (q s n : ℕ)
    (hA : ∀ σ X ω, (A (sp σ) X ω).Within q s n) (hV : ∀ σ X ω, (A (sp σ) X ω).Avoids V) (m₁ : Scalar) (hm : m₁.val ∉ V)
    (T : ℕ) (hT : T = q + s + 2 * n) (t u : ℚ) (ht : 0 ≤ t) (hu : 0 ≤ u)
    (hf : Spec.forgerWins sp (Spec.deputies m₁ (fun sp X ω => (A sp X ω).pack) T) V (T + 1) ≤
      t ^ 3 / (128 * (T + 3) ^ 4))
    (hl : Spec.finderWins sp (fun sp X ω => (A sp X ω).pack) T ≤ u ^ 2 / (4 * (T + 2))) :
    Spec.spyWins O sp A V ≤ t + u + 4 * (T + 3) ^ 2 / ell + 10 * (T + 3) / 2 ^ 252 +
      (9 * n / 2 ^ 259 + 3 * n * (2 * s + 8 * n + 3) / 2 ^ 256) := by
  subst hT
  obtain ⟨h1, h2⟩ := C94_code O sp A V q s n hA hV
  have h3 := C94_bound O sp hg hh (fun sp X ω => (A sp X ω).pack) V (q + s + 2 * n) (fun σ X ω => (h2 σ X ω).1)
    (fun σ X ω => (h2 σ X ω).2) m₁ hm t u ht hu hf hl
  have h4 := (abs_sub_le_iff.1 h1).1
  rw [sub_le_iff_le_add'] at h4
  exact h4.trans (add_le_add_left h3 _)

/-- An adversary that reads a generator, asks the hash, gets 7 issued and watches somebody with the number 8. -/
example : let A : Spec.Spy F := .read ⟨[.init "AEONFLUX SHOW"], [], List.replicate 32 0, 0⟩ fun _ =>
      .ask [.init "AEONFLUX SHOW"] fun _ => .issue ⟨7, by decide +kernel⟩ fun _ =>
      .watch ⟨⟨8, by decide +kernel⟩, ⟨3, by decide +kernel⟩, 1, one_ne_zero⟩ fun _ => .out ⟨8, 0, []⟩
    A.Within 1 1 2 ∧ A.Avoids {8} :=
  ⟨⟨0, rfl, fun _ => ⟨0, rfl, fun _ => ⟨1, rfl, fun _ => ⟨0, rfl, fun _ => trivial⟩⟩⟩⟩,
    fun _ _ => ⟨by rw [Set.mem_singleton_iff]; decide +kernel, fun _ _ => trivial⟩⟩

/-- **C94**: what the issuer and the users of the game run is `Issuer::issue` and `SignalUser::show`. -/
theorem C94_programs {R : Type} [RngCore R] (O : Oracle) (sp : SystemParameters G) (x0 x1 : F) (m : Scalar)
    (w : Spec.Member) (rng : R) (e1 e2 : Spec.Seed) :
    (∃ c, ((Spec.issuerOf sp x0 x1).issue O ⟨[m]⟩ rng e1.1).1 = .ok c ∧
      (Spec.sends (G := G) sp (.ofF x0) (.ofF x1) (.inl m)).Returns O [] ((Spec.reads [32] rng).1 ++ [e1.1]) c) ∧
    ∃ (u : SignalUser G) (p : SignalCredentialPresentation G), u.user.systemParameters = sp ∧
      u.user.issuerParameters.Xn = [x1 • sp.h] ∧ (∃ tag, u.user.credential = some ⟨tag, [w.m]⟩ ∧
        tag.nonce = w.b • basepoint G ∧ tag.mac = (x1 * w.m.val + x0) • tag.nonce) ∧
      (u.show O rng (w.entry sp) e1.1 e2.1).1 = .ok p ∧
      (Spec.sends sp (.ofF x0) (.ofF x1) (.inr w)).Returns O [] ((Spec.reads [64, 32] rng).1 ++ [e1.1, e2.1]) p := by
  refine ⟨?_, ⟨w.m, ⟨sp, ⟨[x1 • sp.h]⟩, none, some (w.holder sp (.ofF x0) (.ofF x1)).credential⟩⟩, ?_⟩
  · exact C88_issue_program (i := Spec.issuerOf sp x0 x1) O rfl (by rw [Scalar.val_ofF]; rfl) m rng e1
  · obtain ⟨p, h1, h2⟩ := C88_show_program O
      (u := ⟨w.m, ⟨sp, ⟨[x1 • sp.h]⟩, none, some (w.holder sp (.ofF x0) (.ofF x1)).credential⟩⟩) rfl rfl rfl rng
      (w.entry sp) e1 e2
    refine ⟨p, rfl, rfl, ⟨_, rfl, rfl, ?_⟩, h1, ?_⟩
    · simp only [Scalar.val_ofF]
    · rw [Spec.sends, Scalar.val_ofF]
      exact h2

end Verif
