import Verif.Props.Applicant
import Verif.Props.Setup

/-!
# C96 for the code with its own generators, and from the setup on

As `Spy` and `Setup` do for C94: the issuer and the users run the programs of `Issuer::issue` and `SignalUser::show`,
which draw from keyed generators, and parameters and keys may come from `hunt_and_peck` and `Issuer::create`.
-/

set_option maxRecDepth 100000
set_option exponentiation.threshold 600

namespace Verif

open Amacs

variable {G : Type} [AddCommGroup G] [Module F G] [Ristretto G]

/-- An adversary that asks the hash, reads transcript generators, gets attributes issued, watches presentations, has
bytes checked by the issuer, and finally claims something. -/
inductive Spec.Agent (G : Type) where
  | out (o : Spec.Attempt)
  | ask (t : Transcript) (next : Spec.Answer → Spec.Agent G)
  | read (q : Spec.Read) (next : Spec.Answer → Spec.Agent G)
  | issue (m : Scalar) (next : CredentialIssuance G → Spec.Agent G)
  | watch (w : Spec.Member) (next : SignalCredentialPresentation G → Spec.Agent G)
  | submit (b : Bytes) (next : Res CredentialError G → Spec.Agent G)

namespace Spec.Agent

/-- At most `q` hash queries, counting two for each check, `s` reads, and `n` issuances and presentations. -/
def Within : Spec.Agent G → ℕ → ℕ → ℕ → Prop
  | .out _, _, _, _ => True
  | .ask _ next, q, s, n => ∃ q', q = q' + 1 ∧ ∀ a, (next a).Within q' s n
  | .read _ next, q, s, n => ∃ s', s = s' + 1 ∧ ∀ a, (next a).Within q s' n
  | .issue _ next, q, s, n => ∃ n', n = n' + 1 ∧ ∀ c, (next c).Within q s n'
  | .watch _ next, q, s, n => ∃ n', n = n' + 1 ∧ ∀ p, (next p).Within q s n'
  | .submit _ next, q, s, n => ∃ q', q = q' + 2 ∧ ∀ r, (next r).Within q' s n

/-- No attribute in `V` is issued to the adversary. -/
def Avoids (V : Set F) : Spec.Agent G → Prop
  | .out _ => True
  | .ask _ next => ∀ a, (next a).Avoids V
  | .read _ next => ∀ a, (next a).Avoids V
  | .issue m next => m.val ∉ V ∧ ∀ c, (next c).Avoids V
  | .watch _ next => ∀ p, (next p).Avoids V
  | .submit _ next => ∀ r, (next r).Avoids V

/-- The adversary together with the issuer that checks: it makes its two queries, and answers by them. -/
def checks (O : Oracle) (i : Issuer G) : Spec.Agent G → Spec.Spy G
  | .out o => .out o
  | .ask t next => .ask t fun a => (next a).checks O i
  | .read q next => .read q fun a => (next a).checks O i
  | .issue m next => .issue m fun c => (next c).checks O i
  | .watch w next => .watch w fun p => (next p).checks O i
  | .submit b next => .ask (Spec.checkQuery i b 0) fun a => .ask (Spec.checkQuery i b 1) fun a' =>
      (next (Spec.reply (Spec.HashLog.oracle O [(Spec.checkQuery i b 0, a), (Spec.checkQuery i b 1, a')]) i b)).checks O i

/-- The adversary that asks the hash instead of reading generators. -/
def pack : Spec.Agent G → Spec.Applicant G Spec.Attempt
  | .out o => .out o
  | .ask t next => .ask (Forge.askedT t) fun a => (next a).pack
  | .read q next => .ask (Forge.packedT q) fun a => (next a).pack
  | .issue m next => .issue m fun c => (next c).pack
  | .watch w next => .watch w fun p => (next p).pack
  | .submit b next => .submit b fun r => (next r).pack

/-- The probability that the adversary gets accepted by this issuer for a number in `V` without repeating a
presentation, if the issuer and the users run the code with its own generators. It is given the parameters and the
public key. (Issuers with other than one key do not occur.) -/
noncomputable def against (O : Oracle) (A : SystemParameters G → G → Spec.Agent G) (V : Set F) (i : Issuer G) : ℚ :=
  match i.keypair.publicKey.Xn, i.keypair.secretKey.xn with
  | [X], [x1] =>
    (((A i.systemParameters X).checks O i).watcher O i V []).yesRun
      (Spec.sends i.systemParameters i.keypair.secretKey.x0 x1) [] []
  | _, _ => 0

end Spec.Agent

/-- The probability that an adversary gets accepted for a number in `V` without repeating a presentation, for
parameters from any distribution and uniform keys. -/
noncomputable def Spec.agentWins {S Ω : Type} [Fintype S] [Fintype Ω] (O : Oracle) (sp : S → SystemParameters G)
    (A : SystemParameters G → G → Ω → Spec.Agent G) (V : Set F) : ℚ :=
  Spec.mean fun x : S × Ω × F × F =>
    Spec.Agent.against O (fun sp X => A sp X x.2.1) V (Spec.issuerOf (sp x.1) x.2.2.1 x.2.2.2)

/-- The same, if the parameters are from `hunt_and_peck` with at most `N` draws of uniform bytes, and the keys from
`Issuer::create` with uniform bytes. If `hunt_and_peck` needs more draws the adversary does not succeed. -/
noncomputable def Spec.agentSetupWins {Ω : Type} [Fintype Ω] (O : Oracle) (N : ℕ)
    (A : SystemParameters G → G → Ω → Spec.Agent G) (V : Set F) : ℚ :=
  Spec.mean fun x : Hunt.Tape N × Ω × Spec.Answer × Spec.Answer =>
    match SystemParameters.huntAndPeck (G := G) N (⟨x.1, 0⟩ : Hunt.TapeRng N) with
    | none => 0
    | some (sp, _) =>
      Spec.Agent.against O (fun sp X => A sp X x.2.1) V (Issuer.create sp (⟨[x.2.2.1, x.2.2.2]⟩ : Spec.WideRng)).1

namespace Applicant

theorem agent_checks_within {O : Oracle} {i : Issuer G} (A : Spec.Agent G) : ∀ q s n, A.Within q s n →
    (A.checks O i).Within q s n := by
  induction A with
  | out o => intros; trivial
  | ask t next ih => rintro _ s n ⟨q, rfl, h⟩; exact ⟨q, rfl, fun a => ih a q s n (h a)⟩
  | read t next ih => rintro q _ n ⟨s, rfl, h⟩; exact ⟨s, rfl, fun a => ih a q s n (h a)⟩
  | issue t next ih => rintro q s _ ⟨n, rfl, h⟩; exact ⟨n, rfl, fun a => ih a q s n (h a)⟩
  | watch t next ih => rintro q s _ ⟨n, rfl, h⟩; exact ⟨n, rfl, fun a => ih a q s n (h a)⟩
  | submit b next ih => rintro _ s n ⟨q, rfl, h⟩; exact ⟨q + 1, rfl, fun a => ⟨q, rfl, fun a' => ih _ q s n (h _)⟩⟩

omit [AddCommGroup G] [Module F G] [Ristretto G] in
theorem applicant_mono {Out : Type} (A : Spec.Applicant G Out) : ∀ n n', n ≤ n' → A.Within n → A.Within n' := by
  induction A with
  | out o => intros; trivial
  | ask t next ih => rintro _ n' hn ⟨n, rfl, h⟩; exact ⟨n' - 1, by omega, fun a => ih a n _ (by omega) (h a)⟩
  | issue t next ih => rintro _ n' hn ⟨n, rfl, h⟩; exact ⟨n' - 1, by omega, fun a => ih a n _ (by omega) (h a)⟩
  | watch t next ih => rintro _ n' hn ⟨n, rfl, h⟩; exact ⟨n' - 2, by omega, fun a => ih a n _ (by omega) (h a)⟩
  | submit t next ih => rintro _ n' hn ⟨n, rfl, h⟩; exact ⟨n' - 2, by omega, fun a => ih a n _ (by omega) (h a)⟩

omit [AddCommGroup G] [Module F G] [Ristretto G] in
theorem agent_pack_within (A : Spec.Agent G) : ∀ q s n, A.Within q s n → A.pack.Within (q + s + 2 * n) := by
  induction A with
  | out o => intros; trivial
  | ask t next ih => rintro _ s n ⟨q, rfl, h⟩; exact ⟨q + s + 2 * n, by omega, fun a => ih a q s n (h a)⟩
  | read t next ih => rintro q _ n ⟨s, rfl, h⟩; exact ⟨q + s + 2 * n, by omega, fun a => ih a q s n (h a)⟩
  | issue t next ih =>
    rintro q s _ ⟨n, rfl, h⟩
    exact ⟨q + s + 2 * n + 1, by omega, fun a => applicant_mono _ _ _ (Nat.le_succ _) (ih a q s n (h a))⟩
  | watch t next ih => rintro q s _ ⟨n, rfl, h⟩; exact ⟨q + s + 2 * n, by omega, fun a => ih a q s n (h a)⟩
  | submit t next ih => rintro _ s n ⟨q, rfl, h⟩; exact ⟨q + s + 2 * n, by omega, fun a => ih a q s n (h a)⟩

omit [AddCommGroup G] [Module F G] [Ristretto G] in
theorem agent_pack_avoids {V : Set F} (A : Spec.Agent G) : A.Avoids V → A.pack.Avoids V := by
  induction A with
  | out o => intros; trivial
  | ask t next ih => exact fun h a => ih a (h a)
  | read t next ih => exact fun h a => ih a (h a)
  | issue t next ih => exact fun h => ⟨h.1, fun a => ih a (h.2 a)⟩
  | watch t next ih => exact fun h a => ih a (h a)
  | submit t next ih => exact fun h a => ih a (h a)

theorem agent_checks_pack {O : Oracle} {i : Issuer G} (A : Spec.Agent G) :
    (A.checks O i).pack = A.pack.checks O i := by
  induction A with
  | out o => rfl
  | ask t next ih => simp only [Spec.Agent.checks, Spec.Agent.pack, Spec.Spy.pack, Spec.Applicant.checks, ih]
  | read t next ih => simp only [Spec.Agent.checks, Spec.Agent.pack, Spec.Spy.pack, Spec.Applicant.checks, ih]
  | issue t next ih => simp only [Spec.Agent.checks, Spec.Agent.pack, Spec.Spy.pack, Spec.Applicant.checks, ih]
  | watch t next ih => simp only [Spec.Agent.checks, Spec.Agent.pack, Spec.Spy.pack, Spec.Applicant.checks, ih]
  | submit b next ih =>
    have e : ∀ n, Forge.askedT (Spec.checkQuery i b n) = Spec.checkQuery i b n := fun n => Reduction.head_query i _ n
    simp only [Spec.Agent.checks, Spec.Agent.pack, Spec.Spy.pack, Spec.Applicant.checks, ih, e]

theorem agent_against01 (O : Oracle) (A : SystemParameters G → G → Spec.Agent G) (V : Set F) (i : Issuer G) :
    0 ≤ Spec.Agent.against O A V i ∧ Spec.Agent.against O A V i ≤ 1 := by
  unfold Spec.Agent.against
  split
  · exact Setup.run01 _ _ _ _
  · exact ⟨le_rfl, zero_le_one⟩

end Applicant

/-- **C96** for the code as it is: the issuer runs `Issuer::issue`, the users run `SignalUser::show`, with their own
generators, and the adversary makes at most `q` hash queries (two for each check), reads generators at most `s` times,
and sees at most `n` issuances and presentations. It succeeds at most as often as an adversary to which `C96_bound`
applies with `T = q + s + 2n`, up to negligible terms. -/
theorem C96_code {S Ω : Type} [Fintype S] [Nonempty S] [Fintype Ω] [Nonempty Ω] (O : Oracle)
    (sp : S → SystemParameters G) (A : SystemParameters G → G → Ω → Spec.Agent G) (V : Set F) (q s n : ℕ)
    (hA : ∀ σ X ω, (A (sp σ) X ω).Within q s n) (hV : ∀ σ X ω, (A (sp σ) X ω).Avoids V) :
    let B := fun sp X ω => (A sp X ω).pack
    |Spec.agentWins O sp A V - Spec.applicantWins O sp B V| ≤ 9 * n / 2 ^ 259 + 3 * n * (2 * s + 8 * n + 3) / 2 ^ 256 ∧
      ∀ σ X ω, (B (sp σ) X ω).Within (q + s + 2 * n) ∧ (B (sp σ) X ω).Avoids V := by
  refine ⟨?_, fun σ X ω => ⟨Applicant.agent_pack_within _ q s n (hA σ X ω), Applicant.agent_pack_avoids _ (hV σ X ω)⟩⟩
  unfold Spec.agentWins Spec.applicantWins
  refine Sim.abs_sub_mean_le fun x => ?_
  have h := Onlooker.code_le O (sp x.1) (Scalar.ofF x.2.2.1) (Scalar.ofF x.2.2.2) _
    (Onlooker.watcher_within (O := O) (i := Spec.issuerOf (sp x.1) x.2.2.1 x.2.2.2) (V := V)
      ((A (sp x.1) (x.2.2.2 • (sp x.1).h) x.2.1).checks O (Spec.issuerOf (sp x.1) x.2.2.1 x.2.2.2)) [] q s n
      (Applicant.agent_checks_within _ q s n (hA x.1 (x.2.2.2 • (sp x.1).h) x.2.1)))
  rw [Onlooker.pack_yes O _ [] [] [] [] ⟨fun _ => rfl, fun _ => rfl⟩, Applicant.agent_checks_pack] at h
  exact h

/-- **C96** for the code as it is, as a bound: `C96_bound` and `C96_code` together. -/
theorem C96_code_bound {S Ω : Type} [Fintype S] [Nonempty S] [Fintype Ω] [Nonempty Ω] (O : Oracle)
    (sp : S → SystemParameters G) (hg : ∀ σ, (sp σ).g ≠ 0) (hh : ∀ σ, (sp σ).h ≠ 0)
    (A : SystemParameters G → G → Ω → Spec.Agent G) (V : Set F) (q s n : ℕ)
    (hA : ∀ σ X ω, (A (sp σ) X ω).Within q s n) (hV : ∀ σ X ω, (A (sp σ) X ω).Avoids V) (m₁ : Scalar) (hm : m₁.val ∉ V)
    (T : ℕ) (hT : T = q + s + 2 * n) (t u : ℚ) (ht : 0 ≤ t) (hu : 0 ≤ u)
    (hf : Spec.testerWins sp (Spec.probers m₁ (fun sp X ω => (A sp X ω).pack) T) V (T + 1) ≤
      t ^ 3 / (128 * (T + 3) ^ 4))
    (hl : Spec.applicantFinds sp (fun sp X ω => (A sp X ω).pack) T ≤ u ^ 2 / (4 * (T + 2))) :
    Spec.agentWins O sp A V ≤ t + u + 4 * (T + 3) ^ 2 / ell + 10 * (T + 3) / 2 ^ 252 +
      (9 * n / 2 ^ 259 + 3 * n * (2 * s + 8 * n + 3) / 2 ^ 256) := by
  subst hT
  obtain ⟨h1, h2⟩ := C96_code O sp A V q s n hA hV
  have h3 := C96_bound O sp hg hh (fun sp X ω => (A sp X ω).pack) V (q + s + 2 * n) (fun σ X ω => (h2 σ X ω).1)
    (fun σ X ω => (h2 σ X ω).2) m₁ hm t u ht hu hf hl
  have h4 := (abs_sub_le_iff.1 h1).1
  rw [sub_le_iff_le_add'] at h4
  exact h4.trans (add_le_add_left h3 _)

/-- **C96** from the setup on: with parameters from `hunt_and_peck` and keys from `Issuer::create`, both from uniform
bytes, the bound is about a uniform instance of the discrete logarithm problem. -/
theorem C96_setup_bound {Ω : Type} [Fintype Ω] [Nonempty Ω] (O : Oracle) (N : ℕ)
    (A : SystemParameters G → G → Ω → Spec.Agent G) (V : Set F) (q s n : ℕ)
    (hA : ∀ sp X ω, (A sp X ω).Within q s n) (hV : ∀ sp X ω, (A sp X ω).Avoids V) (m₁ : Scalar) (hm : m₁.val ∉ V)
    (T : ℕ) (hT : T = q + s + 2 * n) (t u : ℚ) (ht : 0 ≤ t) (hu : 0 ≤ u)
    (hf : Spec.testerWins (Spec.Log.parameters G) (Spec.probers m₁ (fun sp X ω => (A sp X ω).pack) T) V (T + 1) ≤
      t ^ 3 / (128 * (T + 3) ^ 4))
    (hl : Spec.applicantFinds (Spec.Log.parameters G) (fun sp X ω => (A sp X ω).pack) T ≤ u ^ 2 / (4 * (T + 2))) :
    Spec.agentSetupWins O N A V ≤ t + u + 4 * (T + 3) ^ 2 / ell + 10 * (T + 3) / 2 ^ 252 +
      (9 * n / 2 ^ 259 + 3 * n * (2 * s + 8 * n + 3) / 2 ^ 256) + ((15 / 16) ^ N + 1 / (ell - 1) + 1 / 2 ^ 258) := by
  have h1 := (abs_sub_le_iff.1 (Setup.setup_le N (fun ω => Spec.Agent.against O (fun sp X => A sp X ω) V)
    fun _ _ => Applicant.agent_against01 _ _ _ _)).1
  have h2 := C96_code_bound O (Spec.Log.parameters G) (fun _ => Ristretto.base_ne)
    (fun y => smul_ne_zero y.2 Ristretto.base_ne) A V q s n (fun y X ω => hA _ X ω) (fun y X ω => hV _ X ω) m₁ hm T hT t u
    ht hu hf hl
  rw [sub_le_iff_le_add'] at h1
  exact h1.trans (add_le_add_left h2 _)

/-- An adversary that reads a generator, gets 7 issued, watches somebody with the number 8 and has the presentation
checked, for any parameters. -/
example : ∀ (sp : SystemParameters F) (X : F) (ω : Bool),
    let A : Spec.Agent F := .read ⟨[.init "AEONFLUX SHOW"], [], List.replicate 32 0, 0⟩ fun _ =>
      .issue ⟨7, by decide +kernel⟩ fun _ => .watch ⟨⟨8, by decide +kernel⟩, ⟨3, by decide +kernel⟩, 1, one_ne_zero⟩
      fun p => .submit p.toBytes fun r => match r with
        | .ok C => .out ⟨8, 0, if ω then enc C else enc X⟩
        | _ => .ask [.init "AEONFLUX SHOW"] fun _ => .out ⟨8, 0, enc sp.h⟩
    A.Within 3 1 2 ∧ A.Avoids {8} := by
  intro sp X ω
  refine ⟨⟨0, rfl, fun _ => ⟨1, rfl, fun _ => ⟨0, rfl, fun p => ⟨1, rfl, fun r => ?_⟩⟩⟩⟩, fun _ => ⟨?_, fun _ p r => ?_⟩⟩
  · dsimp only
    split
    · trivial
    · exact ⟨0, rfl, fun _ => trivial⟩
  · rw [Set.mem_singleton_iff]
    decide +kernel
  · dsimp only
    split
    · trivial
    · exact fun _ => trivial

end Verif
