import Verif.Props.Consortium
import Verif.Props.Applicant

/-!
# Several issuers that check presentations (C105)

As C105, but the adversary may, as in C96, have any bytes checked by any of the issuers, at any time, and goes on with the
answer.
-/

set_option maxRecDepth 100000

namespace Verif

open Amacs

variable {G : Type} [AddCommGroup G] [Module F G] [Ristretto G] {N : ℕ} {Out : Type}

/-! ## The game -/

/-- An adversary that asks the hash, gets attributes issued by any of `N` issuers, watches users of any of them present,
has bytes checked by any of them, learns secret keys, and finally attacks the issuer `j`. -/
inductive Spec.Guild (G : Type) (N : ℕ) (Out : Type) where
  | out (j : Fin N) (o : Out)
  | ask (t : Transcript) (next : Spec.Answer → Spec.Guild G N Out)
  | issue (k : Fin N) (m : Scalar) (next : CredentialIssuance G → Spec.Guild G N Out)
  | watch (k : Fin N) (w : Spec.Member) (next : SignalCredentialPresentation G → Spec.Guild G N Out)
  | submit (k : Fin N) (b : Bytes) (next : Res CredentialError G → Spec.Guild G N Out)
  | corrupt (k : Fin N) (next : F × F → Spec.Guild G N Out)

namespace Spec.Guild

/-- At most `n` hash queries, by anybody: one for each issuance, two for each presentation and each check. -/
def Within : Spec.Guild G N Out → ℕ → Prop
  | out _ _, _ => True
  | ask _ next, n => ∃ n', n = n' + 1 ∧ ∀ a, (next a).Within n'
  | issue _ _ next, n => ∃ n', n = n' + 1 ∧ ∀ c, (next c).Within n'
  | watch _ _ next, n => ∃ n', n = n' + 2 ∧ ∀ p, (next p).Within n'
  | submit _ _ next, n => ∃ n', n = n' + 2 ∧ ∀ r, (next r).Within n'
  | corrupt _ next, n => ∀ x, (next x).Within n

/-- The issuer `k` issues no attribute in `V k` to the adversary. Others may. -/
def Avoids (V : Fin N → Set F) : Spec.Guild G N Out → Prop
  | out _ _ => True
  | ask _ next => ∀ a, (next a).Avoids V
  | issue k m next => m.val ∉ V k ∧ ∀ c, (next c).Avoids V
  | watch _ _ next => ∀ p, (next p).Avoids V
  | submit _ _ next => ∀ r, (next r).Avoids V
  | corrupt _ next => ∀ x, (next x).Avoids V

/-- The adversary together with the issuers that check: they make their two queries, and answer by them. -/
def checks (O : Oracle) (i : Fin N → Issuer G) : Spec.Guild G N Out → Spec.Consort G N Out
  | out j o => .out j o
  | ask t next => .ask t fun a => (next a).checks O i
  | issue k m next => .issue k m fun c => (next c).checks O i
  | watch k w next => .watch k w fun p => (next p).checks O i
  | submit k b next => .ask (Spec.checkQuery (i k) b 0) fun a => .ask (Spec.checkQuery (i k) b 1) fun a' =>
      (next (Spec.reply (Spec.HashLog.oracle O [(Spec.checkQuery (i k) b 0, a), (Spec.checkQuery (i k) b 1, a')])
        (i k) b)).checks O i
  | corrupt k next => .corrupt k fun x => (next x).checks O i

end Spec.Guild

/-- The probability that an adversary gets accepted by an issuer `j` that it did not corrupt, for a number in `V j`, without
repeating a presentation by a user of `j` that it saw, as `Spec.consortWins`. -/
noncomputable def Spec.guildWins {S Ω : Type} [Fintype S] [Fintype Ω] (O : Oracle) (sp : S → SystemParameters G)
    (A : SystemParameters G → (Fin N → G) → Ω → Spec.Guild G N Spec.Attempt) (V : Fin N → Set F) : ℚ :=
  Spec.mean fun x : S × Ω × (Fin N → F × F) =>
    let i : Fin N → Issuer G := fun k => Spec.issuerOf (sp x.1) (x.2.2 k).1 (x.2.2 k).2
    ((A (sp x.1) (fun k => (x.2.2 k).2 • (sp x.1).h) x.2.1).checks O i).expect O (sp x.1) x.2.2
      (fun j o l s => if j ∈ s.bad then 0 else Spec.judgeShow O (i j) (V j) o l (Spec.sentBy j s.ps)) [] ⟨[], [], []⟩

/-- The adversary against the issuer `j`, which plays the other issuers, their checks, and their users. -/
def Spec.Guild.mole (sp : SystemParameters G) (key : Fin N → F × F) (j : Fin N) (d : Out) :
    Spec.Guild G N Out → (ℕ → Spec.PartCoins) → Spec.Applicant G Out
  | .out k o, _ => if k = j then .out o else .out d
  | .ask t next, c => .ask t fun a => (next a).mole sp key j d c
  | .issue k m next, c =>
    if k = j then .issue m fun x => (next x).mole sp key j d c
    else .ask (Spec.partQuery sp (key k) m (c 0)) fun a =>
      (next (Spec.partIssue sp (key k) m (c 0) a)).mole sp key j d fun n => c (n + 1)
  | .watch k w next, c =>
    if k = j then .watch w fun p => (next p).mole sp key j d c
    else .ask (w.query sp (key k).2 (c 0).1) fun a => .ask (w.query' sp (c 0).1) fun a' =>
      (next (w.played sp (key k).1 (key k).2 (c 0).1 a a')).mole sp key j d fun n => c (n + 1)
  | .submit k b next, c =>
    if k = j then .submit b fun r => (next r).mole sp key j d c
    else
      let i := Spec.issuerOf sp (key k).1 (key k).2
      .ask (Spec.checkQuery i b 0) fun a => .ask (Spec.checkQuery i b 1) fun a' =>
        (next (Spec.judge b a a')).mole sp key j d c
  | .corrupt k next, c => if k = j then .out d else (next (key k)).mole sp key j d c

/-- The same, as an adversary of C96. The keys of the other issuers are among its coins. -/
noncomputable def Spec.guildMole {Ω : Type} (A : SystemParameters G → (Fin N → G) → Ω → Spec.Guild G N Out) (T : ℕ)
    (j : Fin N) (d : Out) :
    SystemParameters G → G → Ω × (Fin N → F × F) × (Fin T → Spec.PartCoins) → Spec.Applicant G Out :=
  fun sp X ω => (A sp (Function.update (fun k => (ω.2.1 k).2 • sp.h) j X) ω.1).mole sp ω.2.1 j d (Spec.stretch ω.2.2)

namespace Guild

theorem mole_within {sp : SystemParameters G} {key : Fin N → F × F} {j : Fin N} {d : Out} (A : Spec.Guild G N Out) :
    ∀ c n, A.Within n → (A.mole sp key j d c).Within n := by
  induction A with
  | out k o => intro c n _; unfold Spec.Guild.mole; split <;> trivial
  | ask t next ih => rintro c _ ⟨n, rfl, h⟩; exact ⟨n, rfl, fun a => ih a c n (h a)⟩
  | issue k m next ih =>
    rintro c _ ⟨n, rfl, h⟩
    unfold Spec.Guild.mole
    split
    · exact ⟨n, rfl, fun p => ih p c n (h p)⟩
    · exact ⟨n, rfl, fun a => ih _ _ n (h _)⟩
  | watch k w next ih =>
    rintro c _ ⟨n, rfl, h⟩
    unfold Spec.Guild.mole
    split
    · exact ⟨n, rfl, fun p => ih p c n (h p)⟩
    · exact ⟨n + 1, rfl, fun a => ⟨n, rfl, fun a' => ih _ _ n (h _)⟩⟩
  | submit k b next ih =>
    rintro c _ ⟨n, rfl, h⟩
    unfold Spec.Guild.mole
    split
    · exact ⟨n, rfl, fun p => ih p c n (h p)⟩
    · exact ⟨n + 1, rfl, fun a => ⟨n, rfl, fun a' => ih _ _ n (h _)⟩⟩
  | corrupt k next ih =>
    intro c n h
    unfold Spec.Guild.mole
    split
    · trivial
    · exact ih _ c n (h _)

theorem mole_avoids {sp : SystemParameters G} {key : Fin N → F × F} {j : Fin N} {d : Out} {V : Fin N → Set F}
    (A : Spec.Guild G N Out) : ∀ c, A.Avoids V → (A.mole sp key j d c).Avoids (V j) := by
  induction A with
  | out k o => intro c _; unfold Spec.Guild.mole; split <;> trivial
  | ask t next ih => exact fun c h a => ih a c (h a)
  | issue k m next ih =>
    rintro c ⟨hm, h⟩
    unfold Spec.Guild.mole
    split
    · rename_i hk
      exact ⟨hk ▸ hm, fun p => ih p c (h p)⟩
    · exact fun a => ih _ _ (h _)
  | watch k w next ih =>
    intro c h
    unfold Spec.Guild.mole
    split
    · exact fun p => ih p c (h p)
    · exact fun a a' => ih _ _ (h _)
  | submit k b next ih =>
    intro c h
    unfold Spec.Guild.mole
    split
    · exact fun p => ih p c (h p)
    · exact fun a a' => ih _ _ (h _)
  | corrupt k next ih =>
    intro c h
    unfold Spec.Guild.mole
    split
    · trivial
    · exact ih _ c (h _)

theorem checks_within {O : Oracle} {i : Fin N → Issuer G} (A : Spec.Guild G N Out) :
    ∀ n, A.Within n → (A.checks O i).Within n := by
  induction A with
  | out k o => intro n _; trivial
  | ask t next ih => rintro _ ⟨n, rfl, h⟩; exact ⟨n, rfl, fun a => ih a n (h a)⟩
  | issue k m next ih => rintro _ ⟨n, rfl, h⟩; exact ⟨n, rfl, fun a => ih a n (h a)⟩
  | watch k w next ih => rintro _ ⟨n, rfl, h⟩; exact ⟨n, rfl, fun a => ih a n (h a)⟩
  | submit k b next ih => rintro _ ⟨n, rfl, h⟩; exact ⟨n + 1, rfl, fun a => ⟨n, rfl, fun a' => ih _ n (h _)⟩⟩
  | corrupt k next ih => intro n h x; exact ih x n (h x)

/-- Whether the checks or the other issuers are played first does not matter. -/
theorem mole_checks (O : Oracle) {sp : SystemParameters G} {z key : Fin N → F × F} {j : Fin N} {d : Out}
    (h : ∀ k, k ≠ j → z k = key k) (A : Spec.Guild G N Out) : ∀ c,
      (A.mole sp z j d c).checks O (Spec.issuerOf sp (key j).1 (key j).2) =
      (A.checks O fun k => Spec.issuerOf sp (key k).1 (key k).2).mole sp z j d c := by
  induction A with
  | out k o =>
    intro c
    unfold Spec.Guild.mole Spec.Guild.checks Spec.Consort.mole
    split <;> rfl
  | ask t next ih =>
    intro c
    simp only [Spec.Guild.mole, Spec.Guild.checks, Spec.Consort.mole, Spec.Applicant.checks, ih]
  | issue k m next ih =>
    intro c
    unfold Spec.Guild.mole Spec.Guild.checks Spec.Consort.mole
    split
    · simp only [Spec.Applicant.checks, ih]
    · simp only [Spec.Applicant.checks, ih]
  | watch k w next ih =>
    intro c
    unfold Spec.Guild.mole Spec.Guild.checks Spec.Consort.mole
    split
    · simp only [Spec.Applicant.checks, ih]
    · simp only [Spec.Applicant.checks, ih]
  | submit k b next ih =>
    intro c
    unfold Spec.Guild.mole Spec.Guild.checks
    split
    · rename_i hk
      subst hk
      simp only [Spec.Applicant.checks, Spec.Consort.mole, ih]
    · rename_i hk
      simp only [Spec.Applicant.checks, Spec.Consort.mole, ih, Applicant.reply_oracle, h k hk]
  | corrupt k next ih =>
    intro c
    unfold Spec.Guild.mole Spec.Guild.checks Spec.Consort.mole
    split
    · rfl
    · exact ih _ c

end Guild

/-! ## C105 with checks -/

/-- **C105**, credentials, if the adversary may have presentations checked: the probability that it gets accepted by an issuer
that it did not corrupt is at most the sum, over the issuers, of the probabilities of C96. The adversaries there make as many
queries, and get no more numbers issued. -/
theorem C105_checked {S Ω : Type} [Fintype S] [Nonempty S] [Fintype Ω] [Nonempty Ω] (O : Oracle)
    (sp : S → SystemParameters G) (A : SystemParameters G → (Fin N → G) → Ω → Spec.Guild G N Spec.Attempt)
    (V : Fin N → Set F) (T : ℕ) (hA : ∀ σ X ω, (A (sp σ) X ω).Within T) (hV : ∀ σ X ω, (A (sp σ) X ω).Avoids V)
    (d : Spec.Attempt) :
    Spec.guildWins O sp A V ≤ ∑ j, Spec.applicantWins O sp (Spec.guildMole A T j d) (V j) ∧
    ∀ j σ X ω, (Spec.guildMole A T j d (sp σ) X ω).Within T ∧ (Spec.guildMole A T j d (sp σ) X ω).Avoids (V j) := by
  classical
  refine ⟨?_, fun j σ X ω => ⟨Guild.mole_within _ _ T (hA _ _ _), Guild.mole_avoids _ _ (hV _ _ _)⟩⟩
  refine (Consort.family_le O sp (fun σ ω key => (A (sp σ) (fun k => (key k).2 • (sp σ).h) ω).checks O fun k =>
    Spec.issuerOf (sp σ) (key k).1 (key k).2) T (fun _ _ _ => Guild.checks_within _ T (hA _ _ _)) d (fun σ j x o l ps _ =>
    Spec.judgeShow O (Spec.issuerOf (sp σ) x.1 x.2) (V j) o l ps) fun σ j x o l ps _ => ?_).trans
    (le_of_eq (Finset.sum_congr rfl fun j _ => Sim.mean_congr fun x => ?_))
  · refine le_of_eq_of_le (Sim.mean_const (α := Spec.Answer) 0).symm (Sim.mean_mono fun a => ?_)
    refine le_of_eq_of_le (Sim.mean_const (α := Spec.Answer) 0).symm (Sim.mean_mono fun a' => ?_)
    unfold Spec.Attempt.fresh
    split <;> norm_num
  · have hz : ∀ n, n ≠ j → x.2.1.2.1 n = Function.update x.2.1.2.1 j x.2.2 n := fun n hn => by
      rw [Function.update_of_ne hn]
    rw [← Guild.mole_checks O hz, Function.update_self, Consort.update_key]
    exact (Consort.checked_trace O (sp x.1) x.2.2 (Spec.issuerOf (sp x.1) x.2.2.1 x.2.2.2) _ _ [] [] []).symm

set_option synthInstance.maxSize 1000 in
/-- **C105**, the same as a bound: `N` times that of `C96_bound`. -/
theorem C105_checked_bound {S Ω : Type} [Fintype S] [Nonempty S] [Fintype Ω] [Nonempty Ω] (O : Oracle)
    (sp : S → SystemParameters G) (hg : ∀ σ, (sp σ).g ≠ 0) (hh : ∀ σ, (sp σ).h ≠ 0)
    (A : SystemParameters G → (Fin N → G) → Ω → Spec.Guild G N Spec.Attempt)
    (V : Fin N → Set F) (T : ℕ) (hA : ∀ σ X ω, (A (sp σ) X ω).Within T) (hV : ∀ σ X ω, (A (sp σ) X ω).Avoids V)
    (d : Spec.Attempt) (m₁ : Scalar) (hm : ∀ j, m₁.val ∉ V j) (t u : ℚ) (ht : 0 ≤ t) (hu : 0 ≤ u)
    (hf : ∀ j, Spec.testerWins sp (Spec.probers m₁ (Spec.guildMole A T j d) T) (V j) (T + 1) ≤ t ^ 3 / (128 * (T + 3) ^ 4))
    (hl : ∀ j, Spec.applicantFinds sp (Spec.guildMole A T j d) T ≤ u ^ 2 / (4 * (T + 2))) :
    Spec.guildWins O sp A V ≤ N * (t + u + 4 * (T + 3) ^ 2 / ell + 10 * (T + 3) / 2 ^ 252) := by
  obtain ⟨h1, h2⟩ := C105_checked O sp A V T hA hV d
  refine h1.trans ((Finset.sum_le_sum fun j _ => C96_bound O sp hg hh (Spec.guildMole A T j d) (V j) T
    (fun σ X ω => (h2 j σ X ω).1) (fun σ X ω => (h2 j σ X ω).2) m₁ (hm j) t u ht hu (hf j) (hl j)).trans (le_of_eq ?_))
  rw [Finset.sum_const, Finset.card_univ, Fintype.card_fin, nsmul_eq_mul]

/-- An adversary without submissions. -/
def Spec.Consort.shy : Spec.Consort G N Out → Spec.Guild G N Out
  | .out j o => .out j o
  | .ask t next => .ask t fun a => (next a).shy
  | .issue k m next => .issue k m fun c => (next c).shy
  | .watch k w next => .watch k w fun p => (next p).shy
  | .corrupt k next => .corrupt k fun x => (next x).shy

/-- **C105**: the game with checks includes the one without. -/
theorem C105_checked_includes {S Ω : Type} [Fintype S] [Fintype Ω] (O : Oracle) (sp : S → SystemParameters G)
    (A : SystemParameters G → (Fin N → G) → Ω → Spec.Consort G N Spec.Attempt) (V : Fin N → Set F) :
    Spec.guildWins O sp (fun sp X ω => (A sp X ω).shy) V = Spec.consortWins O sp A V := by
  have e : ∀ (i : Fin N → Issuer G) (B : Spec.Consort G N Spec.Attempt), B.shy.checks O i = B := by
    intro i B
    induction B with
    | out j o => rfl
    | ask t next ih => simp only [Spec.Consort.shy, Spec.Guild.checks, ih]
    | issue k m next ih => simp only [Spec.Consort.shy, Spec.Guild.checks, ih]
    | watch k w next ih => simp only [Spec.Consort.shy, Spec.Guild.checks, ih]
    | corrupt k next ih => simp only [Spec.Consort.shy, Spec.Guild.checks, ih]
  unfold Spec.guildWins Spec.consortWins
  refine Sim.mean_congr fun x => ?_
  dsimp only
  rw [e]

/-! ## Examples -/

/-- An adversary that learns the key of issuer 1, watches a user of issuer 0, and has what it saw checked by both issuers. -/
example : let w : Spec.Member := ⟨⟨8, by decide +kernel⟩, ⟨3, by decide +kernel⟩, 1, one_ne_zero⟩
    let A : Spec.Guild F 2 Spec.Attempt := .corrupt 1 fun _ => .issue 0 ⟨7, by decide +kernel⟩ fun _ => .watch 0 w fun p =>
      .submit 0 p.toBytes fun _ => .submit 1 p.toBytes fun r =>
        match r with
        | .ok _ => .out 1 ⟨8, 3, p.toBytes⟩
        | _ => .out 0 ⟨8, 3, p.toBytes⟩
    A.Within 7 ∧ A.Avoids ![{8}, ∅] := by
  refine ⟨fun _ => ⟨6, rfl, fun _ => ⟨4, rfl, fun _ => ⟨2, rfl, fun _ => ⟨0, rfl, fun r => ?_⟩⟩⟩⟩, fun _ => ⟨?_, fun _ _ _ r => ?_⟩⟩
  · dsimp only
    split <;> trivial
  · change _ ∉ ({8} : Set F)
    rw [Set.mem_singleton_iff]
    decide +kernel
  · dsimp only
    split <;> trivial

set_option synthInstance.maxSize 1000 in
/-- An adversary that learns the key of issuer 1, has the empty sequence of bytes checked by issuer 0, and then claims nothing.
With `t = u = 0` it satisfies the hypotheses of `C105_checked_bound`. -/
example : let d : Spec.Attempt := ⟨8, 0, []⟩
    let A : SystemParameters F → (Fin 2 → F) → Unit → Spec.Guild F 2 Spec.Attempt := fun _ _ _ =>
      .corrupt 1 fun _ => .submit 0 [] fun _ => .out 0 d
    (∀ X ω, (A ⟨1, 4⟩ X ω).Within 2 ∧ (A ⟨1, 4⟩ X ω).Avoids fun _ => {8}) ∧
    (∀ j, Spec.testerWins (fun _ : Unit => (⟨1, 4⟩ : SystemParameters F))
      (Spec.probers ⟨7, by decide +kernel⟩ (Spec.guildMole A 2 j d) 2) {8} 3 ≤ 0 ^ 3 / (128 * ((2 : ℕ) + 3) ^ 4)) ∧
    ∀ j, Spec.applicantFinds (fun _ : Unit => (⟨1, 4⟩ : SystemParameters F)) (Spec.guildMole A 2 j d) 2 ≤
      0 ^ 2 / (4 * ((2 : ℕ) + 2)) := by
  intro d A
  have hp : Spec.Attempt.presentation F ⟨8, 0, []⟩ = none := by
    unfold Spec.Attempt.presentation
    rfl
  refine ⟨fun X ω => ⟨fun _ => ⟨0, rfl, fun _ => trivial⟩, fun _ _ => trivial⟩, fun j => ?_, fun j => ?_⟩
  · have drive : ∀ (X : F) (ω : Unit × (Fin 2 → F × F) × (Fin 2 → Spec.PartCoins)) (c : ℕ → Spec.ShowCoins) (x0 x1 : F)
        (cells : ℕ → Spec.Cell) (old : ℕ → Option (Tag F))
        (k : Spec.Attempt → Spec.HashLog → (ℕ → Option (Tag F)) → Spec.Forger F),
        (∀ l got, (k ⟨8, 0, []⟩ l got).wins ⟨1, 4⟩ x0 x1 {8} = 0) → ∀ l got,
        ((Spec.deputy ⟨7, by decide +kernel⟩ ((Spec.guildMole A 2 j d ⟨1, 4⟩ X ω).served (Spec.issuerOf ⟨1, 4⟩ x0 x1))
          ⟨1, 4⟩ X c).drive ⟨1, 4⟩ X cells old k l got).wins ⟨1, 4⟩ x0 x1 {8} = 0 := by
      intro X ω c x0 x1 cells old k hk l got
      unfold Spec.deputy
      rw [Spec.Impostor.drive]
      dsimp only
      split
      · fin_cases j <;> exact hk _ _
      · rw [Spec.Forger.wins]
        split
        · rfl
        · fin_cases j <;> exact (Sim.mean_congr fun b => hk _ _).trans (Sim.mean_const (α := F) 0)
    have e : Spec.testerWins (fun _ : Unit => (⟨1, 4⟩ : SystemParameters F))
        (Spec.probers ⟨7, by decide +kernel⟩ (Spec.guildMole A 2 j d) 2) {8} 3 = 0 := by
      rw [Applicant.testerWins_eq]
      unfold Reduction.forges
      refine (Sim.mean_congr fun x => ?_).trans (Sim.mean_const 0)
      refine (Sim.mean_congr fun j => ?_).trans (Sim.mean_const 0)
      refine (Sim.mean_congr fun c => ?_).trans (Sim.mean_const 0)
      refine drive _ _ _ _ _ _ _ _ (fun _ _ => drive _ _ _ _ _ _ _ _ (fun _ _ => drive _ _ _ _ _ _ _ _ (fun _ _ => ?_)
        _ _) _ _) _ _
      rw [hp, Spec.Forger.wins, if_neg]
      decide +kernel
    rw [e]
    norm_num
  · have e : Spec.applicantFinds (fun _ : Unit => (⟨1, 4⟩ : SystemParameters F)) (Spec.guildMole A 2 j d) 2 = 0 := by
      unfold Spec.applicantFinds
      refine (Sim.mean_congr fun x => ?_).trans (Sim.mean_const 0)
      refine (Sim.mean_congr fun c => ?_).trans (Sim.mean_const 0)
      rw [if_neg]
      rintro ⟨y, hy, -⟩
      unfold Spec.finder at hy
      dsimp only at hy
      have run : ∀ s : ℕ → Spec.RunCell, (Spec.Onlooker.run ⟨1, 4⟩ x.2.2.1 x.2.2.2 s (Spec.Onlooker.checked
          (Spec.issuerOf ⟨1, 4⟩ x.2.2.1 x.2.2.2) ((Spec.guildMole A 2 j d ⟨1, 4⟩ (x.2.2.2 • 4) x.2.1).served
            (Spec.issuerOf ⟨1, 4⟩ x.2.2.1 x.2.2.2))) [] []).1.presentation F = none := by
        intro s
        fin_cases j <;> exact hp
      rw [run] at hy
      cases hy
    rw [e]
    norm_num

end Verif
