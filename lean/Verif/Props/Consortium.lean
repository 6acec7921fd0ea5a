import Verif.Props.Gang
import Verif.Props.Bystander

/-!
# Several issuers with the same parameters (C105)

The system parameters may be shared by issuers that do not trust each other. The adversary gets credentials from all of them,
watches their users, and learns the secret keys of those it corrupts. It succeeds if it is accepted by an issuer that it did
not corrupt, or makes an issuance of such an issuer. By guessing which one that is, and playing the others with keys of one's
own, this is reduced to the games of C94 and C104 with a single issuer.
-/

set_option maxRecDepth 100000

namespace Verif

open Amacs

variable {G : Type} [AddCommGroup G] [Module F G] [Ristretto G] {N : ℕ} {Out : Type}

/-! ## The game -/

/-- An adversary that asks the hash, gets attributes issued by any of `N` issuers, watches users of any of them present,
learns secret keys, and finally attacks the issuer `j`. -/
inductive Spec.Consort (G : Type) (N : ℕ) (Out : Type) where
  | out (j : Fin N) (o : Out)
  | ask (t : Transcript) (next : Spec.Answer → Spec.Consort G N Out)
  | issue (k : Fin N) (m : Scalar) (next : CredentialIssuance G → Spec.Consort G N Out)
  | watch (k : Fin N) (w : Spec.Member) (next : SignalCredentialPresentation G → Spec.Consort G N Out)
  | corrupt (k : Fin N) (next : F × F → Spec.Consort G N Out)

/-- What the adversary saw and whom it corrupted. -/
structure Spec.Seen (G : Type) (N : ℕ) where
  ps : List (Fin N × SignalCredentialPresentation G)
  cs : List (Fin N × CredentialIssuance G)
  bad : List (Fin N)

/-- The issuances by the issuer `j`. -/
def Spec.issuedBy (j : Fin N) (cs : List (Fin N × CredentialIssuance G)) : List (CredentialIssuance G) :=
  (cs.filter fun e => e.1 = j).map Prod.snd

namespace Spec.Consort

/-- At most `n` hash queries, by anybody: one for each issuance, two for each presentation. -/
def Within : Spec.Consort G N Out → ℕ → Prop
  | out _ _, _ => True
  | ask _ next, n => ∃ n', n = n' + 1 ∧ ∀ a, (next a).Within n'
  | issue _ _ next, n => ∃ n', n = n' + 1 ∧ ∀ c, (next c).Within n'
  | watch _ _ next, n => ∃ n', n = n' + 2 ∧ ∀ p, (next p).Within n'
  | corrupt _ next, n => ∀ x, (next x).Within n

/-- The issuer `k` issues no attribute in `V k` to the adversary. Others may. -/
def Avoids (V : Fin N → Set F) : Spec.Consort G N Out → Prop
  | out _ _ => True
  | ask _ next => ∀ a, (next a).Avoids V
  | issue k m next => m.val ∉ V k ∧ ∀ c, (next c).Avoids V
  | watch _ _ next => ∀ p, (next p).Avoids V
  | corrupt _ next => ∀ x, (next x).Avoids V

/-- The expected value of `f` at the end, after the queries `l`, if the issuers have the keys `key`. -/
noncomputable def expect (O : Oracle) (sp : SystemParameters G) (key : Fin N → F × F)
    (f : Fin N → Out → Spec.HashLog → Spec.Seen G N → ℚ) :
    Spec.Consort G N Out → Spec.HashLog → Spec.Seen G N → ℚ
  | out j o, l, s => f j o l s
  | ask t next, l, s => Spec.mean fun a => (next ((l.lookup t).getD a)).expect O sp key f (l.asked t a) s
  | issue k m next, l, s => Spec.honestIssue O sp (Scalar.ofF (key k).1) (Scalar.ofF (key k).2) m l fun l' c =>
      (next c).expect O sp key f l' { s with cs := (k, c) :: s.cs }
  | watch k w next, l, s => Spec.memberShow O sp (Scalar.ofF (key k).1) (Scalar.ofF (key k).2) w l fun l' p =>
      (next p).expect O sp key f l' { s with ps := (k, p) :: s.ps }
  | corrupt k next, l, s => (next (key k)).expect O sp key f l { s with bad := k :: s.bad }

end Spec.Consort

/-- The issuer makes its two queries and checks what the adversary sends, as in `Spec.onlookerWins`. -/
noncomputable def Spec.judgeShow (O : Oracle) (i : Issuer G) (V : Set F) (o : Spec.Attempt) (l : Spec.HashLog)
    (ps : List (SignalCredentialPresentation G)) : ℚ :=
  Spec.mean fun a => Spec.mean fun a' => o.fresh O i V ((l.asked (o.query i 0) a).asked (o.query i 1) a') ps

open Classical in
/-- A user makes their query and checks what the adversary sends, as in `Spec.watchingMinterWins`. -/
noncomputable def Spec.judgeIssue (O : Oracle) (sp : SystemParameters G) (X : G) (b : Bytes) (l : Spec.HashLog)
    (cs : List (CredentialIssuance G)) : ℚ :=
  Spec.mean fun a =>
    if Spec.Minted ((l.asked (Spec.mintQuery sp X b) a).oracle O) (User.new sp ⟨[X]⟩ none) b cs then 1 else 0

/-- The probability that an adversary gets accepted by an issuer `j` that it did not corrupt, for a number in `V j`, without
repeating a presentation by a user of `j` that it saw. It is given the parameters and the public keys; setup `σ`, coins `ω`
and the secret keys are uniform. -/
noncomputable def Spec.consortWins {S Ω : Type} [Fintype S] [Fintype Ω] (O : Oracle) (sp : S → SystemParameters G)
    (A : SystemParameters G → (Fin N → G) → Ω → Spec.Consort G N Spec.Attempt) (V : Fin N → Set F) : ℚ :=
  Spec.mean fun x : S × Ω × (Fin N → F × F) =>
    (A (sp x.1) (fun k => (x.2.2 k).2 • (sp x.1).h) x.2.1).expect O (sp x.1) x.2.2
      (fun j o l s => if j ∈ s.bad then 0 else
        Spec.judgeShow O (Spec.issuerOf (sp x.1) (x.2.2 j).1 (x.2.2 j).2) (V j) o l (Spec.sentBy j s.ps)) [] ⟨[], [], []⟩

/-- The probability that an adversary makes a new issuance that a user of an issuer `j` accepts that it did not corrupt. -/
noncomputable def Spec.consortMints {S Ω : Type} [Fintype S] [Fintype Ω] (O : Oracle) (sp : S → SystemParameters G)
    (A : SystemParameters G → (Fin N → G) → Ω → Spec.Consort G N Bytes) : ℚ :=
  Spec.mean fun x : S × Ω × (Fin N → F × F) =>
    (A (sp x.1) (fun k => (x.2.2 k).2 • (sp x.1).h) x.2.1).expect O (sp x.1) x.2.2
      (fun j o l s => if j ∈ s.bad then 0 else
        Spec.judgeIssue O (sp x.1) ((x.2.2 j).2 • (sp x.1).h) o l (Spec.issuedBy j s.cs)) [] ⟨[], [], []⟩

/-! ## Playing all issuers but one -/

/-- Coins for a presentation or an issuance. -/
abbrev Spec.PartCoins := Spec.PlayCoins × F × F × F × F × F × F

/-- The hash query of an issuance. -/
def Spec.partQuery (sp : SystemParameters G) (x : F × F) (m : Scalar) (c : Spec.PartCoins) : Transcript :=
  Deputy.issueQuery sp (Scalar.ofF x.1) (Scalar.ofF x.2) m c.2.1 c.2.2.1 c.2.2.2

/-- The issuance, with the answer. -/
def Spec.partIssue (sp : SystemParameters G) (x : F × F) (m : Scalar) (c : Spec.PartCoins) (a : Spec.Answer) :
    CredentialIssuance G :=
  Deputy.issueWith sp (Scalar.ofF x.1) (Scalar.ofF x.2) m c.2.1 c.2.2.1 c.2.2.2 a

/-- The adversary against the issuer `j`, which plays the other issuers and their users. It gives up, with output `d`, if
another issuer is attacked or `j` is corrupted. -/
def Spec.Consort.mole (sp : SystemParameters G) (key : Fin N → F × F) (j : Fin N) (d : Out) :
    Spec.Consort G N Out → (ℕ → Spec.PartCoins) → Spec.Onlooker G Out
  | .out k o, _ => if k = j then .out o else .out d
  | .ask t next, c => .ask t fun a => (next a).mole sp key j d c
  | .issue k m next, c =>
    if k = j then .issue m fun x => (next x).mole sp key j d c
    else .ask (Spec.partQuery sp (key k) m (c 0)) fun a =>
      (next (Spec.partIssue sp (key k) m (c 0) a)).mole sp key j d fun n => c (n + 1)
  | .watch k w next, c =>
    if k = j then .watch w fun p => (next p).mole sp key j d c
    else .ask (w.query sp (key k).2 (c 0).1) fun a => .ask (w.query' sp (c 0).1) fun a' =>
      (next (w.played sp (key k).1 (key k).2 (c 0).1 a a')).mole sp key j d fun n => c (n + 1)
  | .corrupt k next, c => if k = j then .out d else (next (key k)).mole sp key j d c

/-- The same, as an adversary of C94 and C104. The keys of the other issuers are among its coins. -/
noncomputable def Spec.consortMole {Ω : Type} (A : SystemParameters G → (Fin N → G) → Ω → Spec.Consort G N Out) (T : ℕ)
    (j : Fin N) (d : Out) :
    SystemParameters G → G → Ω × (Fin N → F × F) × (Fin T → Spec.PartCoins) → Spec.Onlooker G Out :=
  fun sp X ω => (A sp (Function.update (fun k => (ω.2.1 k).2 • sp.h) j X) ω.1).mole sp ω.2.1 j d (Spec.stretch ω.2.2)

namespace Consort

theorem mole_within {sp : SystemParameters G} {key : Fin N → F × F} {j : Fin N} {d : Out} (A : Spec.Consort G N Out) :
    ∀ c n, A.Within n → (A.mole sp key j d c).Within n := by
  induction A with
  | out k o => intro c n _; unfold Spec.Consort.mole; split <;> trivial
  | ask t next ih => rintro c _ ⟨n, rfl, h⟩; exact ⟨n, rfl, fun a => ih a c n (h a)⟩
  | issue k m next ih =>
    rintro c _ ⟨n, rfl, h⟩
    unfold Spec.Consort.mole
    split
    · exact ⟨n, rfl, fun p => ih p c n (h p)⟩
    · exact ⟨n, rfl, fun a => ih _ _ n (h _)⟩
  | watch k w next ih =>
    rintro c _ ⟨n, rfl, h⟩
    unfold Spec.Consort.mole
    split
    · exact ⟨n, rfl, fun p => ih p c n (h p)⟩
    · exact ⟨n + 1, rfl, fun a => ⟨n, rfl, fun a' => ih _ _ n (h _)⟩⟩
  | corrupt k next ih =>
    intro c n h
    unfold Spec.Consort.mole
    split
    · trivial
    · exact ih _ c n (h _)

theorem mole_avoids {sp : SystemParameters G} {key : Fin N → F × F} {j : Fin N} {d : Out} {V : Fin N → Set F}
    (A : Spec.Consort G N Out) : ∀ c, A.Avoids V → (A.mole sp key j d c).Avoids (V j) := by
  induction A with
  | out k o => intro c _; unfold Spec.Consort.mole; split <;> trivial
  | ask t next ih => exact fun c h a => ih a c (h a)
  | issue k m next ih =>
    rintro c ⟨hm, h⟩
    unfold Spec.Consort.mole
    split
    · rename_i hk
      exact ⟨hk ▸ hm, fun p => ih p c (h p)⟩
    · exact fun a => ih _ _ (h _)
  | watch k w next ih =>
    intro c h
    unfold Spec.Consort.mole
    split
    · exact fun p => ih p c (h p)
    · exact fun a a' => ih _ _ (h _)
  | corrupt k next ih =>
    intro c h
    unfold Spec.Consort.mole
    split
    · trivial
    · exact ih _ c (h _)

theorem issue_step (O : Oracle) (sp : SystemParameters G) (x : F × F) (m : Scalar) (l : Spec.HashLog)
    (k : Spec.HashLog → CredentialIssuance G → ℚ) :
    Spec.honestIssue O sp (Scalar.ofF x.1) (Scalar.ofF x.2) m l k =
      Spec.mean fun c : Spec.PartCoins => Spec.mean fun a =>
        k (l.asked (Spec.partQuery sp x m c) a)
          (Spec.partIssue sp x m c ((l.lookup (Spec.partQuery sp x m c)).getD a)) := by
  rw [Deputy.issue_step]
  refine Eq.trans ?_ (Echo.mean_snd (β := Spec.PlayCoins) fun e : F × F × F × F × F × F => Spec.mean fun a =>
    k (l.asked (Deputy.issueQuery sp (Scalar.ofF x.1) (Scalar.ofF x.2) m e.1 e.2.1 e.2.2) a)
      (Deputy.issueWith sp (Scalar.ofF x.1) (Scalar.ofF x.2) m e.1 e.2.1 e.2.2
        ((l.lookup (Deputy.issueQuery sp (Scalar.ofF x.1) (Scalar.ofF x.2) m e.1 e.2.1 e.2.2)).getD a))).symm
  rw [Tagging.mean_prod]
  refine Sim.mean_congr fun b => ?_
  rw [Tagging.mean_prod]

theorem show_step (O : Oracle) (sp : SystemParameters G) (x : F × F) (w : Spec.Member) (l : Spec.HashLog)
    (k : Spec.HashLog → SignalCredentialPresentation G → ℚ) :
    Spec.memberShow O sp (Scalar.ofF x.1) (Scalar.ofF x.2) w l k =
      Spec.mean fun c : Spec.PartCoins => Spec.mean fun a => Spec.mean fun a' =>
        k ((l.asked (w.query sp x.2 c.1) a).asked (w.query' sp c.1) a')
          (w.played sp x.1 x.2 c.1 ((l.lookup (w.query sp x.2 c.1)).getD a)
            (((l.asked (w.query sp x.2 c.1) a).lookup (w.query' sp c.1)).getD a')) := by
  rw [Gang.show_step]
  exact (Reduction.mean_fst (γ := F × F × F × F × F × F) fun c : Spec.PlayCoins => Spec.mean fun a => Spec.mean fun a' =>
    k ((l.asked (w.query sp x.2 c) a).asked (w.query' sp c) a')
      (w.played sp x.1 x.2 c ((l.lookup (w.query sp x.2 c)).getD a)
        (((l.asked (w.query sp x.2 c) a).lookup (w.query' sp c)).getD a'))).symm

/-- As `Spec.Onlooker.expect`, with the issuances noted as well. -/
noncomputable def trace (O : Oracle) (sp : SystemParameters G) (x : F × F)
    (f : Out → Spec.HashLog → List (SignalCredentialPresentation G) → List (CredentialIssuance G) → ℚ) :
    Spec.Onlooker G Out → Spec.HashLog → List (SignalCredentialPresentation G) → List (CredentialIssuance G) → ℚ
  | .out o, l, ps, cs => f o l ps cs
  | .ask t next, l, ps, cs => Spec.mean fun a => trace O sp x f (next ((l.lookup t).getD a)) (l.asked t a) ps cs
  | .issue m next, l, ps, cs => Spec.honestIssue O sp (Scalar.ofF x.1) (Scalar.ofF x.2) m l fun l' c =>
      trace O sp x f (next c) l' ps (c :: cs)
  | .watch w next, l, ps, cs => Spec.memberShow O sp (Scalar.ofF x.1) (Scalar.ofF x.2) w l fun l' p =>
      trace O sp x f (next p) l' (p :: ps) cs

theorem checked_trace (O : Oracle) (sp : SystemParameters G) (x : F × F) (i : Issuer G)
    (f : Spec.Attempt → Spec.HashLog → List (SignalCredentialPresentation G) → ℚ) (A : Spec.Onlooker G Spec.Attempt) :
    ∀ l ps cs, (A.checked i).expect (Spec.honestIssue O sp (Scalar.ofF x.1) (Scalar.ofF x.2))
        (Spec.memberShow O sp (Scalar.ofF x.1) (Scalar.ofF x.2)) f l ps =
      trace O sp x (fun o l ps _ => Spec.mean fun a => Spec.mean fun a' =>
        f o ((l.asked (o.query i 0) a).asked (o.query i 1) a') ps) A l ps cs := by
  induction A with
  | out o => intro l ps cs; rfl
  | ask t next ih => intro l ps cs; exact Sim.mean_congr fun a => ih _ _ _ _
  | issue m next ih =>
    intro l ps cs
    unfold trace
    rw [Spec.Onlooker.checked, Spec.Onlooker.expect]
    congr 1
    funext l' c
    exact ih c _ _ _
  | watch w next ih =>
    intro l ps cs
    unfold trace
    rw [Spec.Onlooker.checked, Spec.Onlooker.expect]
    congr 1
    funext l' c
    exact ih c _ _ _

theorem delivered_trace (O : Oracle) (sp : SystemParameters G) (x : F × F) (X : G)
    (f : Bytes → Spec.HashLog → List (CredentialIssuance G) → ℚ) (A : Spec.Onlooker G Bytes) :
    ∀ l ps cs, (A.delivered sp X cs).expect (Spec.honestIssue O sp (Scalar.ofF x.1) (Scalar.ofF x.2))
        (Spec.memberShow O sp (Scalar.ofF x.1) (Scalar.ofF x.2)) (fun o l _ => f o.1 l o.2) l ps =
      trace O sp x (fun b l _ cs => Spec.mean fun a => f b (l.asked (Spec.mintQuery sp X b) a) cs) A l ps cs := by
  induction A with
  | out o => intro l ps cs; rfl
  | ask t next ih => intro l ps cs; exact Sim.mean_congr fun a => ih _ _ _ _
  | issue m next ih =>
    intro l ps cs
    unfold trace
    rw [Spec.Onlooker.delivered, Spec.Onlooker.expect]
    congr 1
    funext l' c
    exact ih c _ _ _
  | watch w next ih =>
    intro l ps cs
    unfold trace
    rw [Spec.Onlooker.delivered, Spec.Onlooker.expect]
    congr 1
    funext l' c
    exact ih c _ _ _

section
variable {O : Oracle} {sp : SystemParameters G} {key : Fin N → F × F}

/-- The union bound. -/
theorem union {f : Fin N → Out → Spec.HashLog → Spec.Seen G N → ℚ}
    {g : Fin N → Fin N → Out → Spec.HashLog → Spec.Seen G N → ℚ}
    (h : ∀ k b l s, f k b l s ≤ ∑ j, g j k b l s) (A : Spec.Consort G N Out) : ∀ l s,
      A.expect O sp key f l s ≤ ∑ j, A.expect O sp key (g j) l s := by
  induction A with
  | out k b => exact h k b
  | ask t next ih =>
    intro l s
    simp only [Spec.Consort.expect]
    rw [← Reduction.mean_sum]
    exact Sim.mean_mono fun a => ih _ _ _
  | issue k m next ih =>
    intro l s
    simp only [Spec.Consort.expect, issue_step]
    rw [← Reduction.mean_sum]
    refine Sim.mean_mono fun c => ?_
    rw [← Reduction.mean_sum]
    exact Sim.mean_mono fun a => ih _ _ _
  | watch k w next ih =>
    intro l s
    simp only [Spec.Consort.expect, show_step]
    rw [← Reduction.mean_sum]
    refine Sim.mean_mono fun c => ?_
    rw [← Reduction.mean_sum]
    refine Sim.mean_mono fun a => ?_
    rw [← Reduction.mean_sum]
    exact Sim.mean_mono fun a' => ih _ _ _
  | corrupt k next ih => intro l s; exact ih _ _ _

/-- Success against `j`. -/
def only (j : Fin N)
    (f : Out → Spec.HashLog → List (SignalCredentialPresentation G) → List (CredentialIssuance G) → ℚ)
    (k : Fin N) (o : Out) (l : Spec.HashLog) (s : Spec.Seen G N) : ℚ :=
  if k = j ∧ j ∉ s.bad then f o l (Spec.sentBy j s.ps) (Spec.issuedBy j s.cs) else 0

/-- There is none once `j` is corrupted. -/
theorem spoilt {j : Fin N}
    {f : Out → Spec.HashLog → List (SignalCredentialPresentation G) → List (CredentialIssuance G) → ℚ}
    (A : Spec.Consort G N Out) : ∀ l s, j ∈ s.bad → A.expect O sp key (only j f) l s = 0 := by
  induction A with
  | out k o => intro l s h; exact if_neg fun h' => h'.2 h
  | ask t next ih =>
    intro l s h
    exact (Sim.mean_congr fun a => ih _ _ _ h).trans (Sim.mean_const (α := Spec.Answer) 0)
  | issue k m next ih =>
    intro l s h
    simp only [Spec.Consort.expect, issue_step]
    refine (Sim.mean_congr fun c => ?_).trans (Sim.mean_const (α := Spec.PartCoins) 0)
    refine (Sim.mean_congr fun a => ?_).trans (Sim.mean_const (α := Spec.Answer) 0)
    exact ih _ _ _ h
  | watch k w next ih =>
    intro l s h
    simp only [Spec.Consort.expect, show_step]
    refine (Sim.mean_congr fun c => ?_).trans (Sim.mean_const (α := Spec.PartCoins) 0)
    refine (Sim.mean_congr fun a => ?_).trans (Sim.mean_const (α := Spec.Answer) 0)
    refine (Sim.mean_congr fun a' => ?_).trans (Sim.mean_const (α := Spec.Answer) 0)
    exact ih _ _ _ h
  | corrupt k next ih => intro l s h; exact ih _ _ _ (List.mem_cons_of_mem _ h)

/-- Playing the other issuers makes no difference. -/
theorem mole_le (j : Fin N) (d : Out) {key' : Fin N → F × F} (hk : ∀ k, k ≠ j → key' k = key k)
    {f : Out → Spec.HashLog → List (SignalCredentialPresentation G) → List (CredentialIssuance G) → ℚ}
    (hf : ∀ o l ps cs, 0 ≤ f o l ps cs) (A : Spec.Consort G N Out) :
    ∀ (l : Spec.HashLog) (s : Spec.Seen G N) (n M : ℕ), A.Within n → n ≤ M → j ∉ s.bad →
      A.expect O sp key (only j f) l s ≤
      Spec.mean fun c : Fin M → Spec.PartCoins =>
        trace O sp (key j) f (A.mole sp key' j d (Spec.stretch c)) l (Spec.sentBy j s.ps) (Spec.issuedBy j s.cs) := by
  induction A with
  | out k o =>
    intro l s n M _ _ hs
    simp only [Spec.Consort.mole, Spec.Consort.expect]
    rw [Sim.mean_const (α := Fin M → Spec.PartCoins)]
    unfold only
    by_cases e : k = j
    · rw [if_pos ⟨e, hs⟩, if_pos e]
      exact le_rfl
    · rw [if_neg fun h => e h.1, if_neg e]
      exact hf _ _ _ _
  | ask t next ih =>
    rintro l s _ M ⟨n, rfl, hn⟩ hM hs
    simp only [Spec.Consort.expect, Spec.Consort.mole, trace]
    rw [Sim.mean_comm]
    exact Sim.mean_mono fun a => ih _ _ s n M (hn _) (by omega) hs
  | issue k m next ih =>
    rintro l s _ M ⟨n, rfl, hn⟩ hM hs
    by_cases e : k = j
    · subst e
      simp only [Spec.Consort.expect, Spec.Consort.mole, if_true, trace, issue_step]
      conv_rhs => rw [Sim.mean_comm]
      refine Sim.mean_mono fun c => ?_
      conv_rhs => rw [Sim.mean_comm]
      refine Sim.mean_mono fun a => ?_
      refine (ih _ _ { s with cs := (k, _) :: s.cs } n M (hn _) (by omega) hs).trans
        (le_of_eq (Sim.mean_congr fun c' => ?_))
      simp [Spec.issuedBy]
    · obtain ⟨M, rfl⟩ : ∃ M', M = M' + 1 := ⟨M - 1, by omega⟩
      simp only [Spec.Consort.expect, Spec.Consort.mole, if_neg e, trace]
      rw [issue_step]
      let K : Spec.PartCoins → (ℕ → Spec.PartCoins) → ℚ := fun c c' =>
        Spec.mean fun a => trace O sp (key j) f ((next (Spec.partIssue sp (key' k) m c
          ((l.lookup (Spec.partQuery sp (key' k) m c)).getD a))).mole sp key' j d c')
            (l.asked (Spec.partQuery sp (key' k) m c) a) (Spec.sentBy j s.ps) (Spec.issuedBy j s.cs)
      refine le_trans ?_ (Deputy.mean_cons (N := M) K).symm.le
      refine Sim.mean_mono fun c => ?_
      dsimp only [K]
      rw [hk k e]
      conv_rhs => rw [Sim.mean_comm]
      refine Sim.mean_mono fun a => ?_
      refine (ih _ _ { s with cs := (k, _) :: s.cs } n M (hn _) (by omega) hs).trans
        (le_of_eq (Sim.mean_congr fun c' => ?_))
      simp [Spec.issuedBy, e]
  | watch k w next ih =>
    rintro l s _ M ⟨n, rfl, hn⟩ hM hs
    by_cases e : k = j
    · subst e
      simp only [Spec.Consort.expect, Spec.Consort.mole, if_true, trace, show_step]
      conv_rhs => rw [Sim.mean_comm]
      refine Sim.mean_mono fun c => ?_
      conv_rhs => rw [Sim.mean_comm]
      refine Sim.mean_mono fun a => ?_
      conv_rhs => rw [Sim.mean_comm]
      refine Sim.mean_mono fun a' => ?_
      refine (ih _ _ { s with ps := (k, _) :: s.ps } n M (hn _) (by omega) hs).trans
        (le_of_eq (Sim.mean_congr fun c' => ?_))
      simp [Spec.sentBy]
    · obtain ⟨M, rfl⟩ : ∃ M', M = M' + 1 := ⟨M - 1, by omega⟩
      simp only [Spec.Consort.expect, Spec.Consort.mole, if_neg e, trace]
      rw [show_step]
      let K : Spec.PartCoins → (ℕ → Spec.PartCoins) → ℚ := fun c c' =>
        Spec.mean fun a => Spec.mean fun a' => trace O sp (key j) f
          ((next (w.played sp (key' k).1 (key' k).2 c.1 ((l.lookup (w.query sp (key' k).2 c.1)).getD a)
            (((l.asked (w.query sp (key' k).2 c.1) a).lookup (w.query' sp c.1)).getD a'))).mole sp key' j d c')
          ((l.asked (w.query sp (key' k).2 c.1) a).asked (w.query' sp c.1) a') (Spec.sentBy j s.ps) (Spec.issuedBy j s.cs)
      refine le_trans ?_ (Deputy.mean_cons (N := M) K).symm.le
      refine Sim.mean_mono fun c => ?_
      dsimp only [K]
      rw [hk k e]
      conv_rhs => rw [Sim.mean_comm]
      refine Sim.mean_mono fun a => ?_
      conv_rhs => rw [Sim.mean_comm]
      refine Sim.mean_mono fun a' => ?_
      refine (ih _ _ { s with ps := (k, _) :: s.ps } n M (hn _) (by omega) hs).trans
        (le_of_eq (Sim.mean_congr fun c' => ?_))
      simp [Spec.sentBy, e]
  | corrupt k next ih =>
    intro l s n M hn hM hs
    by_cases e : k = j
    · subst e
      simp only [Spec.Consort.expect, Spec.Consort.mole, if_true]
      rw [spoilt _ _ _ (List.mem_cons_self), Sim.mean_const (α := Fin M → Spec.PartCoins)]
      exact hf _ _ _ _
    · simp only [Spec.Consort.expect, Spec.Consort.mole, if_neg e]
      rw [hk k e]
      exact ih _ _ { s with bad := k :: s.bad } n M (hn _) hM (by simp [Ne.symm e, hs])

end

/-- Drawing one of several values again. -/
theorem mean_update {α : Type} [Fintype α] [Nonempty α] (j : Fin N) (g : (Fin N → α) → ℚ) :
    (Spec.mean fun p : (Fin N → α) × α => g (Function.update p.1 j p.2)) = Spec.mean g := by
  let e : (Fin N → α) × α ≃ (Fin N → α) × α :=
    { toFun := fun p => (Function.update p.1 j p.2, p.1 j)
      invFun := fun p => (Function.update p.1 j p.2, p.1 j)
      left_inv := fun p => by simp
      right_inv := fun p => by simp }
  refine Eq.trans ?_ (Reduction.mean_fst (γ := α) g)
  exact Sim.mean_equiv e fun p : (Fin N → α) × α => g p.1

/-- All these games are at most the sums of those with one issuer. -/
theorem family_le {S Ω : Type} [Fintype S] [Nonempty S] [Fintype Ω] [Nonempty Ω] (O : Oracle)
    (sp : S → SystemParameters G) (B : S → Ω → (Fin N → F × F) → Spec.Consort G N Out) (T : ℕ)
    (hB : ∀ σ ω key, (B σ ω key).Within T) (d : Out)
    (f : S → Fin N → F × F → Out → Spec.HashLog → List (SignalCredentialPresentation G) → List (CredentialIssuance G) → ℚ)
    (hf : ∀ σ j x o l ps cs, 0 ≤ f σ j x o l ps cs) :
    (Spec.mean fun x : S × Ω × (Fin N → F × F) =>
      (B x.1 x.2.1 x.2.2).expect O (sp x.1) x.2.2
        (fun j o l s => if j ∈ s.bad then 0 else
          f x.1 j (x.2.2 j) o l (Spec.sentBy j s.ps) (Spec.issuedBy j s.cs)) [] ⟨[], [], []⟩) ≤
    ∑ j, Spec.mean fun x : S × (Ω × (Fin N → F × F) × (Fin T → Spec.PartCoins)) × F × F =>
      trace O (sp x.1) x.2.2 (f x.1 j x.2.2) ((B x.1 x.2.1.1 (Function.update x.2.1.2.1 j x.2.2)).mole (sp x.1) x.2.1.2.1 j d
        (Spec.stretch x.2.1.2.2)) [] [] [] := by
  let W : Fin N → S → Ω → (Fin N → F × F) → ℚ := fun j σ ω key =>
    (B σ ω key).expect O (sp σ) key (only j (f σ j (key j))) [] ⟨[], [], []⟩
  have h1 : (Spec.mean fun x : S × Ω × (Fin N → F × F) =>
      (B x.1 x.2.1 x.2.2).expect O (sp x.1) x.2.2
        (fun j o l s => if j ∈ s.bad then 0 else
          f x.1 j (x.2.2 j) o l (Spec.sentBy j s.ps) (Spec.issuedBy j s.cs)) [] ⟨[], [], []⟩) ≤
      ∑ j, Spec.mean fun x : S × Ω × (Fin N → F × F) => W j x.1 x.2.1 x.2.2 := by
    rw [← Reduction.mean_sum]
    refine Sim.mean_mono fun x => union (fun k o l s => ?_) _ _ _
    have h0 : ∀ j, 0 ≤ only j (f x.1 j (x.2.2 j)) k o l s := fun j => by
      unfold only
      split
      · exact hf _ _ _ _ _ _ _
      · exact le_rfl
    split
    · exact Finset.sum_nonneg fun j _ => h0 j
    · rename_i hs
      refine le_trans (le_of_eq ?_) (Finset.single_le_sum (fun j _ => h0 j) (Finset.mem_univ k))
      exact (if_pos ⟨rfl, hs⟩).symm
  refine h1.trans (Finset.sum_le_sum fun j _ => ?_)
  have h2 : (Spec.mean fun x : S × Ω × (Fin N → F × F) => W j x.1 x.2.1 x.2.2) =
      Spec.mean fun σ : S => Spec.mean fun ω : Ω => Spec.mean fun z : Fin N → F × F => Spec.mean fun y : F × F =>
        W j σ ω (Function.update z j y) := by
    rw [Tagging.mean_prod (α := S)]
    refine Sim.mean_congr fun σ => ?_
    rw [Tagging.mean_prod (α := Ω)]
    refine Sim.mean_congr fun ω => ?_
    rw [← mean_update j, Tagging.mean_prod (α := Fin N → F × F)]
  rw [h2]
  rw [Tagging.mean_prod (α := S)]
  refine Sim.mean_mono fun σ => ?_
  rw [Tagging.mean_prod (α := Ω × (Fin N → F × F) × (Fin T → Spec.PartCoins)), Tagging.mean_prod (α := Ω)]
  refine Sim.mean_mono fun ω => ?_
  rw [Tagging.mean_prod (α := Fin N → F × F)]
  refine Sim.mean_mono fun z => ?_
  conv_rhs => rw [Sim.mean_comm]
  refine Sim.mean_mono fun y => ?_
  have hz : ∀ n, n ≠ j → z n = Function.update z j y n := fun n hn => by rw [Function.update_of_ne hn]
  have h3 := mole_le (O := O) (sp := sp σ) j d hz (hf σ j (Function.update z j y j))
    (B σ ω (Function.update z j y)) [] ⟨[], [], []⟩ T T (hB _ _ _) le_rfl (List.not_mem_nil)
  have e : W j σ ω (Function.update z j y) = (B σ ω (Function.update z j y)).expect O (sp σ) (Function.update z j y)
      (only j (f σ j y)) [] ⟨[], [], []⟩ := by
    simp only [W, Function.update_self]
  rw [Function.update_self] at h3
  rw [e]
  exact h3

omit [Ristretto G] in
/-- The public keys, if that of `j` is drawn again. -/
theorem update_key (z : Fin N → F × F) (j : Fin N) (y : F × F) (h : G) :
    (fun n => (Function.update z j y n).2 • h) = Function.update (fun n => (z n).2 • h) j (y.2 • h) := by
  funext n
  by_cases hn : n = j
  · subst hn
    simp
  · simp [hn]

/-- Both games are at most the sums of those with one issuer. -/
theorem consort_le {S Ω : Type} [Fintype S] [Nonempty S] [Fintype Ω] [Nonempty Ω] (O : Oracle)
    (sp : S → SystemParameters G) (A : SystemParameters G → (Fin N → G) → Ω → Spec.Consort G N Out) (T : ℕ)
    (hA : ∀ σ X ω, (A (sp σ) X ω).Within T) (d : Out)
    (f : S → Fin N → F × F → Out → Spec.HashLog → List (SignalCredentialPresentation G) → List (CredentialIssuance G) → ℚ)
    (hf : ∀ σ j x o l ps cs, 0 ≤ f σ j x o l ps cs) :
    (Spec.mean fun x : S × Ω × (Fin N → F × F) =>
      (A (sp x.1) (fun k => (x.2.2 k).2 • (sp x.1).h) x.2.1).expect O (sp x.1) x.2.2
        (fun j o l s => if j ∈ s.bad then 0 else
          f x.1 j (x.2.2 j) o l (Spec.sentBy j s.ps) (Spec.issuedBy j s.cs)) [] ⟨[], [], []⟩) ≤
    ∑ j, Spec.mean fun x : S × (Ω × (Fin N → F × F) × (Fin T → Spec.PartCoins)) × F × F =>
      trace O (sp x.1) x.2.2 (f x.1 j x.2.2) (Spec.consortMole A T j d (sp x.1) (x.2.2.2 • (sp x.1).h) x.2.1) [] [] [] := by
  refine (family_le O sp (fun σ ω key => A (sp σ) (fun k => (key k).2 • (sp σ).h) ω) T (fun _ _ _ => hA _ _ _) d f hf).trans
    (le_of_eq (Finset.sum_congr rfl fun j _ => Sim.mean_congr fun x => ?_))
  rw [update_key]
  rfl

end Consort

/-! ## C105 -/

/-- **C105**, credentials: the probability that an adversary is accepted by an issuer that it did not corrupt is at most the
sum, over the issuers, of the probabilities of C94 for adversaries with the same number of hash queries, to which
`C94_reduction` and `C94_bound` apply. -/
theorem C105_credentials {S Ω : Type} [Fintype S] [Nonempty S] [Fintype Ω] [Nonempty Ω] (O : Oracle)
    (sp : S → SystemParameters G) (A : SystemParameters G → (Fin N → G) → Ω → Spec.Consort G N Spec.Attempt)
    (V : Fin N → Set F) (T : ℕ) (hA : ∀ σ X ω, (A (sp σ) X ω).Within T) (hV : ∀ σ X ω, (A (sp σ) X ω).Avoids V)
    (d : Spec.Attempt) :
    Spec.consortWins O sp A V ≤ ∑ j, Spec.onlookerWins O sp (Spec.consortMole A T j d) (V j) ∧
    ∀ j σ X ω, (Spec.consortMole A T j d (sp σ) X ω).Within T ∧ (Spec.consortMole A T j d (sp σ) X ω).Avoids (V j) := by
  classical
  refine ⟨?_, fun j σ X ω => ⟨Consort.mole_within _ _ T (hA _ _ _), Consort.mole_avoids _ _ (hV _ _ _)⟩⟩
  refine (Consort.consort_le O sp A T hA d (fun σ j x o l ps _ =>
    Spec.judgeShow O (Spec.issuerOf (sp σ) x.1 x.2) (V j) o l ps) fun σ j x o l ps _ => ?_).trans
    (le_of_eq (Finset.sum_congr rfl fun j _ => Sim.mean_congr fun x => ?_))
  · refine le_of_eq_of_le (Sim.mean_const (α := Spec.Answer) 0).symm (Sim.mean_mono fun a => ?_)
    refine le_of_eq_of_le (Sim.mean_const (α := Spec.Answer) 0).symm (Sim.mean_mono fun a' => ?_)
    unfold Spec.Attempt.fresh
    split <;> norm_num
  · exact (Consort.checked_trace O (sp x.1) x.2.2 (Spec.issuerOf (sp x.1) x.2.2.1 x.2.2.2) _ _ [] [] []).symm

set_option synthInstance.maxSize 1000 in
/-- **C105**, credentials, as a bound: `N` times that of `C94_bound`. -/
theorem C105_credentials_bound {S Ω : Type} [Fintype S] [Nonempty S] [Fintype Ω] [Nonempty Ω] (O : Oracle)
    (sp : S → SystemParameters G) (hg : ∀ σ, (sp σ).g ≠ 0) (hh : ∀ σ, (sp σ).h ≠ 0)
    (A : SystemParameters G → (Fin N → G) → Ω → Spec.Consort G N Spec.Attempt)
    (V : Fin N → Set F) (T : ℕ) (hA : ∀ σ X ω, (A (sp σ) X ω).Within T) (hV : ∀ σ X ω, (A (sp σ) X ω).Avoids V)
    (d : Spec.Attempt) (m₁ : Scalar) (hm : ∀ j, m₁.val ∉ V j) (t u : ℚ) (ht : 0 ≤ t) (hu : 0 ≤ u)
    (hf : ∀ j, Spec.forgerWins sp (Spec.deputies m₁ (Spec.consortMole A T j d) T) (V j) (T + 1) ≤
      t ^ 3 / (128 * (T + 3) ^ 4))
    (hl : ∀ j, Spec.finderWins sp (Spec.consortMole A T j d) T ≤ u ^ 2 / (4 * (T + 2))) :
    Spec.consortWins O sp A V ≤ N * (t + u + 4 * (T + 3) ^ 2 / ell + 10 * (T + 3) / 2 ^ 252) := by
  obtain ⟨h1, h2⟩ := C105_credentials O sp A V T hA hV d
  refine h1.trans ((Finset.sum_le_sum fun j _ => C94_bound O sp hg hh (Spec.consortMole A T j d) (V j) T
    (fun σ X ω => (h2 j σ X ω).1) (fun σ X ω => (h2 j σ X ω).2) m₁ (hm j) t u ht hu (hf j) (hl j)).trans (le_of_eq ?_))
  rw [Finset.sum_const, Finset.card_univ, Fintype.card_fin, nsmul_eq_mul]

/-- **C105**, issuances: the probability that an adversary makes a new issuance of an issuer that it did not corrupt is at
most the sum, over the issuers, of the probabilities of C104. -/
theorem C105_issuances {S Ω : Type} [Fintype S] [Nonempty S] [Fintype Ω] [Nonempty Ω] (O : Oracle)
    (sp : S → SystemParameters G) (A : SystemParameters G → (Fin N → G) → Ω → Spec.Consort G N Bytes)
    (T : ℕ) (hA : ∀ σ X ω, (A (sp σ) X ω).Within T) :
    Spec.consortMints O sp A ≤ ∑ j, Spec.watchingMinterWins O sp (Spec.consortMole A T j []) ∧
    ∀ j σ X ω, (Spec.consortMole A T j [] (sp σ) X ω).Within T := by
  classical
  refine ⟨?_, fun j σ X ω => Consort.mole_within _ _ T (hA _ _ _)⟩
  refine (Consort.consort_le O sp A T hA [] (fun σ j x o l _ cs =>
    Spec.judgeIssue O (sp σ) (x.2 • (sp σ).h) o l cs) fun σ j x o l ps _ => ?_).trans
    (le_of_eq (Finset.sum_congr rfl fun j _ => Sim.mean_congr fun x => ?_))
  · refine le_of_eq_of_le (Sim.mean_const (α := Spec.Answer) 0).symm (Sim.mean_mono fun a => ?_)
    split <;> norm_num
  · exact (Consort.delivered_trace O (sp x.1) x.2.2 (x.2.2.2 • (sp x.1).h) (fun b l cs =>
      if Spec.Minted (l.oracle O) (User.new (sp x.1) ⟨[x.2.2.2 • (sp x.1).h]⟩ none) b cs then 1 else 0) _ [] [] []).symm

/-- **C105**, issuances, as a bound: `N` times that of `C104_watching_bound`. -/
theorem C105_issuances_bound {S Ω : Type} [Fintype S] [Nonempty S] [Fintype Ω] [Nonempty Ω] (O : Oracle)
    (sp : S → SystemParameters G) (hg : ∀ σ, (sp σ).g ≠ 0) (hh : ∀ σ, (sp σ).h ≠ 0)
    (A : SystemParameters G → (Fin N → G) → Ω → Spec.Consort G N Bytes)
    (T : ℕ) (hA : ∀ σ X ω, (A (sp σ) X ω).Within T) (t u : ℚ) (ht : 0 ≤ t)
    (h1 : ∀ j, Spec.watchingUnlockWins sp (Spec.consortMole A T j []) T ≤ t ^ 2 / (2 * (T + 1)))
    (h2 : ∀ j, Spec.watchingQuotientWins O sp (Spec.consortMole A T j []) ≤ u) :
    Spec.consortMints O sp A ≤ N * (t + u + 4 * (T + 1) ^ 2 / ell + 2 * (T + 1) / 2 ^ 252) := by
  obtain ⟨g1, g2⟩ := C105_issuances O sp A T hA
  refine g1.trans ((Finset.sum_le_sum fun j _ => C104_watching_bound O sp hg hh (Spec.consortMole A T j []) T (g2 j)
    t u ht (h1 j) (h2 j)).trans (le_of_eq ?_))
  rw [Finset.sum_const, Finset.card_univ, Fintype.card_fin, nsmul_eq_mul]

/-- An adversary against a single issuer. -/
def Spec.Onlooker.consort : Spec.Onlooker G Out → Spec.Consort G 1 Out
  | .out o => .out 0 o
  | .ask t next => .ask t fun a => (next a).consort
  | .issue m next => .issue 0 m fun c => (next c).consort
  | .watch w next => .watch 0 w fun p => (next p).consort

namespace Consort

theorem single (O : Oracle) (sp : SystemParameters G) (key : Fin 1 → F × F)
    (f : Fin 1 → Out → Spec.HashLog → List (SignalCredentialPresentation G) → List (CredentialIssuance G) → ℚ)
    (A : Spec.Onlooker G Out) : ∀ l ps cs,
      A.consort.expect O sp key (fun j o l s => if j ∈ s.bad then 0 else
        f j o l (Spec.sentBy j s.ps) (Spec.issuedBy j s.cs)) l ⟨ps, cs, []⟩ =
      trace O sp (key 0) (f 0) A l (Spec.sentBy 0 ps) (Spec.issuedBy 0 cs) := by
  induction A with
  | out o =>
    intro l ps cs
    simp only [Spec.Onlooker.consort, Spec.Consort.expect, trace]
    exact if_neg (List.not_mem_nil)
  | ask t next ih => intro l ps cs; exact Sim.mean_congr fun a => ih _ _ _ _
  | issue m next ih =>
    intro l ps cs
    simp only [Spec.Onlooker.consort, Spec.Consort.expect, trace]
    congr 1
    funext l' c
    refine (ih c l' ps ((0, c) :: cs)).trans ?_
    simp [Spec.issuedBy]
  | watch w next ih =>
    intro l ps cs
    simp only [Spec.Onlooker.consort, Spec.Consort.expect, trace]
    congr 1
    funext l' c
    refine (ih c l' ((0, c) :: ps) cs).trans ?_
    simp [Spec.sentBy]

theorem mean_single {S Ω : Type} [Fintype S] [Fintype Ω] (g : S → Ω → F × F → ℚ) :
    (Spec.mean fun x : S × Ω × (Fin 1 → F × F) => g x.1 x.2.1 (x.2.2 0)) =
      Spec.mean fun x : S × Ω × F × F => g x.1 x.2.1 x.2.2 := by
  rw [Tagging.mean_prod (α := S), Tagging.mean_prod (α := S)]
  refine Sim.mean_congr fun σ => ?_
  rw [Tagging.mean_prod (α := Ω), Tagging.mean_prod (α := Ω)]
  refine Sim.mean_congr fun ω => ?_
  rw [← Sim.mean_equiv (Equiv.funUnique (Fin 1) (F × F))]
  rfl

end Consort

/-- **C105**: with one issuer the games are those of C94 and C104. -/
theorem C105_includes {S Ω : Type} [Fintype S] [Fintype Ω] (O : Oracle) (sp : S → SystemParameters G) :
    (∀ (A : SystemParameters G → G → Ω → Spec.Onlooker G Spec.Attempt) (V : Set F),
      Spec.consortWins (N := 1) O sp (fun sp X ω => (A sp (X 0) ω).consort) (fun _ => V) = Spec.onlookerWins O sp A V) ∧
    ∀ A : SystemParameters G → G → Ω → Spec.Onlooker G Bytes,
      Spec.consortMints (N := 1) O sp (fun sp X ω => (A sp (X 0) ω).consort) = Spec.watchingMinterWins O sp A := by
  classical
  refine ⟨fun A V => ?_, fun A => ?_⟩
  · refine Eq.trans (Sim.mean_congr fun x => Consort.single O (sp x.1) x.2.2 (fun j o l ps _ => Spec.judgeShow O
      (Spec.issuerOf (sp x.1) (x.2.2 j).1 (x.2.2 j).2) V o l ps) _ [] [] []) ?_
    refine (Consort.mean_single fun σ ω k => Consort.trace O (sp σ) k (fun o l ps _ => Spec.judgeShow O
      (Spec.issuerOf (sp σ) k.1 k.2) V o l ps) (A (sp σ) (k.2 • (sp σ).h) ω) [] [] []).trans (Sim.mean_congr fun x => ?_)
    exact (Consort.checked_trace O (sp x.1) x.2.2 (Spec.issuerOf (sp x.1) x.2.2.1 x.2.2.2) _ _ [] [] []).symm
  · refine Eq.trans (Sim.mean_congr fun x => Consort.single O (sp x.1) x.2.2 (fun j o l _ cs => Spec.judgeIssue O (sp x.1)
      ((x.2.2 j).2 • (sp x.1).h) o l cs) _ [] [] []) ?_
    refine (Consort.mean_single fun σ ω k => Consort.trace O (sp σ) k (fun o l _ cs => Spec.judgeIssue O (sp σ)
      (k.2 • (sp σ).h) o l cs) (A (sp σ) (k.2 • (sp σ).h) ω) [] [] []).trans (Sim.mean_congr fun x => ?_)
    exact (Consort.delivered_trace O (sp x.1) x.2.2 (x.2.2.2 • (sp x.1).h) (fun b l cs =>
      if Spec.Minted (l.oracle O) (User.new (sp x.1) ⟨[x.2.2.2 • (sp x.1).h]⟩ none) b cs then 1 else 0) _ [] [] []).symm

/-- **C105**: corrupted issuers have to be left out. Who learns the key of the issuer `j` makes an issuance of `j`, with one
hash query and nothing issued, that users accept with probability one. -/
theorem C105_corrupted {S Ω : Type} [Fintype S] [Nonempty S] [Fintype Ω] [Nonempty Ω] (O : Oracle)
    (sp : S → SystemParameters G) (j : Fin N) :
    let A : SystemParameters G → (Fin N → G) → Ω → Spec.Consort G N Bytes := fun sp _ _ => .corrupt j fun x =>
      .ask (Deputy.issueQuery sp (Scalar.ofF 0) (Scalar.ofF x.2) 0 1 0 (0, 0, 0, 0)) fun a =>
        .out j (Deputy.issueWith sp (Scalar.ofF 0) (Scalar.ofF x.2) 0 1 0 (0, 0, 0, 0) a).toBytes
    (Spec.mean fun x : S × Ω × (Fin N → F × F) =>
      (A (sp x.1) (fun k => (x.2.2 k).2 • (sp x.1).h) x.2.1).expect O (sp x.1) x.2.2
        (fun k o l s => Spec.judgeIssue O (sp x.1) ((x.2.2 k).2 • (sp x.1).h) o l (Spec.issuedBy k s.cs))
        [] ⟨[], [], []⟩) = 1 ∧
    Spec.consortMints O sp A = 0 ∧ ∀ σ X ω, (A (sp σ) X ω).Within 1 := by
  classical
  intro A
  refine ⟨?_, ?_, fun σ X ω _ => ⟨0, rfl, fun _ => trivial⟩⟩
  · refine Eq.trans (Sim.mean_congr fun x => ?_) (Sim.mean_const (α := S × Ω × (Fin N → F × F)) 1)
    refine Eq.trans (Sim.mean_congr fun a => ?_) (Sim.mean_const (α := Spec.Answer) 1)
    refine Eq.trans (Sim.mean_congr fun a' => ?_) (Sim.mean_const (α := Spec.Answer) 1)
    rw [if_pos]
    exact Mint.counterfeit_minted rfl (Reduction.lookup_mono (Reduction.lookup_asked _ _ a))
  · refine Eq.trans (Sim.mean_congr fun x => ?_) (Sim.mean_const (α := S × Ω × (Fin N → F × F)) 0)
    refine Eq.trans (Sim.mean_congr fun a => ?_) (Sim.mean_const (α := Spec.Answer) 0)
    exact if_pos (List.mem_cons_self)

/-! ## Examples -/

/-- An adversary that learns the key of issuer 1, gets 8 issued by issuer 1 and 7 by issuer 0, and watches a user of each,
makes six queries, and avoids 8 at issuer 0. -/
example : let w : Spec.Member := ⟨⟨8, by decide +kernel⟩, ⟨3, by decide +kernel⟩, 1, one_ne_zero⟩
    let A : Spec.Consort F 2 Spec.Attempt := .corrupt 1 fun _ => .issue 1 ⟨8, by decide +kernel⟩ fun _ =>
      .issue 0 ⟨7, by decide +kernel⟩ fun _ => .watch 1 w fun _ => .watch 0 w fun _ => .out 0 ⟨8, 0, []⟩
    A.Within 6 ∧ A.Avoids ![{8}, ∅] := by
  refine ⟨fun _ => ⟨5, rfl, fun _ => ⟨4, rfl, fun _ => ⟨2, rfl, fun _ => ⟨0, rfl, fun _ => trivial⟩⟩⟩⟩, fun _ =>
    ⟨Set.notMem_empty _, fun _ => ⟨?_, fun _ _ _ => trivial⟩⟩⟩
  change _ ∉ ({8} : Set F)
  rw [Set.mem_singleton_iff]
  decide +kernel

set_option synthInstance.maxSize 1000 in
/-- An adversary that learns the key of issuer 1, watches a user of issuer 1, and then claims nothing. With `t = u = 0` it
satisfies the hypotheses of `C105_credentials_bound`. -/
example : let w : Spec.Member := ⟨⟨8, by decide +kernel⟩, ⟨3, by decide +kernel⟩, 1, one_ne_zero⟩
    let d : Spec.Attempt := ⟨8, 0, []⟩
    let A : SystemParameters F → (Fin 2 → F) → Unit → Spec.Consort F 2 Spec.Attempt := fun _ _ _ =>
      .corrupt 1 fun _ => .watch 1 w fun _ => .out 0 d
    (∀ X ω, (A ⟨1, 4⟩ X ω).Within 2 ∧ (A ⟨1, 4⟩ X ω).Avoids fun _ => {8}) ∧
    (∀ j, Spec.forgerWins (fun _ : Unit => (⟨1, 4⟩ : SystemParameters F))
      (Spec.deputies ⟨7, by decide +kernel⟩ (Spec.consortMole A 2 j d) 2) {8} 3 ≤ 0 ^ 3 / (128 * ((2 : ℕ) + 3) ^ 4)) ∧
    ∀ j, Spec.finderWins (fun _ : Unit => (⟨1, 4⟩ : SystemParameters F)) (Spec.consortMole A 2 j d) 2 ≤
      0 ^ 2 / (4 * ((2 : ℕ) + 2)) := by
  intro w d A
  have hp : Spec.Attempt.presentation F ⟨8, 0, []⟩ = none := by
    unfold Spec.Attempt.presentation
    rfl
  refine ⟨fun X ω => ⟨fun _ => ⟨0, rfl, fun _ => trivial⟩, fun _ _ => trivial⟩, fun j => ?_, fun j => ?_⟩
  · have drive : ∀ (X : F) (ω : Unit × (Fin 2 → F × F) × (Fin 2 → Spec.PartCoins)) (c : ℕ → Spec.ShowCoins) (x0 x1 : F)
        (cells : ℕ → Spec.Cell) (old : ℕ → Option (Tag F))
        (k : Spec.Attempt → Spec.HashLog → (ℕ → Option (Tag F)) → Spec.Forger F),
        (∀ l got, (k ⟨8, 0, []⟩ l got).wins ⟨1, 4⟩ x0 x1 {8} = 0) → ∀ l got,
        ((Spec.deputy ⟨7, by decide +kernel⟩ (Spec.consortMole A 2 j d ⟨1, 4⟩ X ω) ⟨1, 4⟩ X c).drive ⟨1, 4⟩ X cells old k
          l got).wins ⟨1, 4⟩ x0 x1 {8} = 0 := by
      intro X ω c x0 x1 cells old k hk l got
      unfold Spec.deputy
      rw [Spec.Impostor.drive]
      dsimp only
      split
      · fin_cases j <;> exact hk _ _
      · rw [Spec.Forger.wins]
        split
        · rfl
        · fin_cases j <;> exact (Sim.mean_congr fun b => hk _ _).trans (Sim.mean_const (α := F) 0)
    have e : Spec.forgerWins (fun _ : Unit => (⟨1, 4⟩ : SystemParameters F))
        (Spec.deputies ⟨7, by decide +kernel⟩ (Spec.consortMole A 2 j d) 2) {8} 3 = 0 := by
      unfold Spec.forgerWins
      refine (Sim.mean_congr fun x => ?_).trans (Sim.mean_const 0)
      refine (Sim.mean_congr fun j => ?_).trans (Sim.mean_const 0)
      refine (Sim.mean_congr fun c => ?_).trans (Sim.mean_const 0)
      refine drive _ _ _ _ _ _ _ _ (fun _ _ => drive _ _ _ _ _ _ _ _ (fun _ _ => drive _ _ _ _ _ _ _ _ (fun _ _ => ?_)
        _ _) _ _) _ _
      rw [hp, Spec.Forger.wins, if_neg]
      decide +kernel
    rw [e]
    norm_num
  · have e : Spec.finderWins (fun _ : Unit => (⟨1, 4⟩ : SystemParameters F)) (Spec.consortMole A 2 j d) 2 = 0 := by
      unfold Spec.finderWins
      refine (Sim.mean_congr fun x => ?_).trans (Sim.mean_const 0)
      refine (Sim.mean_congr fun c => ?_).trans (Sim.mean_const 0)
      rw [if_neg]
      rintro ⟨y, hy, -⟩
      unfold Spec.finder at hy
      dsimp only at hy
      have run : ∀ s : ℕ → Spec.RunCell, (Spec.Onlooker.run ⟨1, 4⟩ x.2.2.1 x.2.2.2 s (Spec.Onlooker.checked
          (Spec.issuerOf ⟨1, 4⟩ x.2.2.1 x.2.2.2) (Spec.consortMole A 2 j d ⟨1, 4⟩ (x.2.2.2 • 4) x.2.1)) [] []).1.presentation
            F = none := by
        intro s
        fin_cases j <;> exact hp
      rw [run] at hy
      cases hy
    rw [e]
    norm_num

set_option synthInstance.maxSize 1000 in
/-- The same, sending nothing that can be decoded: it meets the hypotheses of `C105_issuances_bound`. -/
example (O : Oracle) : let w : Spec.Member := ⟨⟨8, by decide +kernel⟩, ⟨3, by decide +kernel⟩, 1, one_ne_zero⟩
    let A : SystemParameters F → (Fin 2 → F) → Unit → Spec.Consort F 2 Bytes := fun _ _ _ =>
      .corrupt 1 fun _ => .watch 1 w fun _ => .out 0 []
    (∀ X ω, (A ⟨1, 4⟩ X ω).Within 2) ∧
    (∀ j, Spec.watchingUnlockWins (fun _ : Unit => (⟨1, 4⟩ : SystemParameters F)) (Spec.consortMole A 2 j []) 2 ≤
      (1 / 2 ^ 100) ^ 2 / (2 * ((2 : ℕ) + 1))) ∧
    ∀ j, Spec.watchingQuotientWins O (fun _ : Unit => (⟨1, 4⟩ : SystemParameters F)) (Spec.consortMole A 2 j []) ≤ 0 := by
  classical
  intro w A
  refine ⟨fun _ _ _ => ⟨0, rfl, fun _ => trivial⟩, fun j => ?_, fun j => ?_⟩
  swap
  · unfold Spec.watchingQuotientWins
    refine le_of_le_of_eq (Sim.mean_mono (g := fun _ => (0 : ℚ)) fun x => ?_)
      (Sim.mean_const (α := Unit × (Unit × (Fin 2 → F × F) × (Fin 2 → Spec.PartCoins)) × F × F) 0)
    have hd : ¬ Spec.Divided (⟨1, 4⟩ : SystemParameters F) [] [] := by
      rintro ⟨y, hy, -⟩
      cases hy
    have z : ∀ l : Spec.HashLog, (Spec.mean fun _ : Spec.Answer =>
        if Spec.Divided (⟨1, 4⟩ : SystemParameters F) [] [] then (1 : ℚ) else 0) ≤ 0 := fun l =>
      le_of_eq ((Sim.mean_congr fun _ => if_neg hd).trans (Sim.mean_const (α := Spec.Answer) 0))
    fin_cases j
    · refine le_of_le_of_eq (Sim.mean_mono (g := fun _ => (0 : ℚ)) fun a => ?_) (Sim.mean_const (α := Spec.Answer) 0)
      refine le_of_le_of_eq (Sim.mean_mono (g := fun _ => (0 : ℚ)) fun a' => ?_) (Sim.mean_const (α := Spec.Answer) 0)
      exact z []
    · exact z []
  have e : Spec.watchingUnlockWins (fun _ : Unit => (⟨1, 4⟩ : SystemParameters F)) (Spec.consortMole A 2 j []) 2 =
      1 / ell := by
    unfold Spec.watchingUnlockWins
    have g (f : F → ℚ) : (Spec.mean fun x : Unit × ((Unit × (Fin 2 → F × F) × (Fin 2 → Spec.PartCoins)) ×
        (Fin 2 → Spec.ActCoins)) × F × F => f x.2.2.2) = Spec.mean f := by
      rw [Tagging.mean_prod]
      refine Eq.trans (Sim.mean_congr (g := fun _ => Spec.mean f) fun a => ?_) (Sim.mean_const (α := Unit) (Spec.mean f))
      rw [Tagging.mean_prod]
      refine Eq.trans (Sim.mean_congr (g := fun _ => Spec.mean f) fun a => ?_)
        (Sim.mean_const (α := (Unit × (Fin 2 → F × F) × (Fin 2 → Spec.PartCoins)) × (Fin 2 → Spec.ActCoins)) (Spec.mean f))
      exact Echo.mean_snd (β := F) f
    refine Eq.trans (Sim.mean_congr (g := fun x : Unit × ((Unit × (Fin 2 → F × F) × (Fin 2 → Spec.PartCoins)) ×
      (Fin 2 → Spec.ActCoins)) × F × F => if x.2.2.2 = 0 then (1 : ℚ) else 0) fun x => ?_)
      (Eq.trans (g fun z => if z = 0 then (1 : ℚ) else 0) ?_)
    · refine Eq.trans (Sim.mean_congr (g := fun _ => if x.2.2.2 = 0 then (1 : ℚ) else 0) fun s => ?_)
        (Sim.mean_const (if x.2.2.2 = 0 then (1 : ℚ) else 0))
      have o : ∀ (X : F) (c c' : ℕ → Spec.Cell) (b b' : ℕ → F),
          Spec.unlock (⟨1, 4⟩ : SystemParameters F) X x.2.2.1
            ((Spec.consortMole A 2 j [] ⟨1, 4⟩ X x.2.1.1).actor ⟨1, 4⟩ X x.2.2.1 [] (Spec.stretch x.2.1.2)) c c' b b' = 0 := by
        intro X c c' b b'
        have h0 : Spec.proofIn F [] = ⟨0, 0, 0, 0, 0⟩ := rfl
        have h1 : (IssuanceRevealed.extract (Spec.proofIn F []) (Spec.proofIn F [])).x1.val = 0 := by
          rw [h0]
          simp [IssuanceRevealed.extract, Scalar.val_ofF]
        fin_cases j <;> exact h1
      simp only [o]
      refine if_congr ?_ rfl rfl
      have h4 : (4 : F) ≠ 0 := by decide +kernel
      simp [h4]
    · unfold Spec.mean
      rw [Finset.sum_ite_eq' Finset.univ, if_pos (Finset.mem_univ _), ZMod.card]
  have : (2 : ℚ) ^ 252 ≤ ell := by exact_mod_cast (by decide +kernel : 2 ^ 252 ≤ ell)
  rw [e]
  refine (one_div_le_one_div_of_le (by positivity) this).trans ?_
  norm_num

end Verif
