import Verif.Props.Theft

/-!
# Using the roster entry of one of many others (C103)

As `Theft`, with any number of honest users. The adversary chooses their numbers, is given all their roster entries, watches
them present in any order, and may use the entry of any of them.
-/

set_option maxRecDepth 100000

namespace Verif

open Amacs

variable {G : Type} [AddCommGroup G] [Module F G] [Ristretto G] {N : ℕ}

/-! ## The game -/

/-- An adversary that asks the hash, watches any of `N` users present, and finally sends bytes. -/
inductive Spec.Gang (G : Type) (N : ℕ) where
  | out (b : Bytes)
  | ask (t : Transcript) (next : Spec.Answer → Spec.Gang G N)
  | watch (k : Fin N) (next : SignalCredentialPresentation G → Spec.Gang G N)

namespace Spec.Gang

/-- At most `n` hash queries, by anybody: two for each presentation. -/
def Within : Spec.Gang G N → ℕ → Prop
  | out _, _ => True
  | ask _ next, n => ∃ n', n = n' + 1 ∧ ∀ a, (next a).Within n'
  | watch _ next, n => ∃ n', n = n' + 2 ∧ ∀ p, (next p).Within n'

/-- The expected value of `f` at the end, after the queries `l` and the presentations `ps`, if `shw k` presents for the user
`k`. -/
noncomputable def expect (shw : Fin N → Spec.HashLog → (Spec.HashLog → SignalCredentialPresentation G → ℚ) → ℚ)
    (f : Bytes → Spec.HashLog → List (Fin N × SignalCredentialPresentation G) → ℚ) :
    Spec.Gang G N → Spec.HashLog → List (Fin N × SignalCredentialPresentation G) → ℚ
  | out b, l, ps => f b l ps
  | ask t next, l, ps => Spec.mean fun a => (next ((l.lookup t).getD a)).expect shw f (l.asked t a) ps
  | watch k next, l, ps => shw k l fun l' p => (next p).expect shw f l' ((k, p) :: ps)

/-- What the adversary sends is checked: the issuer makes its two queries. -/
def checked (i : Issuer G) : Spec.Gang G N → Spec.Gang G N
  | .out b => .ask (Spec.sentQuery i b 0) fun _ => .ask (Spec.sentQuery i b 1) fun _ => .out b
  | .ask t next => .ask t fun a => (next a).checked i
  | .watch k next => .watch k fun p => (next p).checked i

end Spec.Gang

/-- The presentations of the user `j`. -/
def Spec.sentBy (j : Fin N) (ps : List (Fin N × SignalCredentialPresentation G)) : List (SignalCredentialPresentation G) :=
  (ps.filter fun e => e.1 = j).map Prod.snd

/-- An adversary: from parameters, the issuer's secret key and coins, it chooses the users' numbers and nonces; then it is
given their roster entries. -/
abbrev Spec.Gangsters (G Ω : Type) (N : ℕ) :=
  SystemParameters G → F × F → Ω → (Fin N → Spec.Owner) × ((Fin N → G) → Spec.Gang G N)

open Classical in
/-- The probability that an adversary gets accepted for the roster entry of one of the users, with something that this user
did not send. Setup, coins, the issuer's secret key and the openings of the entries are uniform. -/
noncomputable def Spec.gangWins {S Ω : Type} [Fintype S] [Fintype Ω] (O : Oracle) (sp : S → SystemParameters G)
    (A : Spec.Gangsters G Ω N) : ℚ :=
  Spec.mean fun x : S × (Ω × (Fin N → F)) × F × F =>
    let i := Spec.issuerOf (sp x.1) x.2.2.1 x.2.2.2
    let a := A (sp x.1) x.2.2 x.2.1.1
    let E := fun k => (a.1 k).entry (sp x.1) (x.2.1.2 k)
    ((a.2 E).checked i).expect
      (fun k => Spec.memberShow O (sp x.1) (Scalar.ofF x.2.2.1) (Scalar.ofF x.2.2.2) ((a.1 k).member (x.2.1.2 k)))
      (fun b l ps => if ∃ j, Spec.Stolen (l.oracle O) i (E j) b (Spec.sentBy j ps) then 1 else 0) [] []

/-! ## Playing all users but one -/

/-- Coins for a presentation: for its elements, and for the two proofs. -/
abbrev Spec.PlayCoins := (F × F × F) × (F × F × F) × (F × F × F)

/-- What the first proof of a presentation is about. -/
def Spec.Member.publics (sp : SystemParameters G) (x1 : F) (w : Spec.Member) (d : F × F × F) :
    ValidCredential.Publics G :=
  let P := d.2.1 • w.b • basepoint G
  ⟨sp.g, sp.h, x1 • sp.h, P, d.1 • x1 • sp.h - d.2.2 • sp.h, w.m.val • P + d.1 • sp.h⟩

/-- What the second proof is about. -/
def Spec.Member.rosterPublics (sp : SystemParameters G) (w : Spec.Member) (d : F × F × F) :
    CommittedValuesEqual.Publics G :=
  let P := d.2.1 • w.b • basepoint G
  ⟨sp.g, sp.h, P, w.m.val • P + d.1 • sp.h, (w.entry sp).commitment⟩

/-- The hash query of the first proof. -/
def Spec.Member.query (sp : SystemParameters G) (x1 : F) (w : Spec.Member) (c : Spec.PlayCoins) : Transcript :=
  ValidCredential.commitCommitments (ValidCredential.commitPublics [.init "AEONFLUX SHOW"] (w.publics sp x1 c.1))
    (ValidCredential.commitmentsOf (w.publics sp x1 c.1) (ValidCredential.randOf c.2.1))

/-- The hash query of the second proof. -/
def Spec.Member.query' (sp : SystemParameters G) (w : Spec.Member) (c : Spec.PlayCoins) : Transcript :=
  CommittedValuesEqual.commitCommitments
    (CommittedValuesEqual.commitPublics [.init "SIGNAL GROUP MEMBERSHIP"] (w.rosterPublics sp c.1))
    (CommittedValuesEqual.commitmentsOf (w.rosterPublics sp c.1) (CommittedValuesEqual.randOf c.2.2))

/-- The presentation, with the answers to the two queries. -/
def Spec.Member.played (sp : SystemParameters G) (x0 x1 : F) (w : Spec.Member) (c : Spec.PlayCoins) (a a' : Spec.Answer) :
    SignalCredentialPresentation G :=
  let P := c.1.2.1 • w.b • basepoint G
  ⟨(w.entry sp).commitment,
    ⟨c.1.2.1 • (x1 * w.m.val + x0) • w.b • basepoint G + c.1.2.2 • sp.h, P, [], [w.m.val • P + c.1.1 • sp.h],
      ⟨Scalar.fromWide a.1, ValidCredential.respond (Scalar.fromWide a.1)
        ⟨w.m, Scalar.ofF c.1.1, -Scalar.ofF c.1.2.2⟩ (ValidCredential.randOf c.2.1)⟩⟩,
    ⟨Scalar.fromWide a'.1, CommittedValuesEqual.respond (Scalar.fromWide a'.1)
      ⟨w.m, Scalar.ofF c.1.1, w.r⟩ (CommittedValuesEqual.randOf c.2.2)⟩⟩

/-- The adversary against the user `j`, which plays the other users. -/
def Spec.Gang.mole (sp : SystemParameters G) (x0 x1 : F) (j : Fin N) (w : Fin N → Spec.Member) :
    Spec.Gang G N → (ℕ → Spec.PlayCoins) → Spec.Thief G
  | .out b, _ => .out b
  | .ask t next, c => .ask t fun a => (next a).mole sp x0 x1 j w c
  | .watch k next, c =>
    if k = j then .watch fun p => (next p).mole sp x0 x1 j w c
    else .ask ((w k).query sp x1 (c 0)) fun a => .ask ((w k).query' sp (c 0)) fun a' =>
      (next ((w k).played sp x0 x1 (c 0) a a')).mole sp x0 x1 j w fun n => c (n + 1)

/-- The same, as an adversary of C103. The openings of the other entries are among its coins. -/
noncomputable def Spec.Gangsters.mole {Ω : Type} (A : Spec.Gangsters G Ω N) (T : ℕ) (j : Fin N) :
    Spec.Robber G (Ω × (Fin N → F) × (Fin T → Spec.PlayCoins)) :=
  fun sp k ω =>
    let a := A sp k ω.1
    (a.1 j, fun E =>
      (a.2 (Function.update (fun i => (a.1 i).entry sp (ω.2.1 i)) j E)).mole sp k.1 k.2 j
        (fun i => (a.1 i).member (ω.2.1 i)) (Spec.stretch ω.2.2))

namespace Gang

theorem mole_within {sp : SystemParameters G} {x0 x1 : F} {j : Fin N} {w : Fin N → Spec.Member} (A : Spec.Gang G N) :
    ∀ c n, A.Within n → (A.mole sp x0 x1 j w c).Within n := by
  induction A with
  | out b => intros; trivial
  | ask t next ih => rintro c _ ⟨n, rfl, h⟩; exact ⟨n, rfl, fun a => ih a c n (h a)⟩
  | watch k next ih =>
    rintro c _ ⟨n, rfl, h⟩
    unfold Spec.Gang.mole
    split
    · exact ⟨n, rfl, fun p => ih p c n (h p)⟩
    · exact ⟨n + 1, rfl, fun a => ⟨n, rfl, fun a' => ih _ _ n (h _)⟩⟩

/-- A user presents as the adversary plays it. -/
theorem show_step (O : Oracle) (sp : SystemParameters G) (x0 x1 : F) (w : Spec.Member) (l : Spec.HashLog)
    (k : Spec.HashLog → SignalCredentialPresentation G → ℚ) :
    Spec.memberShow O sp (Scalar.ofF x0) (Scalar.ofF x1) w l k =
      Spec.mean fun c : Spec.PlayCoins => Spec.mean fun a => Spec.mean fun a' =>
        k ((l.asked (w.query sp x1 c) a).asked (w.query' sp c) a')
          (w.played sp x0 x1 c ((l.lookup (w.query sp x1 c)).getD a)
            (((l.asked (w.query sp x1 c) a).lookup (w.query' sp c)).getD a')) := by
  rw [Tagging.mean_prod]
  unfold Spec.memberShow Spec.honestShow
  refine Sim.mean_congr fun d => ?_
  conv_rhs => rw [Tagging.mean_prod]
  refine Sim.mean_congr fun ρ => ?_
  conv_lhs => rw [Sim.mean_comm]
  refine Sim.mean_congr fun ρ' => Sim.mean_congr fun a => Sim.mean_congr fun a' => ?_
  dsimp only
  have e : (Scalar.ofF x1).val • sp.h = x1 • sp.h := by rw [Scalar.val_ofF]
  rw [e]
  change k ((l.asked (w.query sp x1 (d, ρ, ρ')) a).asked (w.query' sp (d, ρ, ρ')) a') _ = _
  congr 1
  set q := w.query sp x1 (d, ρ, ρ') with hq
  set q' := w.query' sp (d, ρ, ρ') with hq'
  have h1 : ((l.asked q a).asked q' a').lookup q = some ((l.lookup q).getD a) :=
    Reduction.lookup_mono (Reduction.lookup_asked l q a)
  have h2 : ((l.asked q a).asked q' a').lookup q' = some (((l.asked q a).lookup q').getD a') :=
    Reduction.lookup_asked _ q' a'
  have c1 : getChallenge (((l.asked q a).asked q' a').oracle O) q = Scalar.fromWide ((l.lookup q).getD a).1 := by
    rw [getChallenge, Reduction.oracle_chal h1]
  have c2 : getChallenge (((l.asked q a).asked q' a').oracle O) q' =
      Scalar.fromWide (((l.asked q a).lookup q').getD a').1 := by
    rw [getChallenge, Reduction.oracle_chal h2]
  unfold Spec.Member.played
  rw [← c1, ← c2]
  simp only [Spec.present, Spec.Member.holder, Scalar.val_ofF]
  rfl

section
variable {O : Oracle} {sp : SystemParameters G} {x0 x1 : F} {w : Fin N → Spec.Member}

/-- The union bound. -/
theorem union {f : Bytes → Spec.HashLog → List (Fin N × SignalCredentialPresentation G) → ℚ}
    {g : Fin N → Bytes → Spec.HashLog → List (Fin N × SignalCredentialPresentation G) → ℚ}
    (h : ∀ b l ps, f b l ps ≤ ∑ j, g j b l ps) (A : Spec.Gang G N) : ∀ l ps,
      A.expect (fun k => Spec.memberShow O sp (Scalar.ofF x0) (Scalar.ofF x1) (w k)) f l ps ≤
        ∑ j, A.expect (fun k => Spec.memberShow O sp (Scalar.ofF x0) (Scalar.ofF x1) (w k)) (g j) l ps := by
  induction A with
  | out b => exact h b
  | ask t next ih =>
    intro l ps
    simp only [Spec.Gang.expect]
    rw [← Reduction.mean_sum]
    exact Sim.mean_mono fun a => ih _ _ _
  | watch k next ih =>
    intro l ps
    simp only [Spec.Gang.expect, show_step]
    rw [← Reduction.mean_sum]
    refine Sim.mean_mono fun c => ?_
    rw [← Reduction.mean_sum]
    refine Sim.mean_mono fun a => ?_
    rw [← Reduction.mean_sum]
    exact Sim.mean_mono fun a' => ih _ _ _

/-- Playing the other users makes no difference. -/
theorem mole_expect (i : Issuer G) (j : Fin N) {w' : Fin N → Spec.Member} (hw : ∀ k, k ≠ j → w' k = w k)
    {f : Bytes → Spec.HashLog → List (SignalCredentialPresentation G) → ℚ} (A : Spec.Gang G N) :
    ∀ (l : Spec.HashLog) (ps : List (Fin N × SignalCredentialPresentation G)) (n M : ℕ), A.Within n → n ≤ M →
      (A.checked i).expect (fun k => Spec.memberShow O sp (Scalar.ofF x0) (Scalar.ofF x1) (w k))
        (fun b l ps => f b l (Spec.sentBy j ps)) l ps =
      Spec.mean fun s : Fin M → Spec.PlayCoins =>
        ((A.mole sp x0 x1 j w' (Spec.stretch s)).checked i).expect
          (Spec.memberShow O sp (Scalar.ofF x0) (Scalar.ofF x1) (w j)) f l (Spec.sentBy j ps) := by
  induction A with
  | out b =>
    intro l ps n M _ _
    exact (Sim.mean_const (α := Fin M → Spec.PlayCoins) _).symm
  | ask t next ih =>
    rintro l ps _ M ⟨n, rfl, hn⟩ hM
    simp only [Spec.Gang.checked, Spec.Gang.expect, Spec.Gang.mole, Spec.Thief.checked, Spec.Thief.expect]
    rw [Sim.mean_comm]
    exact Sim.mean_congr fun a => ih _ _ ps n M (hn _) (by omega)
  | watch k next ih =>
    rintro l ps _ M ⟨n, rfl, hn⟩ hM
    by_cases hk : k = j
    · subst hk
      simp only [Spec.Gang.checked, Spec.Gang.expect, Spec.Gang.mole, if_true, Spec.Thief.checked, Spec.Thief.expect,
        show_step]
      conv_rhs => rw [Sim.mean_comm]
      refine Sim.mean_congr fun c => ?_
      conv_rhs => rw [Sim.mean_comm]
      refine Sim.mean_congr fun a => ?_
      conv_rhs => rw [Sim.mean_comm]
      refine Sim.mean_congr fun a' => ?_
      refine (ih _ _ ((k, _) :: ps) n M (hn _) (by omega)).trans (Sim.mean_congr fun s => ?_)
      simp [Spec.sentBy]
    · obtain ⟨M, rfl⟩ : ∃ M', M = M' + 1 := ⟨M - 1, by omega⟩
      simp only [Spec.Gang.checked, Spec.Gang.expect, Spec.Gang.mole, if_neg hk, Spec.Thief.checked, Spec.Thief.expect]
      rw [show_step]
      let K : Spec.PlayCoins → (ℕ → Spec.PlayCoins) → ℚ := fun c c' =>
        Spec.mean fun a => Spec.mean fun a' =>
          (((next ((w' k).played sp x0 x1 c ((l.lookup ((w' k).query sp x1 c)).getD a)
            (((l.asked ((w' k).query sp x1 c) a).lookup ((w' k).query' sp c)).getD a'))).mole sp x0 x1 j w' c').checked
            i).expect (Spec.memberShow O sp (Scalar.ofF x0) (Scalar.ofF x1) (w j)) f
            ((l.asked ((w' k).query sp x1 c) a).asked ((w' k).query' sp c) a') (Spec.sentBy j ps)
      refine Eq.trans ?_ (Deputy.mean_cons (N := M) K).symm
      refine Sim.mean_congr fun c => ?_
      dsimp only [K]
      rw [hw k hk]
      conv_rhs => rw [Sim.mean_comm]
      refine Sim.mean_congr fun a => ?_
      conv_rhs => rw [Sim.mean_comm]
      refine Sim.mean_congr fun a' => ?_
      refine (ih _ _ ((k, _) :: ps) n M (hn _) (by omega)).trans (Sim.mean_congr fun s => ?_)
      simp [Spec.sentBy, hk]

end

/-- Drawing one of several values again. -/
theorem mean_update (j : Fin N) (g : (Fin N → F) → ℚ) :
    (Spec.mean fun p : (Fin N → F) × F => g (Function.update p.1 j p.2)) = Spec.mean g := by
  let e : (Fin N → F) × F ≃ (Fin N → F) × F :=
    { toFun := fun p => (Function.update p.1 j p.2, p.1 j)
      invFun := fun p => (Function.update p.1 j p.2, p.1 j)
      left_inv := fun p => by simp
      right_inv := fun p => by simp }
  refine Eq.trans ?_ (Reduction.mean_fst (γ := F) g)
  exact Sim.mean_equiv e fun p : (Fin N → F) × F => g p.1

end Gang

/-! ## C103 -/

/-- **C103** for any number of users: the probability that an adversary is accepted for the roster entry of any of them, with
something that this user did not send, is at most the sum, over the users, of the probabilities of `C103_reduction` for
adversaries with the same number of hash queries, to which `C103_reduction` and `C103_bound` apply. -/
theorem C103_many {S Ω : Type} [Fintype S] [Nonempty S] [Fintype Ω] [Nonempty Ω] (O : Oracle)
    (sp : S → SystemParameters G) (A : Spec.Gangsters G Ω N) (T : ℕ)
    (hA : ∀ σ k ω E, ((A (sp σ) k ω).2 E).Within T) :
    Spec.gangWins O sp A ≤ ∑ j, Spec.thiefWins O sp (A.mole T j) ∧
    ∀ j σ k ω E, ((A.mole T j (sp σ) k ω).2 E).Within T := by
  classical
  refine ⟨?_, fun j σ k ω E => Gang.mole_within _ _ T (hA _ _ _ _)⟩
  let V : Fin N → S → Ω → F × F → (Fin N → F) → ℚ := fun j σ ω k z =>
    let i := Spec.issuerOf (sp σ) k.1 k.2
    let a := A (sp σ) k ω
    let E := fun k => (a.1 k).entry (sp σ) (z k)
    ((a.2 E).checked i).expect
      (fun n => Spec.memberShow O (sp σ) (Scalar.ofF k.1) (Scalar.ofF k.2) ((a.1 n).member (z n)))
      (fun b l ps => if Spec.Stolen (l.oracle O) i (E j) b (Spec.sentBy j ps) then 1 else 0) [] []
  have h1 : Spec.gangWins O sp A ≤ ∑ j, Spec.mean fun x : S × (Ω × (Fin N → F)) × F × F =>
      V j x.1 x.2.1.1 x.2.2 x.2.1.2 := by
    rw [← Reduction.mean_sum]
    refine Sim.mean_mono fun x => Gang.union (fun b l ps => ?_) _ _ _
    split
    · rename_i h
      obtain ⟨j, hj⟩ := h
      refine le_trans ?_ (Finset.single_le_sum (fun k _ => ?_) (Finset.mem_univ j))
      · rw [if_pos hj]
      · split <;> norm_num
    · exact Finset.sum_nonneg fun k _ => by split <;> norm_num
  refine h1.trans (le_of_eq (Finset.sum_congr rfl fun j _ => ?_))
  -- the mean over all openings, with that of `j` drawn again
  have h2 : (Spec.mean fun x : S × (Ω × (Fin N → F)) × F × F => V j x.1 x.2.1.1 x.2.2 x.2.1.2) =
      Spec.mean fun σ : S => Spec.mean fun ω : Ω => Spec.mean fun z : Fin N → F => Spec.mean fun y : F =>
        Spec.mean fun k : F × F => V j σ ω k (Function.update z j y) := by
    rw [Tagging.mean_prod (α := S)]
    refine Sim.mean_congr fun σ => ?_
    rw [Tagging.mean_prod (α := Ω × (Fin N → F)), Tagging.mean_prod (α := Ω)]
    refine Sim.mean_congr fun ω => ?_
    rw [← Gang.mean_update j, Tagging.mean_prod (α := Fin N → F)]
  rw [h2]
  unfold Spec.thiefWins
  rw [Tagging.mean_prod (α := S)]
  refine Sim.mean_congr fun σ => ?_
  rw [Tagging.mean_prod (α := (Ω × (Fin N → F) × (Fin T → Spec.PlayCoins)) × F),
    Tagging.mean_prod (α := Ω × (Fin N → F) × (Fin T → Spec.PlayCoins)), Tagging.mean_prod (α := Ω)]
  refine Sim.mean_congr fun ω => ?_
  rw [Tagging.mean_prod (α := Fin N → F)]
  refine Sim.mean_congr fun z => ?_
  conv_rhs => rw [Sim.mean_comm]
  refine Sim.mean_congr fun y => ?_
  conv_rhs => rw [Sim.mean_comm]
  refine Sim.mean_congr fun k => ?_
  have hz : ∀ n, n ≠ j → ((A (sp σ) k ω).1 n).member (z n) =
      ((A (sp σ) k ω).1 n).member (Function.update z j y n) := fun n hn => by rw [Function.update_of_ne hn]
  have h3 := Gang.mole_expect (O := O) (sp := sp σ) (x0 := k.1) (x1 := k.2) (Spec.issuerOf (sp σ) k.1 k.2) j hz
    (f := fun b l ps => if Spec.Stolen (l.oracle O) (Spec.issuerOf (sp σ) k.1 k.2)
      (((A (sp σ) k ω).1 j).entry (sp σ) (Function.update z j y j)) b ps then 1 else 0)
    ((A (sp σ) k ω).2 fun n => ((A (sp σ) k ω).1 n).entry (sp σ) (Function.update z j y n)) [] [] T T (hA _ _ _ _) le_rfl
  refine h3.trans (Sim.mean_congr fun s => ?_)
  have e : (fun n => ((A (sp σ) k ω).1 n).entry (sp σ) (Function.update z j y n)) =
      Function.update (fun n => ((A (sp σ) k ω).1 n).entry (sp σ) (z n)) j (((A (sp σ) k ω).1 j).entry (sp σ) y) := by
    funext n
    by_cases hn : n = j
    · subst hn
      simp
    · simp [hn]
  rw [e, Function.update_self]
  rfl

/-- **C103** for any number of users, as a bound: `N` times that of `C103_bound`. -/
theorem C103_many_bound {S Ω : Type} [Fintype S] [Nonempty S] [Fintype Ω] [Nonempty Ω] (O : Oracle)
    (sp : S → SystemParameters G) (hg : ∀ σ, (sp σ).g ≠ 0) (hh : ∀ σ, (sp σ).h ≠ 0) (A : Spec.Gangsters G Ω N) (T : ℕ)
    (hA : ∀ σ k ω E, ((A (sp σ) k ω).2 E).Within T) (t u : ℚ) (ht : 0 ≤ t) (hu : 0 ≤ u)
    (ho : ∀ j, Spec.openerWins sp (A.mole T j) T ≤ t ^ 2 / (2 * (T + 2)))
    (hl : ∀ j, Spec.robberFinderWins sp (A.mole T j) T ≤ u ^ 2 / (4 * (T + 2))) :
    Spec.gangWins O sp A ≤ N * (t + u + 3 * (T + 2) ^ 2 / ell + 4 * (T + 2) / 2 ^ 252) := by
  obtain ⟨h1, h2⟩ := C103_many O sp A T hA
  refine h1.trans ((Finset.sum_le_sum fun j _ => C103_bound O sp hg hh (A.mole T j) T (h2 j) t u ht hu (ho j) (hl j)).trans
    (le_of_eq ?_))
  rw [Finset.sum_const, Finset.card_univ, Fintype.card_fin, nsmul_eq_mul]

/-- The adversary of `Theft` against a single user. -/
def Spec.Thief.gang : Spec.Thief G → Spec.Gang G 1
  | .out b => .out b
  | .ask t next => .ask t fun a => (next a).gang
  | .watch next => .watch 0 fun p => (next p).gang

/-- **C103**: with one user the game is that of `C103_reduction`. -/
theorem C103_many_includes {S Ω : Type} [Fintype S] [Fintype Ω] (O : Oracle) (sp : S → SystemParameters G)
    (A : Spec.Robber G Ω) :
    Spec.gangWins (N := 1) O sp (fun sp k ω => (fun _ => (A sp k ω).1, fun E => ((A sp k ω).2 (E 0)).gang)) =
      Spec.thiefWins O sp A := by
  classical
  unfold Spec.gangWins Spec.thiefWins
  rw [Tagging.mean_prod (α := S), Tagging.mean_prod (α := S)]
  refine Sim.mean_congr fun σ => ?_
  rw [Tagging.mean_prod (α := Ω × (Fin 1 → F)), Tagging.mean_prod (α := Ω), Tagging.mean_prod (α := Ω × F),
    Tagging.mean_prod (α := Ω)]
  refine Sim.mean_congr fun ω => ?_
  rw [← Sim.mean_equiv (Equiv.funUnique (Fin 1) F)]
  refine Sim.mean_congr fun z => Sim.mean_congr fun k => ?_
  dsimp only [Equiv.funUnique_apply]
  have key : ∀ (B : Spec.Thief G) (E : Fin 1 → G) (w : Fin 1 → Spec.Member) (l : Spec.HashLog)
      (ps : List (Fin 1 × SignalCredentialPresentation G)),
      (B.gang.checked (Spec.issuerOf (sp σ) k.1 k.2)).expect
        (fun n => Spec.memberShow O (sp σ) (Scalar.ofF k.1) (Scalar.ofF k.2) (w n))
        (fun b l ps => if ∃ j, Spec.Stolen (l.oracle O) (Spec.issuerOf (sp σ) k.1 k.2) (E j) b (Spec.sentBy j ps)
          then (1 : ℚ) else 0) l ps =
      (B.checked (Spec.issuerOf (sp σ) k.1 k.2)).expect
        (Spec.memberShow O (sp σ) (Scalar.ofF k.1) (Scalar.ofF k.2) (w 0))
        (fun b l ps => if Spec.Stolen (l.oracle O) (Spec.issuerOf (sp σ) k.1 k.2) (E 0) b ps then 1 else 0) l
        (Spec.sentBy 0 ps) := by
    intro B E w
    induction B with
    | out b =>
      intro l ps
      simp only [Spec.Thief.gang, Spec.Gang.checked, Spec.Gang.expect, Spec.Thief.checked, Spec.Thief.expect]
      refine Sim.mean_congr fun a => Sim.mean_congr fun a' => if_congr ?_ rfl rfl
      exact ⟨fun ⟨j, hj⟩ => by rwa [Subsingleton.elim j 0] at hj, fun h => ⟨0, h⟩⟩
    | ask t next ih => intro l ps; exact Sim.mean_congr fun a => ih _ _ _
    | watch next ih =>
      intro l ps
      simp only [Spec.Thief.gang, Spec.Gang.checked, Spec.Gang.expect, Spec.Thief.checked, Spec.Thief.expect]
      congr 1
      funext l' p
      rw [ih]
      simp [Spec.sentBy]
  exact key _ _ _ [] []

/-! ## Examples -/

set_option synthInstance.maxSize 1000 in
/-- An adversary that watches two users, whose number is 8, and then sends nothing. With `t = 2⁻¹⁰⁰` and `u = 0` it
satisfies the hypotheses of `C103_many_bound`. -/
example : let w : Spec.Owner := ⟨⟨8, by decide +kernel⟩, 1, one_ne_zero⟩
    let A : Spec.Gangsters F Unit 2 := fun _ _ _ => (fun _ => w, fun _ => .watch 1 fun _ => .watch 0 fun _ => .out [])
    (∀ k ω E, ((A ⟨1, 4⟩ k ω).2 E).Within 4) ∧
    (∀ j, Spec.openerWins (fun _ : Unit => (⟨1, 4⟩ : SystemParameters F)) (A.mole 4 j) 4 ≤
      (1 / 2 ^ 100) ^ 2 / (2 * ((4 : ℕ) + 2))) ∧
    ∀ j, Spec.robberFinderWins (fun _ : Unit => (⟨1, 4⟩ : SystemParameters F)) (A.mole 4 j) 4 ≤
      0 ^ 2 / (4 * ((4 : ℕ) + 2)) := by
  intro w A
  refine ⟨fun _ _ _ => ⟨2, rfl, fun _ => ⟨0, rfl, fun _ => trivial⟩⟩, fun j => ?_, fun j => ?_⟩
  · have e : Spec.openerWins (fun _ : Unit => (⟨1, 4⟩ : SystemParameters F)) (A.mole 4 j) 4 = 1 / ell := by
      unfold Spec.openerWins
      have g (f : F → ℚ) : (Spec.mean fun x : Unit × ((Unit × (Fin 2 → F) × (Fin 4 → Spec.PlayCoins)) × F) × F × F =>
          f x.2.1.2) = Spec.mean f := by
        rw [Tagging.mean_prod]
        refine Eq.trans (Sim.mean_congr (g := fun _ => Spec.mean f) fun a => ?_) (Sim.mean_const (α := Unit) (Spec.mean f))
        rw [Tagging.mean_prod]
        refine Eq.trans (Sim.mean_congr (g := fun b : (Unit × (Fin 2 → F) × (Fin 4 → Spec.PlayCoins)) × F => f b.2)
          fun b => Sim.mean_const (α := F × F) (f b.2)) ?_
        exact Echo.mean_snd (β := Unit × (Fin 2 → F) × (Fin 4 → Spec.PlayCoins)) f
      refine Eq.trans (Sim.mean_congr (g := fun x : Unit × ((Unit × (Fin 2 → F) × (Fin 4 → Spec.PlayCoins)) × F) × F × F =>
        if x.2.1.2 = -32 then (1 : ℚ) else 0) fun x => ?_) (Eq.trans (g fun z => if z = -32 then (1 : ℚ) else 0) ?_)
      · refine Eq.trans (Sim.mean_congr (g := fun _ => if x.2.1.2 = -32 then (1 : ℚ) else 0) fun s => ?_)
          (Sim.mean_const (if x.2.1.2 = -32 then (1 : ℚ) else 0))
        have o : ∀ E s s', Spec.opener (⟨1, 4⟩ : SystemParameters F) x.2.2.1 x.2.2.2 E
            ((A.mole 4 j ⟨1, 4⟩ x.2.2 x.2.1.1).2 E) s s' = (0, 0) := by
          intro E s s'
          fin_cases j <;> rfl
        simp only [o]
        refine if_congr ?_ rfl rfl
        rw [Spec.Owner.entry]
        have hw : (A.mole 4 j ⟨1, 4⟩ x.2.2 x.2.1.1).1.m.val = 8 := by
          change (⟨8, by decide +kernel⟩ : Scalar).val = 8
          decide +kernel
        rw [hw]
        simp only [smul_eq_mul, zero_mul, mul_one, add_zero]
        rw [add_eq_zero_iff_neg_eq, eq_comm]
        norm_num
      · unfold Spec.mean
        rw [Finset.sum_ite_eq' Finset.univ, if_pos (Finset.mem_univ _), ZMod.card]
    have : (2 : ℚ) ^ 252 ≤ ell := by exact_mod_cast (by decide +kernel : 2 ^ 252 ≤ ell)
    rw [e]
    refine (one_div_le_one_div_of_le (by positivity) this).trans ?_
    norm_num
  · have e : Spec.robberFinderWins (fun _ : Unit => (⟨1, 4⟩ : SystemParameters F)) (A.mole 4 j) 4 = 0 := by
      unfold Spec.robberFinderWins
      refine (Sim.mean_congr fun x => ?_).trans (Sim.mean_const 0)
      refine (Sim.mean_congr fun c => ?_).trans (Sim.mean_const 0)
      rw [if_neg]
      rintro ⟨y, hy, -⟩
      unfold Spec.finder at hy
      dsimp only at hy
      have run : ∀ s : ℕ → Spec.RunCell, (Spec.Onlooker.run ⟨1, 4⟩ x.2.2.1 x.2.2.2 s (Spec.Onlooker.checked
          (Spec.issuerOf ⟨1, 4⟩ x.2.2.1 x.2.2.2) ((A.mole 4 j).onlooker ⟨1, 4⟩ x.2.2 x.2.1)) [] []).1.presentation F =
          none := by
        intro s
        fin_cases j <;> rfl
      rw [run] at hy
      cases hy
    rw [e]
    norm_num

end Verif
