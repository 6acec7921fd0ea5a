import Verif.Props.Consortium
import Verif.Props.Coiner

/-!
# C105 for the whole program

Parameters from `hunt_and_peck`, keys of any number of issuers from `Issuer::create`, issuances from `Issuer::issue` and
presentations from `SignalUser::show` with their own generators, which the adversary may read as well.
-/

set_option maxRecDepth 100000
set_option exponentiation.threshold 300

namespace Verif

open Amacs

variable {G : Type} [AddCommGroup G] [Module F G] [Ristretto G] {N : ℕ} {Out : Type}

/-! ## The game -/

/-- An adversary that asks the hash, reads transcript generators, gets attributes issued by any of `N` issuers, watches users
of any of them present, learns secret keys, and finally attacks the issuer `j`. -/
inductive Spec.Syndicate (G : Type) (N : ℕ) (Out : Type) where
  | out (j : Fin N) (o : Out)
  | ask (t : Transcript) (next : Spec.Answer → Spec.Syndicate G N Out)
  | read (q : Spec.Read) (next : Spec.Answer → Spec.Syndicate G N Out)
  | issue (k : Fin N) (m : Scalar) (next : CredentialIssuance G → Spec.Syndicate G N Out)
  | watch (k : Fin N) (w : Spec.Member) (next : SignalCredentialPresentation G → Spec.Syndicate G N Out)
  | corrupt (k : Fin N) (next : F × F → Spec.Syndicate G N Out)

/-- At most `q` hash queries and `s` reads by the adversary, and `n` issuances and presentations. -/
def Spec.Syndicate.Within : Spec.Syndicate G N Out → ℕ → ℕ → ℕ → Prop
  | .out _ _, _, _, _ => True
  | .ask _ next, q, s, n => ∃ q', q = q' + 1 ∧ ∀ a, (next a).Within q' s n
  | .read _ next, q, s, n => ∃ s', s = s' + 1 ∧ ∀ a, (next a).Within q s' n
  | .issue _ _ next, q, s, n => ∃ n', n = n' + 1 ∧ ∀ c, (next c).Within q s n'
  | .watch _ _ next, q, s, n => ∃ n', n = n' + 1 ∧ ∀ p, (next p).Within q s n'
  | .corrupt _ next, q, s, n => ∀ x, (next x).Within q s n

/-- The issuer `k` issues no attribute in `V k` to the adversary. -/
def Spec.Syndicate.Avoids (V : Fin N → Set F) : Spec.Syndicate G N Out → Prop
  | .out _ _ => True
  | .ask _ next => ∀ a, (next a).Avoids V
  | .read _ next => ∀ a, (next a).Avoids V
  | .issue k m next => m.val ∉ V k ∧ ∀ c, (next c).Avoids V
  | .watch _ _ next => ∀ p, (next p).Avoids V
  | .corrupt _ next => ∀ x, (next x).Avoids V

/-- Somebody who sends something: an issuer, or a user of it. -/
abbrev Spec.Party (N : ℕ) := Fin N × (Scalar ⊕ Spec.Member)

/-- The adversary together with the check `fin` of what it sends. -/
def Spec.Syndicate.watcher (key : Fin N → F × F)
    (fin : Fin N → Out → Spec.Seen G N → Spec.Watcher (Spec.Party N) fun x => Spec.Sent G x.2) :
    Spec.Syndicate G N Out → Spec.Seen G N → Spec.Watcher (Spec.Party N) fun x => Spec.Sent G x.2
  | .out j o, s => fin j o s
  | .ask t next, s => .ask t fun a => (next a).watcher key fin s
  | .read q next, s => .read q fun a => (next a).watcher key fin s
  | .issue k m next, s => .request (k, .inl m) fun c => (next c).watcher key fin { s with cs := (k, c) :: s.cs }
  | .watch k w next, s => .request (k, .inr w) fun p => (next p).watcher key fin { s with ps := (k, p) :: s.ps }
  | .corrupt k next, s => (next (key k)).watcher key fin { s with bad := k :: s.bad }

open Classical in
/-- The issuer `i j` checks a presentation. -/
noncomputable def Spec.checkShow (O : Oracle) (i : Fin N → Issuer G) (V : Fin N → Set F) (j : Fin N) (o : Spec.Attempt)
    (s : Spec.Seen G N) : Spec.Watcher (Spec.Party N) fun x => Spec.Sent G x.2 :=
  if j ∈ s.bad then .done false else
    .ask (o.query (i j) 0) fun a => .ask (o.query (i j) 1) fun b =>
      .done (decide (o.Good (Spec.HashLog.oracle O [(o.query (i j) 0, a), (o.query (i j) 1, b)]) (i j) (V j) ∧
        ¬ o.Copies (Spec.sentBy j s.ps)))

open Classical in
/-- A user of the issuer with the public key `X j` checks an issuance. -/
noncomputable def Spec.checkIssue (O : Oracle) (sp : SystemParameters G) (X : Fin N → G) (j : Fin N) (b : Bytes)
    (s : Spec.Seen G N) : Spec.Watcher (Spec.Party N) fun x => Spec.Sent G x.2 :=
  if j ∈ s.bad then .done false else
    .ask (Spec.mintQuery sp (X j) b) fun a =>
      .done (decide (Spec.Minted (Spec.HashLog.oracle O [(Spec.mintQuery sp (X j) b, a)]) (User.new sp ⟨[X j]⟩ none) b
        (Spec.issuedBy j s.cs)))

/-- The secret key of an issuer with one attribute. -/
def Spec.keyOf (i : Issuer G) : Scalar × Scalar := (i.keypair.secretKey.x0, i.keypair.secretKey.xn.headD 0)

/-- Its public key. -/
def Spec.publicOf (i : Issuer G) : G := i.keypair.publicKey.Xn.headD 0

/-- The probability that the adversary succeeds against these issuers, who run `Issuer::issue`, and whose users run
`SignalUser::show`. -/
noncomputable def Spec.Syndicate.against (sp : SystemParameters G) (i : Fin N → Issuer G)
    (fin : Fin N → Out → Spec.Seen G N → Spec.Watcher (Spec.Party N) fun x => Spec.Sent G x.2)
    (A : SystemParameters G → (Fin N → G) → Spec.Syndicate G N Out) : ℚ :=
  ((A sp fun k => Spec.publicOf (i k)).watcher (fun k => ((Spec.keyOf (i k)).1.val, (Spec.keyOf (i k)).2.val)) fin
    ⟨[], [], []⟩).yesRun
    (fun x : Spec.Party N => Spec.sends sp (Spec.keyOf (i x.1)).1 (Spec.keyOf (i x.1)).2 x.2) [] []

/-- The probability that an adversary gets accepted by an issuer `j` that it did not corrupt, for a number in `V j`, without
repeating a presentation by a user of `j`, if the parameters are from `hunt_and_peck` with at most `M` draws of uniform bytes,
and the keys from `Issuer::create` with uniform bytes. If `hunt_and_peck` needs more draws the adversary does not succeed. -/
noncomputable def Spec.syndicateWins {Ω : Type} [Fintype Ω] (O : Oracle) (M : ℕ)
    (A : SystemParameters G → (Fin N → G) → Ω → Spec.Syndicate G N Spec.Attempt) (V : Fin N → Set F) : ℚ :=
  Spec.mean fun x : Hunt.Tape M × Ω × (Fin N → Spec.Answer × Spec.Answer) =>
    match SystemParameters.huntAndPeck (G := G) M (⟨x.1, 0⟩ : Hunt.TapeRng M) with
    | none => 0
    | some (sp, _) =>
      let i := fun k => (Issuer.create sp (⟨[(x.2.2 k).1, (x.2.2 k).2]⟩ : Spec.WideRng)).1
      Spec.Syndicate.against sp i (Spec.checkShow O i V) fun sp X => A sp X x.2.1

/-- The probability that an adversary makes a new issuance of an issuer that it did not corrupt, in the same setting. -/
noncomputable def Spec.syndicateMints {Ω : Type} [Fintype Ω] (O : Oracle) (M : ℕ)
    (A : SystemParameters G → (Fin N → G) → Ω → Spec.Syndicate G N Bytes) : ℚ :=
  Spec.mean fun x : Hunt.Tape M × Ω × (Fin N → Spec.Answer × Spec.Answer) =>
    match SystemParameters.huntAndPeck (G := G) M (⟨x.1, 0⟩ : Hunt.TapeRng M) with
    | none => 0
    | some (sp, _) =>
      let i := fun k => (Issuer.create sp (⟨[(x.2.2 k).1, (x.2.2 k).2]⟩ : Spec.WideRng)).1
      Spec.Syndicate.against sp i (Spec.checkIssue O sp fun k => Spec.publicOf (i k)) fun sp X => A sp X x.2.1

/-- The adversary that asks the hash instead of reading generators. -/
def Spec.Syndicate.pack : Spec.Syndicate G N Out → Spec.Consort G N Out
  | .out j o => .out j o
  | .ask t next => .ask (Forge.askedT t) fun a => (next a).pack
  | .read q next => .ask (Forge.packedT q) fun a => (next a).pack
  | .issue k m next => .issue k m fun c => (next c).pack
  | .watch k w next => .watch k w fun p => (next p).pack
  | .corrupt k next => .corrupt k fun x => (next x).pack

namespace Consort

omit [AddCommGroup G] [Module F G] [Ristretto G] in
theorem within_mono (A : Spec.Consort G N Out) : ∀ n n', n ≤ n' → A.Within n → A.Within n' := by
  induction A with
  | out j o => exact fun _ _ _ _ => trivial
  | ask t next ih => rintro _ n' hn ⟨n, rfl, h⟩; exact ⟨n' - 1, by omega, fun a => ih a n _ (by omega) (h a)⟩
  | issue k m next ih => rintro _ n' hn ⟨n, rfl, h⟩; exact ⟨n' - 1, by omega, fun a => ih a n _ (by omega) (h a)⟩
  | watch k w next ih => rintro _ n' hn ⟨n, rfl, h⟩; exact ⟨n' - 2, by omega, fun a => ih a n _ (by omega) (h a)⟩
  | corrupt k next ih => exact fun n n' hn h x => ih x n n' hn (h x)

omit [AddCommGroup G] [Module F G] [Ristretto G] in
theorem pack_within (A : Spec.Syndicate G N Out) : ∀ q s n, A.Within q s n → A.pack.Within (q + s + 2 * n) := by
  induction A with
  | out j o => intros; trivial
  | ask t next ih => rintro _ s n ⟨q, rfl, h⟩; exact ⟨q + s + 2 * n, by omega, fun a => ih a q s n (h a)⟩
  | read t next ih => rintro q _ n ⟨s, rfl, h⟩; exact ⟨q + s + 2 * n, by omega, fun a => ih a q s n (h a)⟩
  | issue k m next ih =>
    rintro q s _ ⟨n, rfl, h⟩
    exact ⟨q + s + 2 * n + 1, by omega, fun a => within_mono _ _ _ (by omega) (ih a q s n (h a))⟩
  | watch k w next ih => rintro q s _ ⟨n, rfl, h⟩; exact ⟨q + s + 2 * n, by omega, fun a => ih a q s n (h a)⟩
  | corrupt k next ih => exact fun q s n h x => ih x q s n (h x)

omit [AddCommGroup G] [Module F G] [Ristretto G] in
theorem pack_avoids {V : Fin N → Set F} (A : Spec.Syndicate G N Out) : A.Avoids V → A.pack.Avoids V := by
  induction A with
  | out j o => intros; trivial
  | ask t next ih => exact fun h a => ih a (h a)
  | read t next ih => exact fun h a => ih a (h a)
  | issue k t next ih => exact fun h => ⟨h.1, fun a => ih a (h.2 a)⟩
  | watch k t next ih => exact fun h a => ih a (h a)
  | corrupt k next ih => exact fun h a => ih a (h a)

omit [AddCommGroup G] [Module F G] [Ristretto G] in
theorem watcher_within {key : Fin N → F × F}
    {fin : Fin N → Out → Spec.Seen G N → Spec.Watcher (Spec.Party N) fun x => Spec.Sent G x.2}
    (hf : ∀ j o s q r n, (fin j o s).Within (q + 2) r n) (A : Spec.Syndicate G N Out) : ∀ s q r n, A.Within q r n →
      (A.watcher key fin s).Within (q + 2) r n := by
  induction A with
  | out j o => intro s q r n _; exact hf _ _ _ _ _ _
  | ask t next ih => rintro s _ r n ⟨q, rfl, h⟩; exact ⟨q + 2, rfl, fun a => ih a s q r n (h a)⟩
  | read t next ih => rintro s q _ n ⟨r, rfl, h⟩; exact ⟨r, rfl, fun a => ih a s q r n (h a)⟩
  | issue k m next ih => rintro s q r _ ⟨n, rfl, h⟩; exact ⟨n, rfl, fun a => ih a _ q r n (h a)⟩
  | watch k w next ih => rintro s q r _ ⟨n, rfl, h⟩; exact ⟨n, rfl, fun a => ih a _ q r n (h a)⟩
  | corrupt k next ih => exact fun s q r n h => ih _ _ q r n (h _)

/-- Issuers and users with uniform randomness. -/
noncomputable def honestly (O : Oracle) (sp : SystemParameters G) (key : Fin N → Scalar × Scalar) :
    Spec.Server (Spec.Party N) fun x => Spec.Sent G x.2 :=
  fun x => Onlooker.honestly O sp (key x.1).1 (key x.1).2 x.2

/-- The same, with the coins of the code. -/
noncomputable def drawing (O : Oracle) (sp : SystemParameters G) (key : Fin N → Scalar × Scalar) :
    Spec.Server (Spec.Party N) fun x => Spec.Sent G x.2 :=
  fun x => Onlooker.drawing O sp (key x.1).1 (key x.1).2 x.2

theorem drawing_alike (O : Oracle) (sp : SystemParameters G) (key : Fin N → Scalar × Scalar) :
    Coins.Alike (9 * Coins.bias) (drawing O sp key) (honestly O sp key) where
  range x := (Onlooker.drawing_alike O sp (key x.1).1 (key x.1).2).range x.2
  alike x := (Onlooker.drawing_alike O sp (key x.1).1 (key x.1).2).alike x.2

theorem code_le (O : Oracle) (sp : SystemParameters G) (key : Fin N → Scalar × Scalar)
    (A : Spec.Watcher (Spec.Party N) fun x => Spec.Sent G x.2) {q s n : ℕ} (hA : A.Within q s n) :
    |A.yesRun (fun x : Spec.Party N => Spec.sends sp (key x.1).1 (key x.1).2 x.2) [] [] - A.yes (honestly O sp key) [] []| ≤
      9 * n / 2 ^ 259 + 3 * n * (2 * s + 8 * n + 3) / 2 ^ 256 := by
  have h1 := Sim.watcher_advantage (fun x : Spec.Party N => Spec.sends (G := G) sp (key x.1).1 (key x.1).2 x.2)
    (fun x => Onlooker.sends_distinct sp _ _ x.2) (fun x => Onlooker.sends_within sp _ _ x.2) A hA
  have e : (fun (x : Spec.Party N) l k => (Spec.sends (G := G) sp (key x.1).1 (key x.1).2 x.2).ideal l k) =
      drawing O sp key := by
    funext x l k
    exact congrFun (congrFun (congrFun (Onlooker.sends_ideal O sp (key x.1).1 (key x.1).2) x.2) l) k
  rw [e] at h1
  have h2 := Code.alike_watcher (mul_nonneg (by norm_num) Coins.bias_nonneg) (drawing_alike O sp key) A [] [] q s n hA
  rw [Coins.scale] at h2
  refine (abs_sub_le _ (A.yes (drawing O sp key) [] []) _).trans ((add_le_add h1 h2).trans (le_of_eq ?_))
  push_cast
  ring

/-- Reading generators and asking the hash are alike. -/
theorem pack_yes (O : Oracle) {sp : SystemParameters G} {key : Fin N → F × F}
    {fin : Fin N → Out → Spec.Seen G N → Spec.Watcher (Spec.Party N) fun x => Spec.Sent G x.2}
    {f : Fin N → Out → Spec.HashLog → Spec.Seen G N → ℚ}
    (hf : ∀ j o s l h r, Forge.Rel l h r →
      (fin j o s).yes (honestly O sp fun k => (Scalar.ofF (key k).1, Scalar.ofF (key k).2)) h r = f j o l s)
    (A : Spec.Syndicate G N Out) : ∀ (l h : Spec.HashLog) (r : Spec.ReadLog) (s : Spec.Seen G N), Forge.Rel l h r →
      (A.watcher key fin s).yes (honestly O sp fun k => (Scalar.ofF (key k).1, Scalar.ofF (key k).2)) h r =
        A.pack.expect O sp key f l s := by
  induction A with
  | out j o => intro l h r s hr; exact hf j o s l h r hr
  | ask t next ih =>
    intro l h r s hr
    simp only [Spec.Syndicate.watcher, Spec.Syndicate.pack, Spec.Consort.expect, Spec.Watcher.yes]
    refine Sim.mean_congr fun a => ?_
    rw [hr.1 t]
    exact ih _ _ _ _ _ (hr.hash t a)
  | read q next ih =>
    intro l h r s hr
    simp only [Spec.Syndicate.watcher, Spec.Syndicate.pack, Spec.Consort.expect, Spec.Watcher.yes]
    refine Sim.mean_congr fun a => ?_
    rw [hr.2 q]
    exact ih _ _ _ _ _ (hr.read q a)
  | issue k m next ih =>
    intro l h r s hr
    simp only [Spec.Syndicate.watcher, Spec.Syndicate.pack, Spec.Consort.expect, Spec.Watcher.yes, honestly,
      Onlooker.honestly]
    exact Onlooker.issue_rel O hr fun l' h' c hr' => ih c l' h' r _ hr'
  | watch k w next ih =>
    intro l h r s hr
    simp only [Spec.Syndicate.watcher, Spec.Syndicate.pack, Spec.Consort.expect, Spec.Watcher.yes, honestly,
      Onlooker.honestly]
    exact Onlooker.show_rel O hr fun l' h' p hr' => ih p l' h' r _ hr'
  | corrupt k next ih => intro l h r s hr; exact ih _ _ _ _ _ hr

theorem checkShow_yes (O : Oracle) {sp : SystemParameters G} {key : Fin N → F × F} (V : Fin N → Set F) (j : Fin N)
    (o : Spec.Attempt) (s : Spec.Seen G N) (l h : Spec.HashLog) (r : Spec.ReadLog) (hr : Forge.Rel l h r) :
    (Spec.checkShow O (fun k => Spec.issuerOf sp (key k).1 (key k).2) V j o s).yes
        (honestly O sp fun k => (Scalar.ofF (key k).1, Scalar.ofF (key k).2)) h r =
      if j ∈ s.bad then 0 else
        Spec.judgeShow O (Spec.issuerOf sp (key j).1 (key j).2) (V j) o l (Spec.sentBy j s.ps) := by
  unfold Spec.checkShow
  split
  · rfl
  · exact Onlooker.pack_yes O (sp := sp) (x0 := (key j).1) (x1 := (key j).2) (V := V j) (.out o) l h r
      (Spec.sentBy j s.ps) hr

theorem checkIssue_yes (O : Oracle) {sp : SystemParameters G} {key : Fin N → F × F} (j : Fin N)
    (o : Bytes) (s : Spec.Seen G N) (l h : Spec.HashLog) (r : Spec.ReadLog) (hr : Forge.Rel l h r) :
    (Spec.checkIssue O sp (fun k => (key k).2 • sp.h) j o s).yes
        (honestly O sp fun k => (Scalar.ofF (key k).1, Scalar.ofF (key k).2)) h r =
      if j ∈ s.bad then 0 else Spec.judgeIssue O sp ((key j).2 • sp.h) o l (Spec.issuedBy j s.cs) := by
  unfold Spec.checkIssue
  split
  · rfl
  · exact Mint.pack_yes O (sp := sp) (x0 := (key j).1) (x1 := (key j).2) (X := (key j).2 • sp.h) (.out o) l h r
      (Spec.issuedBy j s.cs) [] hr

omit [Ristretto G] in
theorem keyOf_issuerOf (sp : SystemParameters G) (x : F × F) :
    Spec.keyOf (Spec.issuerOf sp x.1 x.2) = (Scalar.ofF x.1, Scalar.ofF x.2) := rfl

omit [Ristretto G] in
theorem publicOf_issuerOf (sp : SystemParameters G) (x : F × F) :
    Spec.publicOf (Spec.issuerOf sp x.1 x.2) = x.2 • sp.h := rfl

/-- For given parameters and keys. -/
theorem against_le (O : Oracle) {sp : SystemParameters G} {key : Fin N → F × F}
    {fin : Fin N → Out → Spec.Seen G N → Spec.Watcher (Spec.Party N) fun x => Spec.Sent G x.2}
    {f : Fin N → Out → Spec.HashLog → Spec.Seen G N → ℚ}
    (hf : ∀ j o s l h r, Forge.Rel l h r →
      (fin j o s).yes (honestly O sp fun k => (Scalar.ofF (key k).1, Scalar.ofF (key k).2)) h r = f j o l s)
    (hw : ∀ j o s q r n, (fin j o s).Within (q + 2) r n)
    (A : SystemParameters G → (Fin N → G) → Spec.Syndicate G N Out) {q s n : ℕ}
    (hA : (A sp fun k => (key k).2 • sp.h).Within q s n) :
    |Spec.Syndicate.against sp (fun k => Spec.issuerOf sp (key k).1 (key k).2) fin A -
      (A sp fun k => (key k).2 • sp.h).pack.expect O sp key f [] ⟨[], [], []⟩| ≤
      9 * n / 2 ^ 259 + 3 * n * (2 * s + 8 * n + 3) / 2 ^ 256 := by
  have h := code_le O sp (fun k => (Scalar.ofF (key k).1, Scalar.ofF (key k).2)) _
    (watcher_within (key := key) hw (A sp fun k => (key k).2 • sp.h) ⟨[], [], []⟩ q s n hA)
  rw [pack_yes O hf _ [] [] [] _ ⟨fun _ => rfl, fun _ => rfl⟩] at h
  have e : (fun k => ((Scalar.ofF (key k).1).val, (Scalar.ofF (key k).2).val)) = key := by
    funext k
    rw [Scalar.val_ofF, Scalar.val_ofF]
  unfold Spec.Syndicate.against
  simp only [keyOf_issuerOf, publicOf_issuerOf]
  rw [e]
  exact h

theorem checkShow_within {O : Oracle} {i : Fin N → Issuer G} {V : Fin N → Set F} (j : Fin N) (o : Spec.Attempt)
    (s : Spec.Seen G N) (q r n : ℕ) : (Spec.checkShow O i V j o s).Within (q + 2) r n := by
  unfold Spec.checkShow
  split
  · trivial
  · exact ⟨q + 1, rfl, fun _ => ⟨q, rfl, fun _ => trivial⟩⟩

theorem checkIssue_within {O : Oracle} {sp : SystemParameters G} {X : Fin N → G} (j : Fin N) (o : Bytes)
    (s : Spec.Seen G N) (q r n : ℕ) : (Spec.checkIssue O sp X j o s).Within (q + 2) r n := by
  unfold Spec.checkIssue
  split
  · trivial
  · exact ⟨q + 1, rfl, fun _ => trivial⟩

/-- As `Setup.setup_le`, for any number of issuers. -/
theorem setup_le {Ω : Type} [Fintype Ω] [Nonempty Ω] (M : ℕ) (W : Ω → SystemParameters G → (Fin N → Issuer G) → ℚ)
    (hW : ∀ ω sp i, 0 ≤ W ω sp i ∧ W ω sp i ≤ 1) :
    |(Spec.mean fun x : Hunt.Tape M × Ω × (Fin N → Spec.Answer × Spec.Answer) =>
        match SystemParameters.huntAndPeck (G := G) M (⟨x.1, 0⟩ : Hunt.TapeRng M) with
        | none => 0
        | some (sp, _) => W x.2.1 sp fun k => (Issuer.create sp (⟨[(x.2.2 k).1, (x.2.2 k).2]⟩ : Spec.WideRng)).1) -
      Spec.mean fun x : Spec.Log × Ω × (Fin N → F × F) =>
        W x.2.1 (x.1.parameters G) fun k => Spec.issuerOf (x.1.parameters G) (x.2.2 k).1 (x.2.2 k).2| ≤
      (15 / 16) ^ M + 1 / (ell - 1) + N / 2 ^ 258 := by
  let w : SystemParameters G → ℚ := fun sp => Spec.mean fun x : Ω × (Fin N → Spec.Answer × Spec.Answer) =>
    W x.1 sp fun k => (Issuer.create sp (⟨[(x.2 k).1, (x.2 k).2]⟩ : Spec.WideRng)).1
  have e1 : (Spec.mean fun x : Hunt.Tape M × Ω × (Fin N → Spec.Answer × Spec.Answer) =>
        match SystemParameters.huntAndPeck (G := G) M (⟨x.1, 0⟩ : Hunt.TapeRng M) with
        | none => 0
        | some (sp, _) => W x.2.1 sp fun k => (Issuer.create sp (⟨[(x.2.2 k).1, (x.2.2 k).2]⟩ : Spec.WideRng)).1) =
      Spec.mean fun t : Hunt.Tape M =>
      match SystemParameters.huntAndPeck (G := G) M (⟨t, 0⟩ : Hunt.TapeRng M) with
      | none => 0
      | some (sp, _) => w sp := by
    rw [Tagging.mean_prod]
    refine Sim.mean_congr fun t => ?_
    dsimp only
    cases SystemParameters.huntAndPeck (G := G) M (⟨t, 0⟩ : Hunt.TapeRng M) with
    | none => exact Sim.mean_const (α := Ω × (Fin N → Spec.Answer × Spec.Answer)) 0
    | some x => rfl
  have e2 : ∀ sp, |w sp - Spec.mean fun x : Ω × (Fin N → F × F) =>
      W x.1 sp fun k => Spec.issuerOf sp (x.2 k).1 (x.2 k).2| ≤ N / 2 ^ 258 := fun sp => by
    rw [Tagging.mean_prod]
    have e3 : w sp = Spec.mean fun ω : Ω => Spec.mean fun x : Fin N → Spec.Answer × Spec.Answer =>
        (fun y : Fin N → F × F => W ω sp fun k => Spec.issuerOf sp (y k).1 (y k).2)
          fun k => (Spec.coin (x k).1.1, Spec.coin (x k).2.1) := by
      show Spec.mean _ = _
      rw [Tagging.mean_prod]
      refine Sim.mean_congr fun ω => Sim.mean_congr fun x => ?_
      dsimp only
      congr 1
      funext k
      rw [(C95_create sp (x k).1 (x k).2).1]
    rw [e3]
    refine Sim.abs_sub_mean_le fun ω => ?_
    have hn := (Sim.Near.pi fun _ : Fin N => Coins.near1.prod Coins.near1)
      (fun y : Fin N → F × F => W ω sp fun k => Spec.issuerOf sp (y k).1 (y k).2) fun y => hW _ _ _
    have hb : ∑ _k : Fin N, (Coins.bias + Coins.bias) = N / 2 ^ 258 := by
      rw [Finset.sum_const, Finset.card_univ, Fintype.card_fin, nsmul_eq_mul, div_eq_mul_one_div]
      congr 1
      rw [Coins.bias]
      norm_num
    rw [hb] at hn
    exact hn
  have h1 := C95_parameters (G := G) M w fun sp => Sim.mean01 fun x => hW _ _ _
  have h2 : |(Spec.mean fun y : Spec.Log => w (y.parameters G)) -
      Spec.mean fun x : Spec.Log × Ω × (Fin N → F × F) =>
        W x.2.1 (x.1.parameters G) fun k => Spec.issuerOf (x.1.parameters G) (x.2.2 k).1 (x.2.2 k).2| ≤ N / 2 ^ 258 := by
    rw [Tagging.mean_prod (α := Spec.Log)]
    exact Sim.abs_sub_mean_le fun y => e2 (y.parameters G)
  rw [e1]
  exact (abs_sub_le _ _ _).trans (add_le_add h1 h2)

end Consort

/-! ## C105 -/

/-- **C105** for the program as a whole, credentials: an adversary that makes at most `q` hash queries, reads generators at
most `s` times, and gets at most `n` issuances and presentations succeeds at most as often as one of `C105_credentials` with
`T = q + s + 2n`, up to negligible terms. -/
theorem C105_setup_credentials {Ω : Type} [Fintype Ω] [Nonempty Ω] (O : Oracle) (M : ℕ)
    (A : SystemParameters G → (Fin N → G) → Ω → Spec.Syndicate G N Spec.Attempt) (V : Fin N → Set F) (q s n : ℕ)
    (hA : ∀ sp X ω, (A sp X ω).Within q s n) (hV : ∀ sp X ω, (A sp X ω).Avoids V) :
    |Spec.syndicateWins O M A V - Spec.consortWins O (Spec.Log.parameters G) (fun sp X ω => (A sp X ω).pack) V| ≤
      (15 / 16) ^ M + 1 / (ell - 1) + N / 2 ^ 258 + (9 * n / 2 ^ 259 + 3 * n * (2 * s + 8 * n + 3) / 2 ^ 256) ∧
    ∀ sp X ω, (A sp X ω).pack.Within (q + s + 2 * n) ∧ (A sp X ω).pack.Avoids V := by
  refine ⟨?_, fun sp X ω => ⟨Consort.pack_within _ q s n (hA _ _ _), Consort.pack_avoids _ (hV _ _ _)⟩⟩
  have h1 := Consort.setup_le (G := G) (N := N) M (fun (ω : Ω) sp i =>
    Spec.Syndicate.against sp i (Spec.checkShow O i V) fun sp X => A sp X ω) fun _ _ _ => Setup.run01 _ _ _ _
  refine (abs_sub_le _ _ _).trans (add_le_add h1 ?_)
  exact Sim.abs_sub_mean_le fun x => Consort.against_le O (Consort.checkShow_yes O V) Consort.checkShow_within
    (fun sp X => A sp X x.2.1) (hA _ _ _)

/-- **C105** for the program as a whole, issuances. -/
theorem C105_setup_issuances {Ω : Type} [Fintype Ω] [Nonempty Ω] (O : Oracle) (M : ℕ)
    (A : SystemParameters G → (Fin N → G) → Ω → Spec.Syndicate G N Bytes) (q s n : ℕ)
    (hA : ∀ sp X ω, (A sp X ω).Within q s n) :
    |Spec.syndicateMints O M A - Spec.consortMints O (Spec.Log.parameters G) (fun sp X ω => (A sp X ω).pack)| ≤
      (15 / 16) ^ M + 1 / (ell - 1) + N / 2 ^ 258 + (9 * n / 2 ^ 259 + 3 * n * (2 * s + 8 * n + 3) / 2 ^ 256) ∧
    ∀ sp X ω, (A sp X ω).pack.Within (q + s + 2 * n) := by
  refine ⟨?_, fun sp X ω => Consort.pack_within _ q s n (hA _ _ _)⟩
  have h1 := Consort.setup_le (G := G) (N := N) M (fun (ω : Ω) sp i =>
    Spec.Syndicate.against sp i (Spec.checkIssue O sp fun k => Spec.publicOf (i k)) fun sp X => A sp X ω)
    fun _ _ _ => Setup.run01 _ _ _ _
  refine (abs_sub_le _ _ _).trans (add_le_add h1 ?_)
  exact Sim.abs_sub_mean_le fun x => Consort.against_le O (Consort.checkIssue_yes O) Consort.checkIssue_within
    (fun sp X => A sp X x.2.1) (hA _ _ _)

set_option synthInstance.maxSize 1000 in
/-- **C105** for the program as a whole, credentials, as a bound: `C105_credentials_bound` and `C105_setup_credentials`
together. -/
theorem C105_program_credentials {Ω : Type} [Fintype Ω] [Nonempty Ω] (O : Oracle) (M : ℕ)
    (A : SystemParameters G → (Fin N → G) → Ω → Spec.Syndicate G N Spec.Attempt) (V : Fin N → Set F) (q s n : ℕ)
    (hA : ∀ sp X ω, (A sp X ω).Within q s n) (hV : ∀ sp X ω, (A sp X ω).Avoids V) (T : ℕ) (hT : T = q + s + 2 * n)
    (d : Spec.Attempt) (m₁ : Scalar) (hm : ∀ j, m₁.val ∉ V j) (t u : ℚ) (ht : 0 ≤ t) (hu : 0 ≤ u)
    (hf : ∀ j, Spec.forgerWins (Spec.Log.parameters G) (Spec.deputies m₁
      (Spec.consortMole (fun sp X ω => (A sp X ω).pack) T j d) T) (V j) (T + 1) ≤ t ^ 3 / (128 * (T + 3) ^ 4))
    (hl : ∀ j, Spec.finderWins (Spec.Log.parameters G) (Spec.consortMole (fun sp X ω => (A sp X ω).pack) T j d) T ≤
      u ^ 2 / (4 * (T + 2))) :
    Spec.syndicateWins O M A V ≤ N * (t + u + 4 * (T + 3) ^ 2 / ell + 10 * (T + 3) / 2 ^ 252) +
      ((15 / 16) ^ M + 1 / (ell - 1) + N / 2 ^ 258 + (9 * n / 2 ^ 259 + 3 * n * (2 * s + 8 * n + 3) / 2 ^ 256)) := by
  subst hT
  obtain ⟨h1, h2⟩ := C105_setup_credentials O M A V q s n hA hV
  have h3 := C105_credentials_bound O (Spec.Log.parameters G) (fun _ => Ristretto.base_ne)
    (fun y => smul_ne_zero y.2 Ristretto.base_ne) (fun sp X ω => (A sp X ω).pack) V (q + s + 2 * n)
    (fun y X ω => (h2 _ X ω).1) (fun y X ω => (h2 _ X ω).2) d m₁ hm t u ht hu hf hl
  have h4 := (abs_sub_le_iff.1 h1).1
  rw [sub_le_iff_le_add'] at h4
  exact h4.trans (add_le_add_left h3 _)

/-- **C105** for the program as a whole, issuances, as a bound. -/
theorem C105_program_issuances {Ω : Type} [Fintype Ω] [Nonempty Ω] (O : Oracle) (M : ℕ)
    (A : SystemParameters G → (Fin N → G) → Ω → Spec.Syndicate G N Bytes) (q s n : ℕ)
    (hA : ∀ sp X ω, (A sp X ω).Within q s n) (T : ℕ) (hT : T = q + s + 2 * n) (t u : ℚ) (ht : 0 ≤ t)
    (h1 : ∀ j, Spec.watchingUnlockWins (Spec.Log.parameters G) (Spec.consortMole (fun sp X ω => (A sp X ω).pack) T j []) T ≤
      t ^ 2 / (2 * (T + 1)))
    (h2 : ∀ j, Spec.watchingQuotientWins O (Spec.Log.parameters G)
      (Spec.consortMole (fun sp X ω => (A sp X ω).pack) T j []) ≤ u) :
    Spec.syndicateMints O M A ≤ N * (t + u + 4 * (T + 1) ^ 2 / ell + 2 * (T + 1) / 2 ^ 252) +
      ((15 / 16) ^ M + 1 / (ell - 1) + N / 2 ^ 258 + (9 * n / 2 ^ 259 + 3 * n * (2 * s + 8 * n + 3) / 2 ^ 256)) := by
  subst hT
  obtain ⟨g1, g2⟩ := C105_setup_issuances O M A q s n hA
  have h3 := C105_issuances_bound O (Spec.Log.parameters G) (fun _ => Ristretto.base_ne)
    (fun y => smul_ne_zero y.2 Ristretto.base_ne) (fun sp X ω => (A sp X ω).pack) (q + s + 2 * n)
    (fun y X ω => g2 _ X ω) t u ht h1 h2
  have h4 := (abs_sub_le_iff.1 g1).1
  rw [sub_le_iff_le_add'] at h4
  exact h4.trans (add_le_add_left h3 _)

/-- An adversary that reads a generator, learns the key of issuer 1, gets 8 issued by issuer 1 and 7 by issuer 0, and watches
a user of issuer 0. -/
example : let A : Spec.Syndicate F 2 Spec.Attempt :=
      .read ⟨[.init "AEONFLUX SHOW"], [], List.replicate 32 0, 0⟩ fun _ => .corrupt 1 fun _ =>
      .issue 1 ⟨8, by decide +kernel⟩ fun _ => .issue 0 ⟨7, by decide +kernel⟩ fun _ =>
      .watch 0 ⟨⟨8, by decide +kernel⟩, ⟨3, by decide +kernel⟩, 1, one_ne_zero⟩ fun _ => .out 0 ⟨8, 0, []⟩
    A.Within 0 1 3 ∧ A.Avoids ![{8}, ∅] := by
  refine ⟨⟨0, rfl, fun _ _ => ⟨2, rfl, fun _ => ⟨1, rfl, fun _ => ⟨0, rfl, fun _ => trivial⟩⟩⟩⟩, fun _ _ =>
    ⟨Set.notMem_empty _, fun _ => ⟨?_, fun _ _ => trivial⟩⟩⟩
  change _ ∉ ({8} : Set F)
  rw [Set.mem_singleton_iff]
  decide +kernel

end Verif
