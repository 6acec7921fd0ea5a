import Verif.Props.Tagging

/-!
# From accepted presentations to forged MACs, for all algorithms (C93)

C84 and C89 speak about algebraic adversaries. Here is a reduction for arbitrary ones: whoever gets accepted with a
roster entry for a number that was not issued gives an algorithm that forges a MAC, or finds the logarithm
of `h` to the base `g`. The algorithm runs the adversary three times.
-/

set_option maxRecDepth 100000

namespace Verif

open Amacs

variable {G : Type} [AddCommGroup G] [Module F G] [Ristretto G] {Out : Type}

/-! ## The two games -/

/-- An adversary that asks the hash, gets attributes issued, and finally returns something. Everything may depend on
everything seen before in any way; it need not be algebraic. -/
inductive Spec.Impostor (G Out : Type) where
  | out (o : Out)
  | ask (t : Transcript) (next : Spec.Answer → Spec.Impostor G Out)
  | issue (m : Scalar) (next : CredentialIssuance G → Spec.Impostor G Out)

namespace Spec.Impostor

/-- At most `n` steps. -/
def Within : Spec.Impostor G Out → ℕ → Prop
  | out _, _ => True
  | ask _ next, n => ∃ n', n = n' + 1 ∧ ∀ a, (next a).Within n'
  | issue _ next, n => ∃ n', n = n' + 1 ∧ ∀ c, (next c).Within n'

/-- No attribute in `V` is issued. -/
def Avoids (V : Set F) : Spec.Impostor G Out → Prop
  | out _ => True
  | ask _ next => ∀ a, (next a).Avoids V
  | issue m next => m.val ∉ V ∧ ∀ c, (next c).Avoids V

/-- The expected value of `f` at the end, after the queries `l`, if `serve` issues. -/
noncomputable def expect (serve : Spec.Server Scalar fun _ => CredentialIssuance G)
    (f : Out → Spec.HashLog → ℚ) : Spec.Impostor G Out → Spec.HashLog → ℚ
  | out o, l => f o l
  | ask t next, l => Spec.mean fun a => (next ((l.lookup t).getD a)).expect serve f (l.asked t a)
  | issue m next, l => serve m l fun l' c => (next c).expect serve f l'

end Spec.Impostor

/-- What an adversary claims: this is a presentation for the roster entry that commits to `m` with opening `r`. -/
structure Spec.Attempt where
  m : F
  r : F
  bytes : Bytes

/-- The two hash queries that the issuer makes. -/
def Spec.Attempt.query (i : Issuer G) (o : Spec.Attempt) (n : ℕ) : Transcript :=
  Spec.onDecoded (SignalCredentialPresentation.fromBytes (G := G) o.bytes) fun p =>
    if n = 0 then Spec.showQuery i p.presentation else Spec.rosterQuery i.systemParameters p

/-- The claim is accepted: the bytes decode, both checks of the issuer pass, the nonce is not the identity, the
roster entry is as claimed, and the number is in `V`. -/
def Spec.Attempt.Good (O : Oracle) (i : Issuer G) (V : Set F) (o : Spec.Attempt) : Prop :=
  ∃ (p : SignalCredentialPresentation G) (v : VerifiedSignalCredential G) (R : G),
    SignalCredentialPresentation.fromBytes o.bytes = .ok p ∧
    SignalIssuer.verify O ⟨i⟩ p = .ok v ∧ SignalIssuer.verifyRosterMembership O ⟨i⟩ v = .ok R ∧
    p.presentation.rerandomizedNonce ≠ 0 ∧
    p.rosterEntryCommitment = o.m • i.systemParameters.h + o.r • i.systemParameters.g ∧ o.m ∈ V

/-- The issuer with the secret key `x0`, `x1`. -/
def Spec.issuerOf (sp : SystemParameters G) (x0 x1 : F) : Issuer G :=
  ⟨sp, ⟨⟨[x1 • sp.h]⟩, ⟨Scalar.ofF x0, [Scalar.ofF x1]⟩⟩⟩

/-- The adversary's claim is checked: the issuer makes its two queries. -/
def Spec.Impostor.checked (i : Issuer G) : Spec.Impostor G Spec.Attempt → Spec.Impostor G Spec.Attempt
  | .out o => .ask (o.query i 0) fun _ => .ask (o.query i 1) fun _ => .out o
  | .ask t next => .ask t fun a => (next a).checked i
  | .issue m next => .issue m fun c => (next c).checked i

open Classical in
/-- One if the claim is accepted, zero otherwise. -/
noncomputable def Spec.Attempt.value (O : Oracle) (i : Issuer G) (V : Set F) (o : Spec.Attempt) (l : Spec.HashLog) : ℚ :=
  if o.Good (l.oracle O) i V then 1 else 0

/-- The probability that an adversary gets accepted for a number in `V`. It is given the parameters and the public
key; setup `σ`, coins `ω` and the issuer's secret key are uniform. -/
noncomputable def Spec.impostorWins {S Ω : Type} [Fintype S] [Fintype Ω] (O : Oracle) (sp : S → SystemParameters G)
    (A : SystemParameters G → G → Ω → Spec.Impostor G Spec.Attempt) (V : Set F) : ℚ :=
  Spec.mean fun x : S × Ω × F × F =>
    let i := Spec.issuerOf (sp x.1) x.2.2.1 x.2.2.2
    ((A (sp x.1) (x.2.2.2 • (sp x.1).h) x.2.1).checked i).expect
      (Spec.honestIssue O (sp x.1) (Scalar.ofF x.2.2.1) (Scalar.ofF x.2.2.2)) (Spec.Attempt.value O i V) []

/-- An algorithm that gets tags on numbers of its choice, and finally returns a number with a tag, or a field
element. -/
inductive Spec.Forger (G : Type) where
  | forge (m : F) (tag : Tag G)
  | log (x : F)
  | query (m : Scalar) (next : Tag G → Spec.Forger G)

/-- At most `q` requests for tags. -/
def Spec.Forger.Within : Spec.Forger G → ℕ → Prop
  | .forge _ _, _ => True
  | .log _, _ => True
  | .query _ next, q => ∃ q', q = q' + 1 ∧ ∀ t, (next t).Within q'

open Classical in
/-- The probability that it returns a valid tag with non-identity nonce on a number in `V`, while all the
numbers that it got tags on are not in `V`, or the logarithm of `h` to the base `g`. -/
noncomputable def Spec.Forger.wins (sp : SystemParameters G) (x0 x1 : F) (V : Set F) : Spec.Forger G → ℚ
  | .forge m tag => if m ∈ V ∧ tag.nonce ≠ 0 ∧ tag.mac = (x0 + x1 * m) • tag.nonce then 1 else 0
  | .log x => if sp.h = x • sp.g then 1 else 0
  | .query m next =>
    if m.val ∈ V then 0 else
      Spec.mean fun b : F =>
        (next ⟨b • basepoint G, (x0 + x1 * m.val) • (b • basepoint G)⟩).wins sp x0 x1 V

/-! ## The algorithm -/

/-- Randomness for one step: an answer of the hash, and what a simulated issuance needs besides the tag. -/
abbrev Spec.Cell := Spec.Answer × F × F × F × F × F

/-- An issuance made from the tag, and the hash query that it fixes. -/
def Spec.fakeIssue (sp : SystemParameters G) (X : G) (m : Scalar) (tag : Tag G) (c : Spec.Cell) :
    CredentialIssuance G × Transcript × Spec.Answer :=
  let C := c.2.1 • sp.h
  let p : IssuanceRevealed.Publics G := ⟨tag.nonce, tag.mac, C, sp.g, sp.h, X⟩
  let proof : IssuanceRevealed.Proof := ⟨Scalar.fromWide c.1.1, IssuanceRevealed.respOf c.2.2⟩
  (⟨C, ⟨tag, [m]⟩, proof⟩,
    IssuanceRevealed.verifyTranscript [.init "AEONFLUX ISSUANCE"] p (IssuanceRevealed.recommit p proof), c.1)

/-- Runs an adversary. Step number `n` uses `cells n`. Tags are taken from `old` if there is one for the step, and
asked for otherwise. At the end, `k` gets the output, the hash queries, and the tags of all steps. -/
def Spec.Impostor.drive (sp : SystemParameters G) (X : G) (cells : ℕ → Spec.Cell) (old : ℕ → Option (Tag G))
    (k : Out → Spec.HashLog → (ℕ → Option (Tag G)) → Spec.Forger G) :
    Spec.Impostor G Out → Spec.HashLog → (ℕ → Option (Tag G)) → Spec.Forger G
  | .out o, l, got => k o l got
  | .ask t next, l, got =>
    (next ((l.lookup t).getD (cells l.length).1)).drive sp X cells old k (l.asked t (cells l.length).1) got
  | .issue m next, l, got =>
    let go (tag : Tag G) :=
      let r := Spec.fakeIssue sp X m tag (cells l.length)
      (next r.1).drive sp X cells old k (l ++ [r.2]) (Function.update got l.length (some tag))
    match old l.length with
    | some tag => go tag
    | none => .query m go

/-- What the algorithm returns after three runs, from the claim of the first and the presentations of all. -/
def Spec.finish (sp : SystemParameters G) (X : G) (o : Spec.Attempt)
    (p p' p'' : SignalCredentialPresentation G) : Spec.Forger G :=
  let s := ValidCredential.extract p.presentation.proof p'.presentation.proof
  let s' := CommittedValuesEqual.extract p.rosterMembershipProof p''.rosterMembershipProof
  let Q := p.presentation.rerandomizedMacCommitment + s.minus_zQ.val • sp.h
  if s'.m0.val ≠ o.m then .log ((o.r - s'.z1.val) / (s'.m0.val - o.m))
  else if s.m0.val = o.m then .forge o.m ⟨p.presentation.rerandomizedNonce, Q⟩
  else
    .forge o.m ⟨p.presentation.rerandomizedNonce,
      Q + ((o.m - s.m0.val) * ((s'.z0.val - s.z0.val) / (s.m0.val - s'.m0.val))) • X⟩

/-- The presentation in a claim. -/
def Spec.Attempt.presentation (G : Type) [AddCommGroup G] [Module F G] [Ristretto G] (o : Spec.Attempt) :
    Option (SignalCredentialPresentation G) :=
  match SignalCredentialPresentation.fromBytes (G := G) o.bytes with
  | .ok p => some p
  | _ => none

/-- The first `j` tags of a run. -/
def Spec.before (j : ℕ) (got : ℕ → Option (Tag G)) : ℕ → Option (Tag G) := fun n => if n < j then got n else none

/-- Randomness for finitely many steps, continued arbitrarily. -/
noncomputable def Spec.stretch {Q : ℕ} {α : Type} [Nonempty α] (c : Fin Q → α) : ℕ → α :=
  fun n => if h : n < Q then c ⟨n, h⟩ else Classical.arbitrary α

/-- `c` up to step `j`, then `c'`. -/
def Spec.switch {α : Type} (j : ℕ) (c c' : ℕ → α) : ℕ → α := fun n => if n < j then c n else c' n

/-- The algorithm: runs the adversary on `c`; again, with `c'` from step `j` on; and again, with `c''` from step `j'`
on. The two steps are guessed. The tags of repeated steps are those of the first run. -/
def Spec.forger (sp : SystemParameters G) (X : G) (A : Spec.Impostor G Spec.Attempt) (j j' : ℕ)
    (c c' c'' : ℕ → Spec.Cell) : Spec.Forger G :=
  A.drive sp X c (fun _ => none) (fun o _ got =>
    A.drive sp X (Spec.switch j c c') (Spec.before j got) (fun o' _ _ =>
      A.drive sp X (Spec.switch j' c c'') (Spec.before j' got) (fun o'' _ _ =>
        match o.presentation G, o'.presentation G, o''.presentation G with
        | some p, some p', some p'' => Spec.finish sp X o p p' p''
        | _, _, _ => .log 0) [] (fun _ => none)) [] (fun _ => none)) [] (fun _ => none)

/-- The probability that the algorithm succeeds, for adversaries that make at most `T` steps. Setup, coins of the
adversary, the secret key, the guesses and the randomness of all steps are uniform. -/
noncomputable def Spec.forgerWins {S Ω : Type} [Fintype S] [Fintype Ω] (sp : S → SystemParameters G)
    (A : SystemParameters G → G → Ω → Spec.Impostor G Spec.Attempt) (V : Set F) (T : ℕ) : ℚ :=
  Spec.mean fun x : S × Ω × F × F => Spec.mean fun j : Fin (T + 2) × Fin (T + 2) =>
  Spec.mean fun c : (Fin (T + 2) → Spec.Cell) × (Fin (T + 2) → Spec.Cell) × (Fin (T + 2) → Spec.Cell) =>
    let X := x.2.2.2 • (sp x.1).h
    (Spec.forger (sp x.1) X (A (sp x.1) X x.2.1) j.1 j.2 (Spec.stretch c.1) (Spec.stretch c.2.1)
      (Spec.stretch c.2.2)).wins (sp x.1) x.2.2.1 x.2.2.2 V

/-! ## Simulated issuances -/

namespace Reduction

open Spec.Impostor

omit [AddCommGroup G] [Module F G] [Ristretto G] in
theorem expect01 {serve : Spec.Server Scalar fun _ => CredentialIssuance G}
    (hs : ∀ x l f, Sim.Unit01 f → 0 ≤ serve x l f ∧ serve x l f ≤ 1) {f : Out → Spec.HashLog → ℚ}
    (hf : ∀ o l, 0 ≤ f o l ∧ f o l ≤ 1) (A : Spec.Impostor G Out) :
    ∀ l, 0 ≤ A.expect serve f l ∧ A.expect serve f l ≤ 1 := by
  induction A with
  | out o => intro l; exact hf o l
  | ask t next ih => intro l; exact Sim.mean01 fun a => ih _ _
  | issue m next ih => intro l; exact hs m l _ fun l' c => ih c l'

omit [AddCommGroup G] [Module F G] [Ristretto G] in
theorem expect_close {serve serve' : Spec.Server Scalar fun _ => CredentialIssuance G}
    (h : Sim.Close 1 serve serve') {f : Out → Spec.HashLog → ℚ} (hf : ∀ o l, 0 ≤ f o l ∧ f o l ≤ 1)
    (A : Spec.Impostor G Out) : ∀ (l : Spec.HashLog) (n : ℕ), A.Within n →
      |A.expect serve f l - A.expect serve' f l| ≤ n * (l.length + n) / ell := by
  have hell : (0 : ℚ) < ell := Tagging.ell_pos
  induction A with
  | out o =>
    intro l n _
    simp only [expect, sub_self, abs_zero]
    positivity
  | ask t next ih =>
    intro l n hw
    obtain ⟨n, rfl, hw⟩ := hw
    refine Sim.abs_sub_mean_le fun a => (ih _ (l.asked t a) n (hw _)).trans ?_
    rw [show (l.asked t a).length = l.length + 1 by simp [Spec.HashLog.asked]]
    refine div_le_div_of_nonneg_right ?_ hell.le
    push_cast
    nlinarith [show (0 : ℚ) ≤ l.length by positivity, show (0 : ℚ) ≤ n by positivity]
  | issue m next ih =>
    intro l n hw
    obtain ⟨n, rfl, hw⟩ := hw
    refine (h.close m l _ _ (n * (l.length + 1 + n) / ell)
      (fun l' c => expect01 h.range hf (next c) l') (fun l' c => expect01 h.range' hf (next c) l')
      (fun l' c hl => ?_)).trans ?_
    · have := ih c l' n (hw c)
      rw [hl] at this
      push_cast at this
      exact this
    · rw [← add_div]
      refine div_le_div_of_nonneg_right ?_ hell.le
      push_cast
      nlinarith [show (0 : ℚ) ≤ l.length by positivity, show (0 : ℚ) ≤ n by positivity]

/-- A tag from a coin. -/
def mac (G : Type) [AddCommGroup G] [Module F G] [Ristretto G] (x0 x1 : F) (m : Scalar) (b : F) : Tag G :=
  ⟨b • basepoint G, (x0 + x1 * m.val) • (b • basepoint G)⟩

/-- A run with given randomness and tags. -/
def play (sp : SystemParameters G) (X : G) (cells : ℕ → Spec.Cell) (tags : ℕ → Scalar → Tag G) :
    Spec.Impostor G Out → Spec.HashLog → (ℕ → Option (Tag G)) → Out × Spec.HashLog × (ℕ → Option (Tag G))
  | .out o, l, got => (o, l, got)
  | .ask t next, l, got =>
    play sp X cells tags (next ((l.lookup t).getD (cells l.length).1)) (l.asked t (cells l.length).1) got
  | .issue m next, l, got =>
    let r := Spec.fakeIssue sp X m (tags l.length m) (cells l.length)
    play sp X cells tags (next r.1) (l ++ [r.2]) (Function.update got l.length (some (tags l.length m)))

theorem asked_length (l : Spec.HashLog) (t : Transcript) (a : Spec.Answer) :
    (l.asked t a).length = l.length + 1 := by simp [Spec.HashLog.asked]

theorem fake_length (l : Spec.HashLog) (r : Transcript × Spec.Answer) :
    (l ++ [r]).length = l.length + 1 := by simp

theorem play_congr {sp : SystemParameters G} {X : G} {cells cells' : ℕ → Spec.Cell}
    {tags tags' : ℕ → Scalar → Tag G} (A : Spec.Impostor G Out) : ∀ (l : Spec.HashLog) (got : ℕ → Option (Tag G)),
    (∀ n, l.length ≤ n → cells n = cells' n) → (∀ n, l.length ≤ n → tags n = tags' n) →
    play sp X cells tags A l got = play sp X cells' tags' A l got := by
  induction A with
  | out o => intros; rfl
  | ask t next ih =>
    intro l got hc ht
    simp only [play]
    rw [← hc _ le_rfl]
    exact ih _ _ _ (fun n hn => hc n (by rw [asked_length] at hn; omega))
      fun n hn => ht n (by rw [asked_length] at hn; omega)
  | issue m next ih =>
    intro l got hc ht
    simp only [play]
    rw [← hc _ le_rfl, ← ht _ le_rfl]
    exact ih _ _ _ (fun n hn => hc n (by rw [fake_length] at hn; omega))
      fun n hn => ht n (by rw [fake_length] at hn; omega)

section mean
variable {ι α : Type} [Fintype ι] [DecidableEq ι] [Fintype α] [Nonempty α]

theorem mean_update (i : ι) (f : (ι → α) → ℚ) :
    Spec.mean f = Spec.mean fun a : α => Spec.mean fun w => f (Function.update w i a) := by
  let e : α × (ι → α) ≃ α × (ι → α) :=
    { toFun := fun p => (p.2 i, Function.update p.2 i p.1)
      invFun := fun p => (p.2 i, Function.update p.2 i p.1)
      left_inv := fun p => by simp
      right_inv := fun p => by simp }
  rw [← Tagging.mean_prod fun p : α × (ι → α) => f (Function.update p.2 i p.1)]
  have h := Sim.mean_equiv e fun p : α × (ι → α) => f p.2
  refine Eq.trans ?_ h.symm
  rw [Tagging.mean_prod]
  exact (Sim.mean_const (α := α) (Spec.mean f)).symm

/-- A coordinate that is used once may be drawn separately. -/
theorem mean_coord (i : ι) (g : α → (ι → α) → ℚ) (hg : ∀ a v b, g a (Function.update v i b) = g a v) :
    (Spec.mean fun v => g (v i) v) = Spec.mean fun a => Spec.mean fun v => g a v := by
  rw [mean_update i]
  refine Sim.mean_congr fun a => Sim.mean_congr fun v => ?_
  rw [Function.update_self, hg]

omit [Nonempty α] in
theorem mean_mul (c : ℚ) (f : α → ℚ) : (Spec.mean fun a => c * f a) = c * Spec.mean f := by
  unfold Spec.mean
  rw [← Finset.mul_sum, mul_div_assoc]

omit [DecidableEq ι] [Nonempty α] in
theorem mean_sum (f : α → ι → ℚ) : (Spec.mean fun a => ∑ i, f a i) = ∑ i, Spec.mean fun a => f a i := by
  unfold Spec.mean
  rw [Finset.sum_comm, Finset.sum_div]

theorem mean_fst {β γ : Type} [Fintype β] [Fintype γ] [Nonempty γ] (h : β → ℚ) :
    (Spec.mean fun p : β × γ => h p.1) = Spec.mean h := by
  rw [Tagging.mean_prod]
  exact Sim.mean_congr fun b => Sim.mean_const (α := γ) (h b)

end mean

theorem stretch_of_lt {Q : ℕ} {α : Type} [Nonempty α] (c : Fin Q → α) {n : ℕ} (h : n < Q) :
    Spec.stretch c n = c ⟨n, h⟩ := dif_pos h

theorem stretch_update {Q : ℕ} {α β : Type} [Nonempty β] (f : α → β) (c : Fin Q → α) (i : Fin Q) (a : α) {n : ℕ}
    (h : n ≠ i) :
    Spec.stretch (fun k => f (Function.update c i a k)) n = Spec.stretch (fun k => f (c k)) n := by
  unfold Spec.stretch
  split
  · dsimp only
    rw [Function.update_of_ne]
    exact fun e => h (congrArg Fin.val e)
  · rfl

theorem issue_cell (sp : SystemParameters G) (X : G) (x0 x1 : F) (m : Scalar) (l : Spec.HashLog)
    (k : Spec.HashLog → CredentialIssuance G → ℚ) :
    Spec.simulatedIssue sp X (mac G x0 x1) m l k = Spec.mean fun c : Spec.Cell × F =>
      k (l ++ [(Spec.fakeIssue sp X m (mac G x0 x1 m c.2) c.1).2])
        (Spec.fakeIssue sp X m (mac G x0 x1 m c.2) c.1).1 := by
  rw [Tagging.mean_prod, Sim.mean_comm]
  unfold Spec.simulatedIssue Spec.IssuanceRevealed.simulated
  refine Sim.mean_congr fun b => ?_
  rw [Tagging.mean_prod, Sim.mean_comm]
  refine Sim.mean_congr fun a => ?_
  rw [Tagging.mean_prod]
  rfl

/-- The randomness of the steps, from a tape. -/
noncomputable def cellsOf {Q : ℕ} (s : Fin Q → Spec.Cell × F) : ℕ → Spec.Cell := Spec.stretch fun k => (s k).1

/-- The tags of the steps, from a tape. -/
noncomputable def tagsOf (G : Type) [AddCommGroup G] [Module F G] [Ristretto G] {Q : ℕ} (x0 x1 : F)
    (s : Fin Q → Spec.Cell × F) : ℕ → Scalar → Tag G :=
  fun n m => mac G x0 x1 m (Spec.stretch (fun k => (s k).2) n)

theorem cellsOf_update {Q : ℕ} (s : Fin Q → Spec.Cell × F) (i : Fin Q) (c : Spec.Cell × F) {n : ℕ} (h : n ≠ i) :
    cellsOf (Function.update s i c) n = cellsOf s n := stretch_update Prod.fst s i c h

theorem tagsOf_update {Q : ℕ} (x0 x1 : F) (s : Fin Q → Spec.Cell × F) (i : Fin Q) (c : Spec.Cell × F) {n : ℕ}
    (h : n ≠ i) : tagsOf G x0 x1 (Function.update s i c) n = tagsOf G x0 x1 s n := by
  funext m
  exact congrArg (mac G x0 x1 m) (stretch_update Prod.snd s i c h)

theorem cellsOf_at {Q : ℕ} (s : Fin Q → Spec.Cell × F) {n : ℕ} (h : n < Q) : cellsOf s n = (s ⟨n, h⟩).1 :=
  stretch_of_lt _ h

theorem tagsOf_at {Q : ℕ} (x0 x1 : F) (s : Fin Q → Spec.Cell × F) {n : ℕ} (h : n < Q) (m : Scalar) :
    tagsOf G x0 x1 s n m = mac G x0 x1 m (s ⟨n, h⟩).2 := congrArg (mac G x0 x1 m) (stretch_of_lt _ h)

/-- The game with simulated issuances, with all randomness drawn in advance. -/
theorem expect_tape {sp : SystemParameters G} {X : G} {x0 x1 : F} (f : Out → Spec.HashLog → ℚ) {Q : ℕ}
    (A : Spec.Impostor G Out) : ∀ (l : Spec.HashLog) (got : ℕ → Option (Tag G)) (n : ℕ), A.Within n →
      l.length + n ≤ Q →
      A.expect (Spec.simulatedIssue sp X (mac G x0 x1)) f l = Spec.mean fun s : Fin Q → Spec.Cell × F =>
        let r := play sp X (cellsOf s) (tagsOf G x0 x1 s) A l got
        f r.1 r.2.1 := by
  induction A with
  | out o =>
    intro l got n _ _
    exact (Sim.mean_const (α := Fin Q → Spec.Cell × F) (f o l)).symm
  | ask t next ih =>
    intro l got n hw hn
    obtain ⟨n, rfl, hw⟩ := hw
    have hQ : l.length < Q := by omega
    let g : Spec.Cell × F → (Fin Q → Spec.Cell × F) → ℚ := fun c s =>
      let r := play sp X (cellsOf s) (tagsOf G x0 x1 s)
        (next ((l.lookup t).getD c.1.1)) (l.asked t c.1.1) got
      f r.1 r.2.1
    have e : (Spec.mean fun s : Fin Q → Spec.Cell × F => g (s ⟨l.length, hQ⟩) s) =
        Spec.mean fun c => Spec.mean fun s => g c s := by
      refine mean_coord _ g fun c s b => ?_
      simp only [g]
      rw [play_congr (cells' := cellsOf s) (tags' := tagsOf G x0 x1 s)]
      · intro k hk
        rw [asked_length] at hk
        exact cellsOf_update _ _ _ (by dsimp only; omega)
      · intro k hk
        rw [asked_length] at hk
        exact tagsOf_update _ _ _ _ _ (by dsimp only; omega)
    have e' : ∀ c, (Spec.mean fun s => g c s) = (next ((l.lookup t).getD c.1.1)).expect
        (Spec.simulatedIssue sp X (mac G x0 x1)) f (l.asked t c.1.1) := fun c =>
      (ih _ (l.asked t c.1.1) got n (hw _) (by rw [asked_length]; omega)).symm
    refine Eq.trans ?_ (Eq.trans e.symm ?_)
    · rw [Sim.mean_congr e', mean_fst (fun c : Spec.Cell => (next ((l.lookup t).getD c.1)).expect
        (Spec.simulatedIssue sp X (mac G x0 x1)) f (l.asked t c.1)), mean_fst (fun a : Spec.Answer =>
        (next ((l.lookup t).getD a)).expect (Spec.simulatedIssue sp X (mac G x0 x1)) f (l.asked t a))]
      rfl
    · refine Sim.mean_congr fun s => ?_
      simp only [g, play]
      rw [cellsOf_at s hQ]
  | issue m next ih =>
    intro l got n hw hn
    obtain ⟨n, rfl, hw⟩ := hw
    have hQ : l.length < Q := by omega
    let g : Spec.Cell × F → (Fin Q → Spec.Cell × F) → ℚ := fun c s =>
      let r := play sp X (cellsOf s) (tagsOf G x0 x1 s)
        (next (Spec.fakeIssue sp X m (mac G x0 x1 m c.2) c.1).1)
        (l ++ [(Spec.fakeIssue sp X m (mac G x0 x1 m c.2) c.1).2])
        (Function.update got l.length (some (mac G x0 x1 m c.2)))
      f r.1 r.2.1
    have e : (Spec.mean fun s : Fin Q → Spec.Cell × F => g (s ⟨l.length, hQ⟩) s) =
        Spec.mean fun c => Spec.mean fun s => g c s := by
      refine mean_coord _ g fun c s b => ?_
      simp only [g]
      rw [play_congr (cells' := cellsOf s) (tags' := tagsOf G x0 x1 s)]
      · intro k hk
        rw [fake_length] at hk
        exact cellsOf_update _ _ _ (by dsimp only; omega)
      · intro k hk
        rw [fake_length] at hk
        exact tagsOf_update _ _ _ _ _ (by dsimp only; omega)
    have e' : ∀ c : Spec.Cell × F, (Spec.mean fun s => g c s) =
        (next (Spec.fakeIssue sp X m (mac G x0 x1 m c.2) c.1).1).expect
          (Spec.simulatedIssue sp X (mac G x0 x1)) f (l ++ [(Spec.fakeIssue sp X m (mac G x0 x1 m c.2) c.1).2]) :=
      fun c => (ih _ _ _ n (hw _) (by rw [fake_length]; omega)).symm
    refine Eq.trans ?_ (Eq.trans e.symm ?_)
    · rw [Sim.mean_congr e']
      exact issue_cell sp X x0 x1 m l fun l c => (next c).expect (Spec.simulatedIssue sp X (mac G x0 x1)) f l
    · refine Sim.mean_congr fun s => ?_
      simp only [g, play]
      rw [cellsOf_at s hQ, tagsOf_at x0 x1 s hQ]

/-! ## Where runs differ -/

theorem play_prefix {sp : SystemParameters G} {X : G} {cells : ℕ → Spec.Cell} {tags : ℕ → Scalar → Tag G}
    (A : Spec.Impostor G Out) : ∀ (l : Spec.HashLog) (got : ℕ → Option (Tag G)),
    l <+: (play sp X cells tags A l got).2.1 := by
  induction A with
  | out o => intros; exact List.prefix_rfl
  | ask t next ih => intro l got; exact (List.prefix_append l _).trans (ih _ _ _)
  | issue m next ih => intro l got; exact (List.prefix_append l _).trans (ih _ _ _)

theorem play_length {sp : SystemParameters G} {X : G} {cells : ℕ → Spec.Cell} {tags : ℕ → Scalar → Tag G}
    (A : Spec.Impostor G Out) : ∀ (l : Spec.HashLog) (got : ℕ → Option (Tag G)) (n : ℕ), A.Within n →
    (play sp X cells tags A l got).2.1.length ≤ l.length + n := by
  induction A with
  | out o => intro l _ n _; simp [play]
  | ask t next ih =>
    intro l got n hw
    obtain ⟨n, rfl, hw⟩ := hw
    refine (ih _ _ _ n (hw _)).trans ?_
    rw [asked_length]; omega
  | issue m next ih =>
    intro l got n hw
    obtain ⟨n, rfl, hw⟩ := hw
    refine (ih _ _ _ n (hw _)).trans ?_
    rw [fake_length]; omega

theorem play_got {sp : SystemParameters G} {X : G} {cells : ℕ → Spec.Cell} {tags : ℕ → Scalar → Tag G}
    (A : Spec.Impostor G Out) : ∀ (l : Spec.HashLog) (got : ℕ → Option (Tag G)) (n : ℕ), n < l.length →
    (play sp X cells tags A l got).2.2 n = got n := by
  induction A with
  | out o => intros; rfl
  | ask t next ih =>
    intro l got n hn
    exact ih _ _ _ n (by rw [asked_length]; omega)
  | issue m next ih =>
    intro l got n hn
    refine (ih _ _ _ n (by rw [fake_length]; omega)).trans ?_
    rw [Function.update_of_ne (by omega)]

/-- The query of an issuance. -/
def IsIssuance (G : Type) [AddCommGroup G] [Module F G] [Ristretto G] (t : Transcript) : Prop :=
  ∃ (p : IssuanceRevealed.Publics G) (c : IssuanceRevealed.Commitments G),
    t = (Spec.Query.issuanceRevealed "AEONFLUX ISSUANCE" p c).ops

theorem prefix_at {l L : Spec.HashLog} {e : Transcript × Spec.Answer} (h : l ++ [e] <+: L) :
    L[l.length]? = some e ∧ L.take l.length = l := by
  obtain ⟨r, rfl⟩ := h
  simp

/-- Two runs with the same randomness before step `j` make the same query at step `j`, unless that is an issuance;
if the query is new, then the answers are those for the step. -/
theorem fork_same {sp : SystemParameters G} {X : G} {cells cells' : ℕ → Spec.Cell} {tags tags' : ℕ → Scalar → Tag G}
    {j : ℕ} (hc : ∀ n < j, cells n = cells' n) (ht : ∀ n < j, tags n = tags' n) {t t' : Transcript}
    {a a' : Spec.Answer} (hi : ¬ IsIssuance G t) (A : Spec.Impostor G Out) :
    ∀ (l : Spec.HashLog) (got got' : ℕ → Option (Tag G)), l.length ≤ j →
      (play sp X cells tags A l got).2.1[j]? = some (t, a) →
      (play sp X cells' tags' A l got').2.1[j]? = some (t', a') →
      t' = t ∧ ((∀ e ∈ (play sp X cells tags A l got).2.1.take j, e.1 ≠ t) →
        a = (cells j).1 ∧ a' = (cells' j).1) := by
  induction A with
  | out o =>
    intro l got got' hj h1 h2
    simp only [play] at h1
    rw [List.getElem?_eq_none hj] at h1
    cases h1
  | ask q next ih =>
    intro l got got' hj h1 h2
    rcases Nat.lt_or_ge l.length j with hlt | hge
    · simp only [play] at h1 h2 ⊢
      rw [← hc _ hlt] at h2
      exact ih _ _ _ _ (by rw [asked_length]; omega) h1 h2
    · obtain rfl : j = l.length := by omega
      simp only [play] at h1 h2 ⊢
      obtain ⟨u1, u2⟩ := prefix_at (e := (q, (l.lookup q).getD (cells l.length).1))
        (play_prefix (sp := sp) (X := X) (cells := cells) (tags := tags)
          (next ((l.lookup q).getD (cells l.length).1)) (l.asked q (cells l.length).1) got)
      obtain ⟨v1, v2⟩ := prefix_at (e := (q, (l.lookup q).getD (cells' l.length).1))
        (play_prefix (sp := sp) (X := X) (cells := cells') (tags := tags')
          (next ((l.lookup q).getD (cells' l.length).1)) (l.asked q (cells' l.length).1) got')
      rw [u1] at h1
      rw [v1] at h2
      cases h1
      cases h2
      refine ⟨rfl, fun hn => ?_⟩
      rw [u2] at hn
      rw [Knowledge.lookup_none hn]
      exact ⟨rfl, rfl⟩
  | issue m next ih =>
    intro l got got' hj h1 h2
    rcases Nat.lt_or_ge l.length j with hlt | hge
    · simp only [play] at h1 h2 ⊢
      rw [← hc _ hlt, ← ht _ hlt] at h2
      exact ih _ _ _ _ (by rw [fake_length]; omega) h1 h2
    · obtain rfl : j = l.length := by omega
      simp only [play] at h1
      obtain ⟨u1, -⟩ := prefix_at (play_prefix (sp := sp) (X := X) (cells := cells) (tags := tags)
        (next (Spec.fakeIssue sp X m (tags l.length m) (cells l.length)).1)
        (l ++ [(Spec.fakeIssue sp X m (tags l.length m) (cells l.length)).2])
        (Function.update got l.length (some (tags l.length m))))
      rw [u1] at h1
      cases h1
      exact absurd ⟨_, _, rfl⟩ hi

/-- A run in which the tags before step `j` are those of an earlier run with the same randomness there. -/
theorem replay {sp : SystemParameters G} {X : G} {c c' : ℕ → Spec.Cell} {τ τ' : ℕ → Scalar → Tag G} {j : ℕ}
    (A : Spec.Impostor G Out) : ∀ (l : Spec.HashLog) (got got' : ℕ → Option (Tag G)),
      play sp X (Spec.switch j c c')
        (fun n m => (Spec.before j (play sp X c τ A l got).2.2 n).getD (τ' n m)) A l got' =
      play sp X (Spec.switch j c c') (Spec.switch j τ τ') A l got' := by
  have late : ∀ (A : Spec.Impostor G Out) (l : Spec.HashLog) (g got' : ℕ → Option (Tag G)), j ≤ l.length →
      play sp X (Spec.switch j c c') (fun n m => (Spec.before j g n).getD (τ' n m)) A l got' =
      play sp X (Spec.switch j c c') (Spec.switch j τ τ') A l got' := by
    intro A l g got' hj
    refine play_congr A l got' (fun _ _ => rfl) fun n hn => ?_
    funext m
    rw [Spec.before, if_neg (by omega), Spec.switch, if_neg (by omega)]
    rfl
  induction A with
  | out o => intros; rfl
  | ask t next ih =>
    intro l got got'
    rcases Nat.lt_or_ge l.length j with hlt | hge
    · simp only [play]
      rw [show Spec.switch j c c' l.length = c l.length from if_pos hlt]
      exact ih _ _ _ _
    · exact late _ _ _ _ hge
  | issue m next ih =>
    intro l got got'
    rcases Nat.lt_or_ge l.length j with hlt | hge
    · have hg : Spec.before j (play sp X c τ (.issue m next) l got).2.2 l.length = some (τ l.length m) := by
        rw [Spec.before, if_pos hlt]
        simp only [play]
        rw [play_got _ _ _ _ (by rw [fake_length]; omega), Function.update_self]
      have hr := ih (Spec.fakeIssue sp X m (τ l.length m) (c l.length)).1
        (l ++ [(Spec.fakeIssue sp X m (τ l.length m) (c l.length)).2])
        (Function.update got l.length (some (τ l.length m)))
        (Function.update got' l.length (some (τ l.length m)))
      rw [show (play sp X c τ (next (Spec.fakeIssue sp X m (τ l.length m) (c l.length)).1)
        (l ++ [(Spec.fakeIssue sp X m (τ l.length m) (c l.length)).2])
        (Function.update got l.length (some (τ l.length m)))).2.2 =
          (play sp X c τ (.issue m next) l got).2.2 from rfl] at hr
      generalize (play sp X c τ (.issue m next) l got).2.2 = g at hg hr ⊢
      simp only [play, hg, Option.getD_some]
      rw [show Spec.switch j c c' l.length = c l.length from if_pos hlt,
        show Spec.switch j τ τ' l.length = τ l.length from if_pos hlt]
      exact hr
    · exact late _ _ _ _ hge

/-! ## The algorithm in terms of runs -/

theorem drive_wins {sp : SystemParameters G} {X : G} {x0 x1 : F} {V : Set F} {cells : ℕ → Spec.Cell}
    {old : ℕ → Option (Tag G)} {k : Out → Spec.HashLog → (ℕ → Option (Tag G)) → Spec.Forger G} {Q : ℕ}
    (A : Spec.Impostor G Out) : ∀ (l : Spec.HashLog) (got : ℕ → Option (Tag G)) (n : ℕ), A.Within n →
      l.length + n ≤ Q → A.Avoids V →
      (A.drive sp X cells old k l got).wins sp x0 x1 V = Spec.mean fun bs : Fin Q → F =>
        let r := play sp X cells (fun n m => (old n).getD (mac G x0 x1 m (Spec.stretch bs n))) A l got
        (k r.1 r.2.1 r.2.2).wins sp x0 x1 V := by
  induction A with
  | out o =>
    intro l got n _ _ _
    exact (Sim.mean_const (α := Fin Q → F) _).symm
  | ask t next ih =>
    intro l got n hw hn hv
    obtain ⟨n, rfl, hw⟩ := hw
    exact ih _ _ _ n (hw _) (by rw [asked_length]; omega) (hv _)
  | issue m next ih =>
    intro l got n hw hn hv
    obtain ⟨n, rfl, hw⟩ := hw
    obtain ⟨hv, hv'⟩ := hv
    have hQ : l.length < Q := by omega
    rw [Spec.Impostor.drive]
    cases ho : old l.length with
    | some tag =>
      simp only [play, ho, Option.getD_some]
      exact ih _ _ _ n (hw _) (by rw [fake_length]; omega) (hv' _)
    | none =>
      simp only [play, ho, Option.getD_none, Spec.Forger.wins]
      rw [if_neg hv]
      let g : F → (Fin Q → F) → ℚ := fun b bs =>
        let r := play sp X cells (fun n m => (old n).getD (mac G x0 x1 m (Spec.stretch bs n)))
          (next (Spec.fakeIssue sp X m (mac G x0 x1 m b) (cells l.length)).1)
          (l ++ [(Spec.fakeIssue sp X m (mac G x0 x1 m b) (cells l.length)).2])
          (Function.update got l.length (some (mac G x0 x1 m b)))
        (k r.1 r.2.1 r.2.2).wins sp x0 x1 V
      have e : (Spec.mean fun bs : Fin Q → F => g (bs ⟨l.length, hQ⟩) bs) =
          Spec.mean fun b => Spec.mean fun bs => g b bs := by
        refine mean_coord _ g fun b bs b' => ?_
        simp only [g]
        rw [play_congr (cells' := cells)
          (tags' := fun n m => (old n).getD (mac G x0 x1 m (Spec.stretch bs n)))]
        · intros; rfl
        · intro k hk
          rw [fake_length] at hk
          funext m
          have := stretch_update id bs ⟨l.length, hQ⟩ b' (n := k) (by dsimp only; omega)
          simp only [id] at this
          rw [this]
      refine Eq.trans ?_ (Eq.trans e.symm ?_)
      · refine Sim.mean_congr fun b => ?_
        exact ih _ _ _ n (hw _) (by rw [fake_length]; omega) (hv' _)
      · refine Sim.mean_congr fun bs => ?_
        simp only [g]
        rw [stretch_of_lt bs hQ]

theorem wins_nonneg (sp : SystemParameters G) (x0 x1 : F) (V : Set F) (B : Spec.Forger G) :
    0 ≤ B.wins sp x0 x1 V := by
  induction B with
  | forge m tag => rw [Spec.Forger.wins]; split <;> norm_num
  | log x => rw [Spec.Forger.wins]; split <;> norm_num
  | query m next ih =>
    rw [Spec.Forger.wins]
    split
    · exact le_rfl
    · have h := Sim.mean_mono (α := F) (f := fun _ => 0) fun b =>
        ih ⟨b • basepoint G, (x0 + x1 * m.val) • (b • basepoint G)⟩
      rwa [Sim.mean_const (α := F) 0] at h

/-! ## The issuer's own queries -/

theorem checked_within {i : Issuer G} (A : Spec.Impostor G Spec.Attempt) : ∀ n, A.Within n →
    (A.checked i).Within (n + 2) := by
  induction A with
  | out o => intro n _; exact ⟨n + 1, rfl, fun _ => ⟨n, rfl, fun _ => trivial⟩⟩
  | ask t next ih =>
    rintro _ ⟨n, rfl, hw⟩
    exact ⟨n + 2, rfl, fun a => ih a n (hw a)⟩
  | issue m next ih =>
    rintro _ ⟨n, rfl, hw⟩
    exact ⟨n + 2, rfl, fun a => ih a n (hw a)⟩

theorem checked_out {sp : SystemParameters G} {X : G} {cells : ℕ → Spec.Cell} {tags : ℕ → Scalar → Tag G}
    {i : Issuer G} (A : Spec.Impostor G Spec.Attempt) : ∀ (l : Spec.HashLog) (got : ℕ → Option (Tag G)),
    (play sp X cells tags (A.checked i) l got).1 = (play sp X cells tags A l got).1 := by
  induction A with
  | out o => intros; rfl
  | ask t next ih => intro l got; exact ih _ _ _
  | issue m next ih => intro l got; exact ih _ _ _

theorem checked_mem {sp : SystemParameters G} {X : G} {cells : ℕ → Spec.Cell} {tags : ℕ → Scalar → Tag G}
    {i : Issuer G} {n : ℕ} (hn : n = 0 ∨ n = 1) (A : Spec.Impostor G Spec.Attempt) :
    ∀ (l : Spec.HashLog) (got : ℕ → Option (Tag G)),
    ∃ e ∈ (play sp X cells tags (A.checked i) l got).2.1,
      e.1 = (play sp X cells tags (A.checked i) l got).1.query i n := by
  induction A with
  | out o =>
    intro l got
    simp only [Spec.Impostor.checked, play]
    rcases hn with rfl | rfl
    · refine ⟨(o.query i 0, (l.lookup (o.query i 0)).getD (cells l.length).1), ?_, rfl⟩
      simp [Spec.HashLog.asked]
    · rw [Spec.HashLog.asked]
      exact ⟨_, List.mem_append_right _ (List.mem_singleton.2 rfl), rfl⟩
  | ask t next ih => intro l got; exact ih _ _ _
  | issue m next ih => intro l got; exact ih _ _ _

/-! ## Positions of the deciding queries -/

/-- The first place of a query. -/
def place (L : Spec.HashLog) (t : Transcript) : ℕ := L.findIdx fun e => decide (e.1 = t)

theorem place_spec {L : Spec.HashLog} {t : Transcript} (h : ∃ e ∈ L, e.1 = t) :
    place L t < L.length ∧ (∃ a, L[place L t]? = some (t, a)) ∧ ∀ e ∈ L.take (place L t), e.1 ≠ t := by
  obtain ⟨e, he, ht⟩ := h
  have hlt : place L t < L.length := List.findIdx_lt_length_of_exists ⟨e, he, by simpa using ht⟩
  refine ⟨hlt, ⟨L[place L t].2, ?_⟩, ?_⟩
  · have := List.findIdx_getElem (p := fun e : Transcript × Spec.Answer => decide (e.1 = t)) (w := hlt)
    rw [List.getElem?_eq_getElem hlt]
    congr 1
    exact Prod.ext (of_decide_eq_true this) rfl
  · intro e he
    obtain ⟨k, hk, rfl⟩ := List.mem_take_iff_getElem.1 he
    have := List.not_of_lt_findIdx (p := fun e : Transcript × Spec.Answer => decide (e.1 = t)) (xs := L) (i := k)
      (by have : k < place L t := by omega
          exact this)
    simpa using this

theorem query_not_issuance {O : Oracle} {i : Issuer G} {V : Set F} {o : Spec.Attempt} (h : o.Good O i V) (n : ℕ) :
    ¬ IsIssuance G (o.query i n) := by
  obtain ⟨p, -, -, hp, -⟩ := h
  rintro ⟨q, c, e⟩
  rw [Spec.Attempt.query, hp] at e
  simp only [Spec.onDecoded] at e
  split at e
  · exact nomatch C32_injective (show Spec.Query.ops (.validCredential _ _ _) = _ from e)
  · exact nomatch C32_injective (show Spec.Query.ops (.committedValuesEqual _ _ _) = _ from e)

theorem cellsOf_splice {Q : ℕ} (j : ℕ) (s s' : Fin Q → Spec.Cell × F) :
    cellsOf (Spec.splice j s s') = Spec.switch j (cellsOf s) (cellsOf s') := by
  funext n
  unfold cellsOf Spec.stretch Spec.switch Spec.splice
  by_cases h : n < Q <;> by_cases h' : n < j <;> simp [h, h']

theorem tagsOf_splice {Q : ℕ} (x0 x1 : F) (j : ℕ) (s s' : Fin Q → Spec.Cell × F) :
    tagsOf G x0 x1 (Spec.splice j s s') = Spec.switch j (tagsOf G x0 x1 s) (tagsOf G x0 x1 s') := by
  funext n m
  unfold tagsOf Spec.stretch Spec.switch Spec.splice
  by_cases h : n < Q <;> by_cases h' : n < j <;> simp [h, h']

section run
variable (O : Oracle) (sp : SystemParameters G) (x0 x1 : F) (V : Set F) (A : Spec.Impostor G Spec.Attempt) {Q : ℕ}

/-- The run with a tape, with the issuer's check. -/
noncomputable def final (s : Fin Q → Spec.Cell × F) : Spec.Attempt × Spec.HashLog × (ℕ → Option (Tag G)) :=
  play sp (x1 • sp.h) (cellsOf s) (tagsOf G x0 x1 s) (A.checked (Spec.issuerOf sp x0 x1)) [] fun _ => none

open Classical in
/-- The place of the deciding query of a successful run. -/
noncomputable def spot (n : ℕ) (s : Fin Q → Spec.Cell × F) : Option (Fin Q) :=
  let r := final sp x0 x1 A s
  if h : r.1.Good (r.2.1.oracle O) (Spec.issuerOf sp x0 x1) V ∧ place r.2.1 (r.1.query (Spec.issuerOf sp x0 x1) n) < Q
  then some ⟨_, h.2⟩ else none

variable {O sp x0 x1 V A}

theorem spot_isSome {n : ℕ} (hn : n = 0 ∨ n = 1) {T : ℕ} (hA : A.Within T) (hQ : T + 2 ≤ Q)
    (s : Fin Q → Spec.Cell × F) :
    (spot O sp x0 x1 V A n s).isSome ↔
      (final sp x0 x1 A s).1.Good ((final sp x0 x1 A s).2.1.oracle O) (Spec.issuerOf sp x0 x1) V := by
  unfold spot
  dsimp only
  split
  · rename_i h
    simp [h.1]
  · rename_i h
    simp only [Option.isSome_none, Bool.false_eq_true, false_iff]
    refine fun hg => h ⟨hg, ?_⟩
    have h1 := (place_spec (checked_mem (sp := sp) (X := x1 • sp.h) (cells := cellsOf s) (tags := tagsOf G x0 x1 s)
      (i := Spec.issuerOf sp x0 x1) hn A [] fun _ => none)).1
    have h2 := play_length (sp := sp) (X := x1 • sp.h) (cells := cellsOf s) (tags := tagsOf G x0 x1 s)
      (A.checked (Spec.issuerOf sp x0 x1)) [] (fun _ => none) _ (checked_within A T hA)
    simp only [List.length_nil, Nat.zero_add] at h2
    exact lt_of_lt_of_le h1 (h2.trans hQ)

theorem spot_eq_some {n : ℕ} {s : Fin Q → Spec.Cell × F} {j : Fin Q} (h : spot O sp x0 x1 V A n s = some j) :
    (final sp x0 x1 A s).1.Good ((final sp x0 x1 A s).2.1.oracle O) (Spec.issuerOf sp x0 x1) V ∧
    place (final sp x0 x1 A s).2.1 ((final sp x0 x1 A s).1.query (Spec.issuerOf sp x0 x1) n) = j := by
  unfold spot at h
  dsimp only at h
  split at h
  · rename_i hg
    cases h
    exact ⟨hg.1, rfl⟩
  · cases h

theorem oracle_chal {O : Oracle} {L : Spec.HashLog} {t : Transcript} {a : Spec.Answer} (h : L.lookup t = some a) :
    (L.oracle O).chal t "chal" 64 = a.1 := by
  simp [Spec.HashLog.oracle, h]

/-- Two successful runs that fork at the deciding query make the same query and get different challenges. -/
theorem spot_fork {n : ℕ} (hn : n = 0 ∨ n = 1) {s s' : Fin Q → Spec.Cell × F} {j : Fin Q}
    (h : spot O sp x0 x1 V A n s = some j) (h' : spot O sp x0 x1 V A n (Spec.splice j s s') = some j)
    (hr : (leVal (s j).1.1.1 : F) ≠ leVal (s' j).1.1.1) :
    let r := final sp x0 x1 A s
    let r' := final sp x0 x1 A (Spec.splice j s s')
    let i := Spec.issuerOf sp x0 x1
    r.1.Good (r.2.1.oracle O) i V ∧ r'.1.Good (r'.2.1.oracle O) i V ∧ r'.1.query i n = r.1.query i n ∧
      (leVal ((r.2.1.oracle O).chal (r.1.query i n) "chal" 64) : F) ≠
        leVal ((r'.2.1.oracle O).chal (r.1.query i n) "chal" 64) := by
  intro r r' i
  obtain ⟨g, e⟩ := spot_eq_some h
  obtain ⟨g', e'⟩ := spot_eq_some h'
  obtain ⟨l1, ⟨a, l2⟩, l3⟩ := place_spec (L := r.2.1) (t := r.1.query i n) (checked_mem (sp := sp) (X := x1 • sp.h) (cells := cellsOf s)
    (tags := tagsOf G x0 x1 s) (i := i) hn A [] fun _ => none)
  obtain ⟨k1, ⟨a', k2⟩, k3⟩ := place_spec (L := r'.2.1) (t := r'.1.query i n) (checked_mem (sp := sp) (X := x1 • sp.h)
    (cells := cellsOf (Spec.splice j s s')) (tags := tagsOf G x0 x1 (Spec.splice j s s')) (i := i) hn A []
    fun _ => none)
  rw [show place r.2.1 (r.1.query i n) = (j : ℕ) from e] at l2 l3
  rw [show place r'.2.1 (r'.1.query i n) = (j : ℕ) from e'] at k2 k3
  obtain ⟨f1, f2⟩ := fork_same (j := j) (fun n hn => by rw [cellsOf_splice]; exact (if_pos hn).symm)
    (fun n hn => by rw [tagsOf_splice]; exact (if_pos hn).symm) (query_not_issuance g n)
    (A.checked i) [] (fun _ => none) (fun _ => none) (Nat.zero_le _) l2 k2
  obtain ⟨f2, f3⟩ := f2 l3
  refine ⟨g, g', f1, ?_⟩
  have c1 := oracle_chal (O := O) (Knowledge.lookup_first l2 l3)
  have c2 := oracle_chal (O := O) (Knowledge.lookup_first k2 k3)
  rw [f1] at c2
  rw [show (r.2.1.oracle O).chal (r.1.query i n) "chal" 64 = a.1 from c1,
    show (r'.2.1.oracle O).chal (r.1.query i n) "chal" 64 = a'.1 from c2, f2, f3, cellsOf_splice]
  rw [Spec.switch, if_neg (lt_irrefl _), cellsOf_at s j.2, cellsOf_at s' j.2]
  exact hr

end run

/-! ## What the algorithm returns -/

theorem finish_wins {sp : SystemParameters G} {x0 x1 : F} {V : Set F} {o : Spec.Attempt}
    {p p' p'' : SignalCredentialPresentation G} (hP : p.presentation.rerandomizedNonce ≠ 0)
    (hR : p.rosterEntryCommitment = o.m • sp.h + o.r • sp.g) (hV : o.m ∈ V)
    (hs : Spec.YieldsMac (Spec.issuerOf sp x0 x1) p.presentation
      (ValidCredential.extract p.presentation.proof p'.presentation.proof))
    (hb : p.presentation.attributesBlinded =
      [(CommittedValuesEqual.extract p.rosterMembershipProof p''.rosterMembershipProof).m0.val •
          p.presentation.rerandomizedNonce +
        (CommittedValuesEqual.extract p.rosterMembershipProof p''.rosterMembershipProof).z0.val • sp.h])
    (hR' : p.rosterEntryCommitment =
      (CommittedValuesEqual.extract p.rosterMembershipProof p''.rosterMembershipProof).m0.val • sp.h +
        (CommittedValuesEqual.extract p.rosterMembershipProof p''.rosterMembershipProof).z1.val • sp.g) :
    (Spec.finish sp (x1 • sp.h) o p p' p'').wins sp x0 x1 V = 1 := by
  obtain ⟨s1, s2⟩ := hs
  rw [Spec.finish]
  generalize ValidCredential.extract p.presentation.proof p'.presentation.proof = s at *
  generalize CommittedValuesEqual.extract p.rosterMembershipProof p''.rosterMembershipProof = s' at *
  rw [s1] at hb
  simp only [Spec.issuerOf, List.cons.injEq, and_true] at hb
  have s2 : p.presentation.rerandomizedMacCommitment + s.minus_zQ.val • sp.h =
      (x0 + x1 * s.m0.val) • p.presentation.rerandomizedNonce := by
    have := s2
    rw [add_comm x0]
    simpa [Spec.MacValid, Spec.issuerOf, Spec.macFactor, Scalar.val_ofF] using this
  by_cases h1 : s'.m0.val ≠ o.m
  · rw [if_pos h1, Spec.Forger.wins, if_pos]
    have hne : s'.m0.val - o.m ≠ 0 := sub_ne_zero.2 h1
    have e : (s'.m0.val - o.m) • sp.h = (o.r - s'.z1.val) • sp.g := by
      rw [hR] at hR'
      rw [sub_smul, sub_smul, sub_eq_sub_iff_add_eq_add, ← hR']
      abel
    rw [div_eq_inv_mul, mul_smul, ← e, smul_smul, inv_mul_cancel₀ hne, one_smul]
  · rw [if_neg h1]
    rw [not_not] at h1
    by_cases h2 : s.m0.val = o.m
    · rw [if_pos h2, Spec.Forger.wins, if_pos]
      refine ⟨hV, hP, ?_⟩
      dsimp only
      rw [s2, h2]
    · rw [if_neg h2, Spec.Forger.wins, if_pos]
      refine ⟨hV, hP, ?_⟩
      dsimp only
      have hne : s.m0.val - s'.m0.val ≠ 0 := by rw [h1]; exact sub_ne_zero.2 h2
      have e : (s.m0.val - s'.m0.val) • p.presentation.rerandomizedNonce = (s'.z0.val - s.z0.val) • sp.h := by
        rw [sub_smul, sub_smul, sub_eq_sub_iff_add_eq_add, hb]
        abel
      have e' : p.presentation.rerandomizedNonce = ((s'.z0.val - s.z0.val) / (s.m0.val - s'.m0.val)) • sp.h := by
        rw [div_eq_inv_mul, mul_smul, ← e, smul_smul, inv_mul_cancel₀ hne, one_smul]
      generalize (s'.z0.val - s.z0.val) / (s.m0.val - s'.m0.val) = κ at *
      rw [s2, e']
      module

section assemble
variable (sp : SystemParameters G) (x0 x1 : F) (V : Set F) (A : Spec.Impostor G Spec.Attempt) {Q : ℕ}

/-- The output of the run with a tape. -/
noncomputable def output (s : Fin Q → Spec.Cell × F) : Spec.Attempt :=
  (play sp (x1 • sp.h) (cellsOf s) (tagsOf G x0 x1 s) A [] fun _ => none).1

/-- What the algorithm returns on outputs of runs. -/
def conclude (sp : SystemParameters G) (X : G) (o o' o'' : Spec.Attempt) : Spec.Forger G :=
  match o.presentation G, o'.presentation G, o''.presentation G with
  | some p, some p', some p'' => Spec.finish sp X o p p' p''
  | _, _, _ => .log 0

/-- The success of the algorithm on given tapes. -/
noncomputable def success (j k : ℕ) (s s' s'' : Fin Q → Spec.Cell × F) : ℚ :=
  (conclude sp (x1 • sp.h) (output sp x0 x1 A s) (output sp x0 x1 A (Spec.splice j s s'))
    (output sp x0 x1 A (Spec.splice k s s''))).wins sp x0 x1 V

variable {sp x0 x1 V A}

theorem forger_wins {T : ℕ} (hA : A.Within T) (hQ : T ≤ Q) (hV : A.Avoids V) (j k : ℕ)
    (c c' c'' : Fin Q → Spec.Cell) :
    (Spec.forger sp (x1 • sp.h) A j k (Spec.stretch c) (Spec.stretch c') (Spec.stretch c'')).wins sp x0 x1 V =
      Spec.mean fun b : Fin Q → F => Spec.mean fun b' : Fin Q → F => Spec.mean fun b'' : Fin Q → F =>
        success sp x0 x1 V A j k (fun n => (c n, b n)) (fun n => (c' n, b' n)) (fun n => (c'' n, b'' n)) := by
  have hQ' : ([] : Spec.HashLog).length + T ≤ Q := by simpa using hQ
  unfold Spec.forger
  rw [drive_wins (Q := Q) A [] _ T hA hQ' hV]
  refine Sim.mean_congr fun b => ?_
  dsimp only
  rw [drive_wins (Q := Q) A [] _ T hA hQ' hV]
  refine Sim.mean_congr fun b' => ?_
  dsimp only
  rw [drive_wins (Q := Q) A [] _ T hA hQ' hV]
  refine Sim.mean_congr fun b'' => ?_
  dsimp only
  rw [replay (τ' := fun n m => mac G x0 x1 m (Spec.stretch b' n)) A,
    replay (τ' := fun n m => mac G x0 x1 m (Spec.stretch b'' n)) A]
  unfold success output
  rw [cellsOf_splice, cellsOf_splice, tagsOf_splice, tagsOf_splice]
  rfl

theorem output_final (s : Fin Q → Spec.Cell × F) : output sp x0 x1 A s = (final sp x0 x1 A s).1 :=
  (checked_out A [] _).symm

/-- If both forks succeed, so does the algorithm. -/
theorem success_of_forks {O : Oracle} {s s' s'' : Fin Q → Spec.Cell × F} {j k : Fin Q}
    (h1 : spot O sp x0 x1 V A 0 s = some j) (h2 : spot O sp x0 x1 V A 1 s = some k)
    (h3 : spot O sp x0 x1 V A 0 (Spec.splice j s s') = some j) (h4 : (leVal (s j).1.1.1 : F) ≠ leVal (s' j).1.1.1)
    (h5 : spot O sp x0 x1 V A 1 (Spec.splice k s s'') = some k) (h6 : (leVal (s k).1.1.1 : F) ≠ leVal (s'' k).1.1.1) :
    success sp x0 x1 V A j k s s' s'' = 1 := by
  obtain ⟨g, g', q, d⟩ := spot_fork (.inl rfl) h1 h3 h4
  obtain ⟨-, g'', q', d'⟩ := spot_fork (.inr rfl) h2 h5 h6
  unfold success
  rw [output_final, output_final, output_final]
  generalize final sp x0 x1 A s = r at *
  generalize final sp x0 x1 A (Spec.splice j s s') = r' at *
  generalize final sp x0 x1 A (Spec.splice k s s'') = r'' at *
  obtain ⟨p, v, R, a1, a2, a3, a4, a5, a6⟩ := g
  obtain ⟨p', v', R', b1, b2, b3, -⟩ := g'
  obtain ⟨p'', v'', R'', c1, c2, c3, -⟩ := g''
  simp only [Spec.Attempt.query, a1, b1, Spec.onDecoded, if_true] at q d
  simp only [Spec.Attempt.query, a1, c1, Spec.onDecoded, Nat.one_ne_zero, if_false] at q' d'
  have hd : ∀ {b : Bytes} {p : SignalCredentialPresentation G},
      SignalCredentialPresentation.fromBytes b = .ok p →
      p.presentation.attributesRevealed = [] ∧ p.presentation.attributesBlinded.length = 1 := by
    intro b p hb
    obtain ⟨Cm, rest, ho, -⟩ := (C10_ok_iff b p).1 hb
    obtain ⟨o1, o2, -⟩ := ho.1
    exact ⟨o1, by rw [o2]; rfl⟩
  have hv : ∀ {O : Oracle} {p : SignalCredentialPresentation G} {v},
      SignalIssuer.verify O ⟨Spec.issuerOf sp x0 x1⟩ p = .ok v →
      v = ⟨p⟩ ∧ ∃ w, (Spec.issuerOf sp x0 x1).verify O p.presentation = .ok w := by
    intro O p v hv
    rw [SignalIssuer.verify] at hv
    obtain ⟨w, hw, hv⟩ := Res.bind_eq_ok.1 hv
    cases hv
    exact ⟨rfl, w, hw⟩
  obtain ⟨rfl, w, hw⟩ := hv a2
  obtain ⟨rfl, w', hw'⟩ := hv b2
  obtain ⟨rfl, w'', hw''⟩ := hv c2
  have hi : Spec.KeypairMatches (Spec.issuerOf sp x0 x1) :=
    ⟨Scalar.ofF x1, rfl, by rw [Scalar.val_ofF]; rfl⟩
  have hs := Knowledge.show_extract hi (hd a1) (hd b1) hw hw' q d
  obtain ⟨t1, -, t3⟩ := Knowledge.roster_extract (hd a1).2 (hd c1).2 a3 c3 q' d'
  have e : conclude sp (x1 • sp.h) r.1 r'.1 r''.1 = Spec.finish sp (x1 • sp.h) r.1 p p' p'' := by
    simp only [conclude, Spec.Attempt.presentation, a1, b1, c1]
  rw [e]
  exact finish_wins a4 a5 a6 hs t1 t3

/-- Three tapes, from three tapes of cells and three of coins. -/
def tapes (Q : ℕ) : ((Fin Q → Spec.Cell) × (Fin Q → Spec.Cell) × (Fin Q → Spec.Cell)) ×
      (Fin Q → F) × (Fin Q → F) × (Fin Q → F) ≃
    (Fin Q → Spec.Cell × F) × (Fin Q → Spec.Cell × F) × (Fin Q → Spec.Cell × F) where
  toFun p := (fun n => (p.1.1 n, p.2.1 n), fun n => (p.1.2.1 n, p.2.2.1 n), fun n => (p.1.2.2 n, p.2.2.2 n))
  invFun q := ((fun n => (q.1 n).1, fun n => (q.2.1 n).1, fun n => (q.2.2 n).1),
    fun n => (q.1 n).2, fun n => (q.2.1 n).2, fun n => (q.2.2 n).2)
  left_inv _ := rfl
  right_inv _ := rfl

theorem mean_forger {T : ℕ} (hA : A.Within T) (hQ : T ≤ Q) (hV : A.Avoids V) (j k : ℕ) :
    (Spec.mean fun c : (Fin Q → Spec.Cell) × (Fin Q → Spec.Cell) × (Fin Q → Spec.Cell) =>
      (Spec.forger sp (x1 • sp.h) A j k (Spec.stretch c.1) (Spec.stretch c.2.1) (Spec.stretch c.2.2)).wins sp x0 x1 V) =
    Spec.mean fun s : (Fin Q → Spec.Cell × F) × (Fin Q → Spec.Cell × F) × (Fin Q → Spec.Cell × F) =>
      success sp x0 x1 V A j k s.1 s.2.1 s.2.2 := by
  rw [← Sim.mean_equiv (tapes Q) fun s => success sp x0 x1 V A j k s.1 s.2.1 s.2.2]
  refine Eq.trans ?_ (Tagging.mean_prod _).symm
  refine Sim.mean_congr fun c => ?_
  refine (forger_wins hA hQ hV j k c.1 c.2.1 c.2.2).trans ?_
  refine Eq.trans ?_ (Tagging.mean_prod (fun q : (Fin Q → F) × (Fin Q → F) × (Fin Q → F) =>
    success sp x0 x1 V A j k (fun n => (c.1 n, q.1 n)) (fun n => (c.2.1 n, q.2.1 n))
      fun n => (c.2.2 n, q.2.2 n))).symm
  refine Sim.mean_congr fun b => ?_
  exact (Tagging.mean_prod (fun q : (Fin Q → F) × (Fin Q → F) =>
    success sp x0 x1 V A j k (fun n => (c.1 n, b n)) (fun n => (c.2.1 n, q.1 n)) fun n => (c.2.2 n, q.2 n))).symm

end assemble

/-- The probability that an adversary gets accepted. It may depend on the secret key in any way. -/
noncomputable def wins {S Ω : Type} [Fintype S] [Fintype Ω] (O : Oracle) (sp : S → SystemParameters G)
    (A : SystemParameters G → F × F → Ω → Spec.Impostor G Spec.Attempt) (V : Set F) : ℚ :=
  Spec.mean fun x : S × Ω × F × F =>
    let i := Spec.issuerOf (sp x.1) x.2.2.1 x.2.2.2
    ((A (sp x.1) x.2.2 x.2.1).checked i).expect
      (Spec.honestIssue O (sp x.1) (Scalar.ofF x.2.2.1) (Scalar.ofF x.2.2.2)) (Spec.Attempt.value O i V) []

/-- The probability that the algorithm succeeds, with such an adversary. -/
noncomputable def forges {S Ω : Type} [Fintype S] [Fintype Ω] (sp : S → SystemParameters G)
    (A : SystemParameters G → F × F → Ω → Spec.Impostor G Spec.Attempt) (V : Set F) (T : ℕ) : ℚ :=
  Spec.mean fun x : S × Ω × F × F => Spec.mean fun j : Fin (T + 2) × Fin (T + 2) =>
  Spec.mean fun c : (Fin (T + 2) → Spec.Cell) × (Fin (T + 2) → Spec.Cell) × (Fin (T + 2) → Spec.Cell) =>
    (Spec.forger (sp x.1) (x.2.2.2 • (sp x.1).h) (A (sp x.1) x.2.2 x.2.1) j.1 j.2 (Spec.stretch c.1)
      (Spec.stretch c.2.1) (Spec.stretch c.2.2)).wins (sp x.1) x.2.2.1 x.2.2.2 V

/-- The probability of success with simulated issuances. -/
noncomputable def simulated {S Ω : Type} [Fintype S] [Fintype Ω] (O : Oracle) (sp : S → SystemParameters G)
    (A : SystemParameters G → F × F → Ω → Spec.Impostor G Spec.Attempt) (V : Set F) (Q : ℕ) : ℚ :=
  Spec.mean fun x : (S × Ω × F × F) × (Fin Q → Spec.Cell × F) =>
    let r := final (sp x.1.1) x.1.2.2.1 x.1.2.2.2 (A (sp x.1.1) x.1.2.2 x.1.2.1) x.2
    r.1.value O (Spec.issuerOf (sp x.1.1) x.1.2.2.1 x.1.2.2.2) V r.2.1

section main
variable {S Ω : Type} [Fintype S] [Fintype Ω] {sp : S → SystemParameters G}
  {A : SystemParameters G → F × F → Ω → Spec.Impostor G Spec.Attempt} {V : Set F} {T : ℕ}

theorem value01 (O : Oracle) (i : Issuer G) (V : Set F) (o : Spec.Attempt) (l : Spec.HashLog) :
    0 ≤ o.value O i V l ∧ o.value O i V l ≤ 1 := by
  unfold Spec.Attempt.value
  split <;> norm_num

theorem impostor_le [Nonempty S] [Nonempty Ω] (O : Oracle) (hh : ∀ σ, (sp σ).h ≠ 0)
    (hA : ∀ σ k ω, (A (sp σ) k ω).Within T) :
    wins O sp A V ≤ simulated O sp A V (T + 2) + (T + 2) ^ 2 / ell := by
  unfold simulated wins
  rw [Tagging.mean_prod (α := S × Ω × F × F), ← Sim.mean_const (α := S × Ω × F × F) ((T + 2) ^ 2 / ell : ℚ), ← Sim.mean_add]
  refine Sim.mean_mono fun x => ?_
  have hw := checked_within (i := Spec.issuerOf (sp x.1) x.2.2.1 x.2.2.2) _ T (hA x.1 x.2.2 x.2.1)
  have h1 := expect_close (Sim.issue_close O (sp x.1) (hh x.1) (Scalar.ofF x.2.2.1) (Scalar.ofF x.2.2.2))
    (value01 O (Spec.issuerOf (sp x.1) x.2.2.1 x.2.2.2) V) _ [] (T + 2) hw
  rw [Scalar.val_ofF, Scalar.val_ofF] at h1
  have h2 := expect_tape (sp := sp x.1) (X := x.2.2.2 • (sp x.1).h) (x0 := x.2.2.1) (x1 := x.2.2.2)
    (Spec.Attempt.value O (Spec.issuerOf (sp x.1) x.2.2.1 x.2.2.2) V) (Q := T + 2) _ [] (fun _ => none) (T + 2) hw
    (by simp)
  change |_ - Spec.Impostor.expect (Spec.simulatedIssue (sp x.1) (x.2.2.2 • (sp x.1).h)
    (mac G x.2.2.1 x.2.2.2)) _ _ _| ≤ _ at h1
  rw [h2] at h1
  have h3 := (abs_sub_le_iff.1 h1).1
  simp only [List.length_nil, Nat.cast_zero, zero_add] at h3
  push_cast at h3
  rw [sub_le_iff_le_add'] at h3
  refine h3.trans (le_of_eq ?_)
  rw [sq]
  rfl

set_option synthInstance.maxSize 1000 in
theorem fork_le [Nonempty S] [Nonempty Ω] (O : Oracle) (hA : ∀ σ k ω, (A (sp σ) k ω).Within T)
    (hV : ∀ σ k ω, (A (sp σ) k ω).Avoids V)
    (hbig : 4 * (T + 2) / 2 ^ 252 ≤ simulated O sp A V (T + 2)) :
    simulated O sp A V (T + 2) / 2 * (simulated O sp A V (T + 2) / (4 * (T + 2)) - 1 / 2 ^ 252) ^ 2 ≤
      (T + 2) ^ 2 * forges sp A V T := by
  classical
  let B : S × Ω × F × F → Spec.Impostor G Spec.Attempt := fun x => A (sp x.1) x.2.2 x.2.1
  let run : ℕ → S × Ω × F × F → (Fin (T + 2) → Spec.Cell × F) → Option (Fin (T + 2)) := fun n x s =>
    spot O (sp x.1) x.2.2.1 x.2.2.2 V (B x) n s
  have hsome : ∀ n, n = 0 ∨ n = 1 → ∀ x s, (run n x s).isSome ↔
      (final (sp x.1) x.2.2.1 x.2.2.2 (B x) s).1.Good ((final (sp x.1) x.2.2.1 x.2.2.2 (B x) s).2.1.oracle O)
        (Spec.issuerOf (sp x.1) x.2.2.1 x.2.2.2) V := fun n hn x s =>
    spot_isSome hn (hA x.1 x.2.2 x.2.1) le_rfl s
  have hε : simulated O sp A V (T + 2) = Spec.prob fun x : (S × Ω × F × F) × (Fin (T + 2) → Spec.Cell × F) =>
      (run 0 x.1 x.2).isSome := by
    rw [← Sim.mean_indicator]
    refine Sim.mean_congr fun x => ?_
    rw [if_congr (hsome 0 (.inl rfl) x.1 x.2) rfl rfl]
    unfold Spec.Attempt.value
    congr
  have hcol : ∀ d : F, Spec.prob (fun c : Spec.Cell × F => (leVal c.1.1.1 : F) = d) ≤ 1 / 2 ^ 252 := by
    intro d
    refine le_trans (le_of_eq ?_) (Knowledge.collision d)
    rw [← Sim.mean_indicator, ← Sim.mean_indicator]
    rw [mean_fst fun c : Spec.Cell => if (leVal c.1.1 : F) = d then (1 : ℚ) else 0,
      mean_fst fun c : Spec.Answer => if (leVal c.1 : F) = d then (1 : ℚ) else 0]
  have hT : (0 : ℚ) < T + 2 := by positivity
  have key := Fork.double (Q := T + 2) (by omega) (run 0) (run 1)
    (fun x s => (hsome 0 (.inl rfl) x s).trans (hsome 1 (.inr rfl) x s).symm)
    (fun c : Spec.Cell × F => (leVal c.1.1.1 : F)) (1 / 2 ^ 252) hcol _ hε (by
      rw [le_div_iff₀ (by push_cast; positivity)]
      refine le_trans (le_of_eq ?_) hbig
      push_cast
      ring)
  push_cast at key
  refine key.trans ?_
  rw [← Sim.mean_indicator]
  have e : (T + 2 : ℚ) ^ 2 * forges sp A V T =
      Spec.mean fun x : (S × Ω × F × F) × (Fin (T + 2) → Spec.Cell × F) × (Fin (T + 2) → Spec.Cell × F) ×
          (Fin (T + 2) → Spec.Cell × F) =>
        ∑ j : Fin (T + 2) × Fin (T + 2), success (sp x.1.1) x.1.2.2.1 x.1.2.2.2 V (B x.1) j.1 j.2 x.2.1 x.2.2.1 x.2.2.2 := by
    unfold forges
    rw [Tagging.mean_prod (α := S × Ω × F × F), ← mean_mul]
    refine Sim.mean_congr fun x => ?_
    dsimp only
    rw [mean_sum]
    rw [show (Spec.mean fun j : Fin (T + 2) × Fin (T + 2) => _) = _ from Sim.mean_congr fun j =>
      mean_forger (sp := sp x.1) (x0 := x.2.2.1) (x1 := x.2.2.2) (hA x.1 x.2.2 x.2.1)
        (Nat.le_add_right T 2) (hV x.1 x.2.2 x.2.1) j.1 j.2]
    rw [Spec.mean, Fintype.card_prod, Fintype.card_fin]
    push_cast
    rw [← sq, mul_div_cancel₀ _ (by positivity)]
  rw [e]
  refine Sim.mean_mono fun x => ?_
  have nonneg : ∀ j : Fin (T + 2) × Fin (T + 2),
      0 ≤ success (sp x.1.1) x.1.2.2.1 x.1.2.2.2 V (B x.1) j.1 j.2 x.2.1 x.2.2.1 x.2.2.2 := fun j => wins_nonneg _ _ _ _ _
  split
  · rename_i h
    obtain ⟨j, k, h1, h2, ⟨h3, h4⟩, h5, h6⟩ := h
    refine le_trans (le_of_eq ?_) (Finset.single_le_sum (fun j _ => nonneg j) (Finset.mem_univ (j, k)))
    exact (success_of_forks h1 h2 h3 h4 h5 h6).symm
  · exact Finset.sum_nonneg fun j _ => nonneg j

end main

/-- C93, for adversaries that may depend on the secret key. -/
theorem reduction {S Ω : Type} [Fintype S] [Nonempty S] [Fintype Ω] [Nonempty Ω] (O : Oracle)
    (sp : S → SystemParameters G) (hh : ∀ σ, (sp σ).h ≠ 0)
    (A : SystemParameters G → F × F → Ω → Spec.Impostor G Spec.Attempt) (V : Set F) (T : ℕ)
    (hA : ∀ σ k ω, (A (sp σ) k ω).Within T) (hV : ∀ σ k ω, (A (sp σ) k ω).Avoids V)
    (ε : ℚ) (hε : ε + (T + 2) ^ 2 / ell ≤ wins O sp A V) :
    ε < 4 * (T + 2) / 2 ^ 252 ∨
      ε / 2 * (ε / (4 * (T + 2)) - 1 / 2 ^ 252) ^ 2 / (T + 2) ^ 2 ≤ forges sp A V T := by
  rcases lt_or_ge ε (4 * (T + 2) / 2 ^ 252) with h | h
  · exact .inl h
  right
  have hT : (0 : ℚ) < T + 2 := by positivity
  have h1 : ε ≤ simulated O sp A V (T + 2) := by
    have := impostor_le (V := V) O hh hA
    linarith
  have h2 := fork_le O hA hV (h.trans h1)
  rw [div_le_iff₀ (by positivity), mul_comm (forges _ _ _ _)]
  refine le_trans ?_ h2
  have h3 : (0 : ℚ) ≤ ε := le_trans (by positivity) h
  have h4 : 0 ≤ ε / (4 * (T + 2)) - 1 / 2 ^ 252 := by
    rw [sub_nonneg, le_div_iff₀ (by positivity)]
    refine le_trans (le_of_eq ?_) h
    ring
  have h5 := h3.trans h1
  gcongr

/-- The bound of C93, for adversaries that may depend on the secret key. -/
theorem bound {S Ω : Type} [Fintype S] [Nonempty S] [Fintype Ω] [Nonempty Ω] (O : Oracle)
    (sp : S → SystemParameters G) (hh : ∀ σ, (sp σ).h ≠ 0)
    (A : SystemParameters G → F × F → Ω → Spec.Impostor G Spec.Attempt) (V : Set F) (T : ℕ)
    (hA : ∀ σ k ω, (A (sp σ) k ω).Within T) (hV : ∀ σ k ω, (A (sp σ) k ω).Avoids V)
    (t : ℚ) (ht : 0 ≤ t) (hf : forges sp A V T ≤ t ^ 3 / (128 * (T + 2) ^ 4)) :
    wins O sp A V ≤ t + (T + 2) ^ 2 / ell + 8 * (T + 2) / 2 ^ 252 := by
  by_contra hlt
  rw [not_le] at hlt
  have hT : (0 : ℚ) < T + 2 := by positivity
  set ε : ℚ := wins O sp A V - (T + 2) ^ 2 / ell with hε
  have h1 : t + 8 * (T + 2) / 2 ^ 252 < ε := by rw [hε]; linarith
  have h0 : (0 : ℚ) < 8 * (T + 2) / 2 ^ 252 := by positivity
  have h2 : 8 * ((T : ℚ) + 2) / 2 ^ 252 ≤ ε := by linarith
  have hpos : 0 < ε := by linarith
  rcases reduction O sp hh A V T hA hV ε (by rw [hε]; linarith) with h | h
  · have : 4 * ((T : ℚ) + 2) / 2 ^ 252 ≤ 8 * (T + 2) / 2 ^ 252 := by gcongr; norm_num
    linarith
  · have h3 : ε / (8 * (T + 2)) ≤ ε / (4 * (T + 2)) - 1 / 2 ^ 252 := by
      have e : ε / (4 * (T + 2)) = ε / (8 * (T + 2)) + ε / (8 * (T + 2)) := by
        field_simp
        ring
      have : (1 : ℚ) / 2 ^ 252 ≤ ε / (8 * (T + 2)) := by
        rw [le_div_iff₀ (by positivity)]
        refine le_trans (le_of_eq ?_) h2
        ring
      linarith
    have h4 : ε / 2 * (ε / (8 * (T + 2))) ^ 2 / (T + 2) ^ 2 ≤ t ^ 3 / (128 * (T + 2) ^ 4) := by
      refine le_trans ?_ (h.trans hf)
      gcongr
    have h5 : ε / 2 * (ε / (8 * (T + 2))) ^ 2 / (T + 2) ^ 2 = ε ^ 3 / (128 * (T + 2) ^ 4) := by
      field_simp
      ring
    rw [h5, div_le_div_iff_of_pos_right (by positivity)] at h4
    have := lt_of_pow_lt_pow_left₀ 3 hpos.le (lt_of_le_of_lt h4 (pow_lt_pow_left₀ (show t < ε by linarith) ht (by norm_num)))
    exact lt_irrefl _ this

end Reduction

/-! ## C93 -/

/-- **C93**: for every way to choose parameters (with `h` not the identity), every algorithm that makes at
most `T` hash queries and requests for issuance, and every set `V` of numbers that it does not get issued:
if it gets accepted for a roster entry for a number in `V` with probability `ε + (T+2)²/ℓ`, then
`Spec.forger`, which only uses MACs on the numbers that were issued, either forges a MAC on a number in `V`
or finds the logarithm of `h` to the base `g`, with probability at least `ε/2·(ε/(4(T+2)) - 2⁻²⁵²)²/(T+2)²`,
unless `ε` is below `4(T+2)·2⁻²⁵²`. -/
theorem C93_reduction {S Ω : Type} [Fintype S] [Nonempty S] [Fintype Ω] [Nonempty Ω] (O : Oracle)
    (sp : S → SystemParameters G) (hh : ∀ σ, (sp σ).h ≠ 0)
    (A : SystemParameters G → G → Ω → Spec.Impostor G Spec.Attempt) (V : Set F) (T : ℕ)
    (hA : ∀ σ X ω, (A (sp σ) X ω).Within T) (hV : ∀ σ X ω, (A (sp σ) X ω).Avoids V)
    (ε : ℚ) (hε : ε + (T + 2) ^ 2 / ell ≤ Spec.impostorWins O sp A V) :
    ε < 4 * (T + 2) / 2 ^ 252 ∨
      ε / 2 * (ε / (4 * (T + 2)) - 1 / 2 ^ 252) ^ 2 / (T + 2) ^ 2 ≤ Spec.forgerWins sp A V T :=
  Reduction.reduction O sp hh (fun sp k ω => A sp (k.2 • sp.h) ω) V T (fun σ _ ω => hA σ _ ω) (fun σ _ ω => hV σ _ ω) ε hε

/-- **C93**, the same as a bound on the success of the adversary, without side conditions: if the algorithm succeeds
with probability at most `t³/(128(T+2)⁴)`, the adversary succeeds with probability at most
`t + (T+2)²/ℓ + 8(T+2)·2⁻²⁵²`. -/
theorem C93_bound {S Ω : Type} [Fintype S] [Nonempty S] [Fintype Ω] [Nonempty Ω] (O : Oracle)
    (sp : S → SystemParameters G) (hh : ∀ σ, (sp σ).h ≠ 0)
    (A : SystemParameters G → G → Ω → Spec.Impostor G Spec.Attempt) (V : Set F) (T : ℕ)
    (hA : ∀ σ X ω, (A (sp σ) X ω).Within T) (hV : ∀ σ X ω, (A (sp σ) X ω).Avoids V)
    (t : ℚ) (ht : 0 ≤ t) (hf : Spec.forgerWins sp A V T ≤ t ^ 3 / (128 * (T + 2) ^ 4)) :
    Spec.impostorWins O sp A V ≤ t + (T + 2) ^ 2 / ell + 8 * (T + 2) / 2 ^ 252 :=
  Reduction.bound O sp hh (fun sp k ω => A sp (k.2 • sp.h) ω) V T (fun σ _ ω => hA σ _ ω) (fun σ _ ω => hV σ _ ω) t ht hf

namespace Reduction

omit [AddCommGroup G] [Module F G] [Ristretto G] in
theorem within_mono (B : Spec.Forger G) : ∀ q q', q ≤ q' → B.Within q → B.Within q' := by
  induction B with
  | forge m tag => exact fun _ _ _ _ => trivial
  | log x => exact fun _ _ _ _ => trivial
  | query m next ih =>
    rintro _ q' hq ⟨q, rfl, hw⟩
    exact ⟨q' - 1, by omega, fun t => ih t q _ (by omega) (hw t)⟩

theorem drive_within {sp : SystemParameters G} {X : G} {cells : ℕ → Spec.Cell} {old : ℕ → Option (Tag G)}
    {k : Out → Spec.HashLog → (ℕ → Option (Tag G)) → Spec.Forger G} {q : ℕ} (hk : ∀ o l got, (k o l got).Within q)
    (A : Spec.Impostor G Out) : ∀ (l : Spec.HashLog) (got : ℕ → Option (Tag G)) (n : ℕ), A.Within n →
      (A.drive sp X cells old k l got).Within (n + q) := by
  induction A with
  | out o => intro l got n _; exact within_mono _ q _ (by omega) (hk o l got)
  | ask t next ih =>
    rintro l got _ ⟨n, rfl, hw⟩
    exact within_mono _ (n + q) _ (by omega) (ih _ _ _ n (hw _))
  | issue m next ih =>
    rintro l got _ ⟨n, rfl, hw⟩
    rw [Spec.Impostor.drive]
    cases old l.length with
    | some tag => exact within_mono _ (n + q) _ (by omega) (ih _ _ _ n (hw _))
    | none => exact ⟨n + q, by omega, fun t => ih _ _ _ n (hw _)⟩

end Reduction

/-- **C93**: the algorithm of `C93_reduction` makes at most `3T` requests for tags. -/
theorem C93_cost (sp : SystemParameters G) (X : G) (A : Spec.Impostor G Spec.Attempt) (T : ℕ) (hA : A.Within T)
    (j j' : ℕ) (c c' c'' : ℕ → Spec.Cell) : (Spec.forger sp X A j j' c c' c'').Within (3 * T) := by
  rw [show 3 * T = T + (T + (T + 0)) by omega]
  refine Reduction.drive_within (fun o l got => ?_) A _ _ T hA
  refine Reduction.drive_within (fun o' l' got' => ?_) A _ _ T hA
  refine Reduction.drive_within (fun o'' l'' got'' => ?_) A _ _ T hA
  split
  · unfold Spec.finish
    dsimp only
    split
    · trivial
    · split <;> trivial
  · trivial

/-- An adversary that gets 7 issued and then asks one query makes two steps, and avoids 8. -/
example (t : Transcript) : (Spec.Impostor.issue (G := F) ⟨7, by decide +kernel⟩ fun _ => .ask t fun _ =>
      .out (⟨8, 0, []⟩ : Spec.Attempt)).Within 2 ∧
    (Spec.Impostor.issue (G := F) ⟨7, by decide +kernel⟩ fun _ => .ask t fun _ =>
      .out (⟨8, 0, []⟩ : Spec.Attempt)).Avoids {8} :=
  ⟨⟨1, rfl, fun _ => ⟨0, rfl, fun _ => trivial⟩⟩, by rw [Set.mem_singleton_iff]; decide +kernel, fun _ _ => trivial⟩

/-! ## The converse -/

/-- Presents a tag on `m`, for the roster entry `m·h + z·g`, which is claimed to be `n·h`. Nothing is hidden. -/
def Spec.presentAs (sp : SystemParameters G) (X : G) (m z n : F) (tag : Tag G) : Spec.Impostor G Spec.Attempt :=
  let C := m • tag.nonce
  let R := m • sp.h + z • sp.g
  let p : ValidCredential.Publics G := ⟨sp.g, sp.h, X, tag.nonce, 0, C⟩
  let p' : CommittedValuesEqual.Publics G := ⟨sp.g, sp.h, tag.nonce, C, R⟩
  .ask (ValidCredential.verifyTranscript [.init "AEONFLUX SHOW"] p (ValidCredential.commitmentsOf p ⟨0, 0, 0⟩)) fun a =>
  .ask (CommittedValuesEqual.verifyTranscript [.init "SIGNAL GROUP MEMBERSHIP"] p'
    (CommittedValuesEqual.commitmentsOf p' ⟨0, 0, 0⟩)) fun a' =>
  .out ⟨n, 0, (Knowledge.honestPresentation R tag.mac tag.nonce C ⟨Scalar.ofF m, 0, 0⟩ ⟨Scalar.ofF m, 0, Scalar.ofF z⟩
    ⟨0, 0, 0⟩ ⟨0, 0, 0⟩ (Scalar.fromWide a.1) (Scalar.fromWide a'.1)).toBytes⟩

open Classical in
/-- An adversary from an algorithm that forges MACs or finds the logarithm of `h`: tags are taken from issuances;
a forged tag is presented; with the logarithm, the roster entry of an issued number `m₁` also
commits to `n`. -/
noncomputable def Spec.Forger.impostor (sp : SystemParameters G) (X : G) (V : Set F) (m₁ : Scalar) (n : F) :
    Spec.Forger G → Spec.Impostor G Spec.Attempt
  | .forge m tag => Spec.presentAs sp X m 0 m tag
  | .log x => .issue m₁ fun c => Spec.presentAs sp X m₁.val ((n - m₁.val) * x) n c.credential.mac
  | .query m next =>
    if m.val ∈ V then .out ⟨0, 0, []⟩
    else .issue m fun c => (next c.credential.mac).impostor sp X V m₁ n

/-- The probability that an algorithm that gets the parameters and the public key succeeds. -/
noncomputable def Spec.forgeryWins {S Ω : Type} [Fintype S] [Fintype Ω] (sp : S → SystemParameters G)
    (B : SystemParameters G → G → Ω → Spec.Forger G) (V : Set F) : ℚ :=
  Spec.mean fun x : S × Ω × F × F => (B (sp x.1) (x.2.2.2 • (sp x.1).h) x.2.1).wins (sp x.1) x.2.2.1 x.2.2.2 V

namespace Reduction

theorem lookup_asked (l : Spec.HashLog) (t : Transcript) (a : Spec.Answer) :
    (l.asked t a).lookup t = some ((l.lookup t).getD a) := by
  rw [Spec.HashLog.asked, List.lookup_append]
  cases l.lookup t <;> simp

theorem lookup_mono {l : Spec.HashLog} {t u : Transcript} {a b : Spec.Answer} (h : l.lookup t = some b) :
    (l.asked u a).lookup t = some b := by
  rw [Spec.HashLog.asked, List.lookup_append, h]
  rfl

theorem presentAs_good {O : Oracle} {sp : SystemParameters G} {x0 x1 m z n : F} {V : Set F} {tag : Tag G}
    (hP : tag.nonce ≠ 0) (ht : tag.mac = (x0 + x1 * m) • tag.nonce) (hn : n ∈ V)
    (hz : m • sp.h + z • sp.g = n • sp.h) (l : Spec.HashLog) :
    ((Spec.presentAs sp (x1 • sp.h) m z n tag).checked (Spec.issuerOf sp x0 x1)).expect
      (Spec.honestIssue O sp (Scalar.ofF x0) (Scalar.ofF x1)) (Spec.Attempt.value O (Spec.issuerOf sp x0 x1) V) l = 1 := by
  unfold Spec.presentAs
  simp only [Spec.Impostor.checked, Spec.Impostor.expect]
  refine Eq.trans ?_ (Sim.mean_const (α := Spec.Answer) 1)
  refine Sim.mean_congr fun a => ?_
  refine Eq.trans ?_ (Sim.mean_const (α := Spec.Answer) 1)
  refine Sim.mean_congr fun a' => ?_
  refine Eq.trans ?_ (Sim.mean_const (α := Spec.Answer) 1)
  refine Sim.mean_congr fun a'' => ?_
  refine Eq.trans ?_ (Sim.mean_const (α := Spec.Answer) 1)
  refine Sim.mean_congr fun d' => ?_
  unfold Spec.Attempt.value
  rw [if_pos]
  set t := ValidCredential.verifyTranscript [.init "AEONFLUX SHOW"]
    (⟨sp.g, sp.h, x1 • sp.h, tag.nonce, 0, m • tag.nonce⟩ : ValidCredential.Publics G)
    (ValidCredential.commitmentsOf ⟨sp.g, sp.h, x1 • sp.h, tag.nonce, 0, m • tag.nonce⟩ ⟨0, 0, 0⟩) with ht'
  set t' := CommittedValuesEqual.verifyTranscript [.init "SIGNAL GROUP MEMBERSHIP"]
    (⟨sp.g, sp.h, tag.nonce, m • tag.nonce, m • sp.h + z • sp.g⟩ : CommittedValuesEqual.Publics G)
    (CommittedValuesEqual.commitmentsOf ⟨sp.g, sp.h, tag.nonce, m • tag.nonce, m • sp.h + z • sp.g⟩ ⟨0, 0, 0⟩) with ht''
  have c1 : ∀ u u', (((((l.asked t a).asked t' a').asked u a'').asked u' d').oracle O).chal t "chal" 64 =
      ((l.lookup t).getD a).1 := fun u u' =>
    oracle_chal (lookup_mono (lookup_mono (lookup_mono (lookup_asked l t a))))
  have c2 : ∀ u u', (((((l.asked t a).asked t' a').asked u a'').asked u' d').oracle O).chal t' "chal" 64 =
      (((l.asked t a).lookup t').getD a').1 := fun u u' =>
    oracle_chal (lookup_mono (lookup_mono (lookup_asked (l.asked t a) t' a')))
  generalize ((l.asked t a).lookup t').getD a' = b' at c1 c2 ⊢
  generalize (l.lookup t).getD a = b at c1 c2 ⊢
  have hs : Spec.ValidCredential (⟨sp.g, sp.h, x1 • sp.h, tag.nonce, 0, m • tag.nonce⟩ : ValidCredential.Publics G)
      ⟨Scalar.ofF m, 0, 0⟩ := by
    refine ⟨?_, ?_⟩ <;> simp [Scalar.val_ofF]
  have hs' : Spec.CommittedValuesEqual
      (⟨sp.g, sp.h, tag.nonce, m • tag.nonce, m • sp.h + z • sp.g⟩ : CommittedValuesEqual.Publics G)
      ⟨Scalar.ofF m, 0, Scalar.ofF z⟩ := by
    refine ⟨?_, ?_⟩ <;> simp [Scalar.val_ofF]
  have hv : (0 : G) = Scalar.ofF x0 • tag.nonce + Scalar.ofF x1 • (m • tag.nonce) - tag.mac := by
    rw [ht, Scalar.smul_def, Scalar.smul_def, Scalar.val_ofF, Scalar.val_ofF]
    module
  refine ⟨_, ⟨Knowledge.honestPresentation (m • sp.h + z • sp.g) tag.mac tag.nonce (m • tag.nonce)
    ⟨Scalar.ofF m, 0, 0⟩ ⟨Scalar.ofF m, 0, Scalar.ofF z⟩ ⟨0, 0, 0⟩ ⟨0, 0, 0⟩ (Scalar.fromWide b.1)
    (Scalar.fromWide b'.1)⟩, m • sp.h + z • sp.g, (C10_roundtrip _ (m • tag.nonce) ?_).1, ?_, ?_, hP, ?_, hn⟩
  · exact ⟨⟨rfl, rfl, Scalar.reduced_fromWide _, Scalar.reduced_add _ _, Scalar.reduced_add _ _,
      Scalar.reduced_add _ _⟩, Scalar.reduced_fromWide _, Scalar.reduced_add _ _,
      Scalar.reduced_add _ _, Scalar.reduced_add _ _⟩
  · rw [SignalIssuer.verify]
    simp only [Knowledge.honestPresentation, Spec.issuerOf]
    rw [verify_one, ← hv, if_pos]
    · rfl
    rw [ValidCredential.verify, ValidCredential.recommit_respond hs, decide_eq_true_iff, getChallenge]
    exact congrArg Scalar.fromWide (c1 _ _)
  · simp only [Knowledge.honestPresentation, Spec.issuerOf]
    rw [verifyRoster_one, if_pos]
    rw [CommittedValuesEqual.verify, CommittedValuesEqual.recommit_respond hs', decide_eq_true_iff,
      getChallenge]
    exact congrArg Scalar.fromWide (c2 _ _)
  · simp only [Knowledge.honestPresentation, Spec.issuerOf, hz, zero_smul, add_zero]

theorem honest01 (O : Oracle) (sp : SystemParameters G) (x0 x1 : Scalar) (m : Scalar) (l : Spec.HashLog)
    (f : Spec.HashLog → CredentialIssuance G → ℚ) (hf : Sim.Unit01 f) :
    0 ≤ Spec.honestIssue O sp x0 x1 m l f ∧ Spec.honestIssue O sp x0 x1 m l f ≤ 1 :=
  Sim.mean01 fun _ => Sim.mean01 fun _ => Sim.mean01 fun _ => Sim.mean01 fun _ => hf _ _

/-- If the continuation is good for all tags but bad on average by at most `δ`, so is the whole. -/
theorem honest_ge (O : Oracle) (sp : SystemParameters G) (x0 x1 : F) (m : Scalar) (l : Spec.HashLog)
    (f : Spec.HashLog → CredentialIssuance G → ℚ) (g : F → ℚ)
    (h : ∀ b l' c, c.credential.mac = ⟨b • basepoint G, (x0 + x1 * m.val) • (b • basepoint G)⟩ → g b ≤ f l' c) :
    Spec.mean g ≤ Spec.honestIssue O sp (Scalar.ofF x0) (Scalar.ofF x1) m l f := by
  unfold Spec.honestIssue
  refine Sim.mean_mono fun b => ?_
  refine le_trans (le_of_eq (Sim.mean_const (α := F) (g b)).symm) (Sim.mean_mono fun z => ?_)
  refine le_trans (le_of_eq (Sim.mean_const (α := F × F × F × F) (g b)).symm) (Sim.mean_mono fun ρ => ?_)
  refine le_trans (le_of_eq (Sim.mean_const (α := Spec.Answer) (g b)).symm) (Sim.mean_mono fun a => ?_)
  refine h b _ _ ?_
  simp only [Spec.issued, Scalar.val_ofF]

theorem impostor_expect {O : Oracle} {sp : SystemParameters G} {x0 x1 n : F} {V : Set F} {m₁ : Scalar}
    (hn : n ∈ V) (B : Spec.Forger G) : ∀ l : Spec.HashLog,
    B.wins sp x0 x1 V - 1 / ell ≤
      ((B.impostor sp (x1 • sp.h) V m₁ n).checked (Spec.issuerOf sp x0 x1)).expect
        (Spec.honestIssue O sp (Scalar.ofF x0) (Scalar.ofF x1)) (Spec.Attempt.value O (Spec.issuerOf sp x0 x1) V) l := by
  have hell : (0 : ℚ) < 1 / ell := by have := Tagging.ell_pos; positivity
  have nonneg : ∀ (A : Spec.Impostor G Spec.Attempt) l, 0 ≤ A.expect
      (Spec.honestIssue O sp (Scalar.ofF x0) (Scalar.ofF x1)) (Spec.Attempt.value O (Spec.issuerOf sp x0 x1) V) l :=
    fun A l => (expect01 (honest01 O sp _ _) (value01 O _ V) A l).1
  induction B with
  | forge m tag =>
    intro l
    rw [Spec.Forger.wins]
    split
    · rename_i h
      rw [Spec.Forger.impostor, presentAs_good h.2.1 h.2.2 h.1 (by rw [zero_smul, add_zero])]
      linarith
    · exact le_trans (by linarith) (nonneg _ l)
  | log x =>
    intro l
    rw [Spec.Forger.wins]
    split
    · rename_i h
      rw [Spec.Forger.impostor, Spec.Impostor.checked, Spec.Impostor.expect]
      have e : (Spec.mean fun b : F => if b = 0 then (0 : ℚ) else 1) = 1 - 1 / ell := by
        have e1 : (Spec.mean fun b : F => if b = 0 then (0 : ℚ) else 1) =
            Spec.mean fun b : F => 1 - if b = 0 then (1 : ℚ) else 0 := by
          refine Sim.mean_congr fun b => ?_
          split <;> norm_num
        have e2 : (Spec.mean fun b : F => if b = 0 then (1 : ℚ) else 0) = 1 / ell := by
          unfold Spec.mean
          rw [Finset.sum_ite_eq' Finset.univ (0 : F) (fun _ => (1 : ℚ)), if_pos (Finset.mem_univ _), ZMod.card]
        rw [e1, Sim.mean_sub, Sim.mean_const (α := F) 1, e2]
      rw [← e]
      refine honest_ge O sp x0 x1 m₁ l _ _ fun b l' c hc => ?_
      split
      · exact nonneg _ l'
      · rename_i hb
        rw [hc, presentAs_good (fun e => hb (by rwa [← zero_smul F (basepoint G), smul_right_inj' Ristretto.base_ne] at e)) rfl hn]
        rw [mul_smul, ← h]
        module
    · exact le_trans (by linarith) (nonneg _ l)
  | query m next ih =>
    intro l
    rw [Spec.Forger.wins]
    split
    · exact le_trans (by linarith) (nonneg _ l)
    · rename_i h
      rw [Spec.Forger.impostor, if_neg h, Spec.Impostor.checked, Spec.Impostor.expect]
      rw [← Sim.mean_const (α := F) (1 / ell : ℚ), ← Sim.mean_sub]
      refine honest_ge O sp x0 x1 m l _ _ fun b l' c hc => ?_
      rw [hc]
      exact ih _ l'

theorem presentAs_within {sp : SystemParameters G} {X : G} {m z n : F} {tag : Tag G} (k : ℕ) :
    (Spec.presentAs sp X m z n tag).Within (k + 2) :=
  ⟨k + 1, rfl, fun _ => ⟨k, rfl, fun _ => trivial⟩⟩

theorem impostor_within {sp : SystemParameters G} {X : G} {n : F} {V : Set F} {m₁ : Scalar} (B : Spec.Forger G) :
    ∀ q, B.Within q → (B.impostor sp X V m₁ n).Within (q + 3) := by
  induction B with
  | forge m tag => intro q _; exact presentAs_within (q + 1)
  | log x => intro q _; exact ⟨q + 2, rfl, fun _ => presentAs_within q⟩
  | query m next ih =>
    rintro _ ⟨q, rfl, hw⟩
    rw [Spec.Forger.impostor]
    split
    · trivial
    · exact ⟨q + 3, rfl, fun c => ih _ q (hw _)⟩

theorem impostor_avoids {sp : SystemParameters G} {X : G} {n : F} {V : Set F} {m₁ : Scalar} (hm : m₁.val ∉ V)
    (B : Spec.Forger G) : (B.impostor sp X V m₁ n).Avoids V := by
  induction B with
  | forge m tag => exact fun _ _ => trivial
  | log x => exact ⟨hm, fun _ _ _ => trivial⟩
  | query m next ih =>
    rw [Spec.Forger.impostor]
    split
    · trivial
    · rename_i h
      exact ⟨h, fun c => ih _⟩

end Reduction

/-- **C93**, converse: every algorithm that forges MACs on numbers in `V`, or finds the logarithm of `h`, gives an
adversary that gets accepted for a number in `V` with the same probability, up to `1/ℓ`. It makes one request for
every tag, and three steps more; it does not get any number in `V` issued. -/
theorem C93_converse {S Ω : Type} [Fintype S] [Nonempty S] [Fintype Ω] [Nonempty Ω] (O : Oracle)
    (sp : S → SystemParameters G) (B : SystemParameters G → G → Ω → Spec.Forger G) (V : Set F) (m₁ : Scalar) (n : F)
    (hm : m₁.val ∉ V) (hn : n ∈ V) (q : ℕ) (hB : ∀ σ X ω, (B (sp σ) X ω).Within q) :
    let A : SystemParameters G → G → Ω → Spec.Impostor G Spec.Attempt := fun sp X ω => (B sp X ω).impostor sp X V m₁ n
    Spec.forgeryWins sp B V - 1 / ell ≤ Spec.impostorWins O sp A V ∧
      (∀ σ X ω, (A (sp σ) X ω).Within (q + 3)) ∧ ∀ σ X ω, (A (sp σ) X ω).Avoids V := by
  intro A
  refine ⟨?_, fun σ X ω => Reduction.impostor_within _ q (hB σ X ω), fun σ X ω => Reduction.impostor_avoids hm _⟩
  unfold Spec.forgeryWins Spec.impostorWins
  rw [← Sim.mean_const (α := S × Ω × F × F) (1 / ell : ℚ), ← Sim.mean_sub]
  exact Sim.mean_mono fun x => Reduction.impostor_expect hn _ []

/-- In the toy group logarithms are easy: the algorithm that returns the logarithm of `h` always succeeds. The adversary
that one gets from it satisfies the hypotheses of `C93_reduction`, with `ε` more than one half. -/
example (O : Oracle) : ∃ (A : SystemParameters F → F → Unit → Spec.Impostor F Spec.Attempt) (V : Set F) (ε : ℚ),
    (∀ X ω, (A ⟨1, 4⟩ X ω).Within 3 ∧ (A ⟨1, 4⟩ X ω).Avoids V) ∧
    1 / 2 < ε ∧ ε + ((3 : ℕ) + 2) ^ 2 / ell ≤ Spec.impostorWins O (fun _ : Unit => ⟨1, 4⟩) A V := by
  obtain ⟨h1, h2, h3⟩ := C93_converse (Ω := Unit) O (fun _ : Unit => (⟨1, 4⟩ : SystemParameters F))
    (fun sp _ _ => .log (sp.h / sp.g)) {8} ⟨7, by decide +kernel⟩ 8
    (by rw [Set.mem_singleton_iff]; decide +kernel) rfl 0 fun _ _ _ => trivial
  refine ⟨_, _, 1 - 26 / ell, fun X ω => ⟨h2 () X ω, h3 () X ω⟩, ?_, le_trans (le_of_eq ?_) h1⟩
  · have : (52 : ℚ) < ell := by exact_mod_cast (by decide +kernel : 52 < ell)
    have hp : (0 : ℚ) < ell := by linarith
    have : 26 / (ell : ℚ) < 1 / 2 := by rw [div_lt_div_iff₀ hp (by norm_num)]; linarith
    linarith
  · have e : Spec.forgeryWins (fun _ : Unit => (⟨1, 4⟩ : SystemParameters F))
        (fun sp _ (_ : Unit) => .log (sp.h / sp.g)) {8} = 1 := by
      unfold Spec.forgeryWins
      refine Eq.trans (Sim.mean_congr fun x => ?_) (Sim.mean_const (α := Unit × Unit × F × F) 1)
      rw [Spec.Forger.wins, if_pos]
      simp
    rw [e]
    push_cast
    ring

end Verif
