import Verif.Props.Theft

/-!
# Making an issuance without the issuer (C104)

A user accepts an issuance after `User::obtain_finish` (user.rs:140-172). Can anybody but the issuer make one that is
accepted? The adversary here has the public key and gets attributes of its choice issued.
-/

set_option maxRecDepth 100000

namespace Verif

open Amacs

variable {G : Type} [AddCommGroup G] [Module F G] [Ristretto G]

/-! ## The game -/

/-- What the proof in an issuance is about, for a user with system parameters `sp` and issuer parameters `X`. -/
def Spec.issuancePublics (sp : SystemParameters G) (X : G) (c : CredentialIssuance G) : IssuanceRevealed.Publics G :=
  ⟨c.credential.mac.nonce, c.credential.mac.mac, c.secretKeyCommitment, sp.g, sp.h, X⟩

/-- The hash query that such a user makes. -/
def Spec.acceptQuery (sp : SystemParameters G) (X : G) (c : CredentialIssuance G) : Transcript :=
  IssuanceRevealed.verifyTranscript [.init "AEONFLUX ISSUANCE"] (Spec.issuancePublics sp X c)
    (IssuanceRevealed.recommit (Spec.issuancePublics sp X c) c.proof)

/-- The same for an encoded issuance. -/
def Spec.mintQuery (sp : SystemParameters G) (X : G) (b : Bytes) : Transcript :=
  Spec.onDecoded (CredentialIssuance.fromBytes (G := G) b) (Spec.acceptQuery sp X)

/-- A user accepts the bytes as an issuance, and it is none of `cs`: the key commitment, the tag or the proof differs.
(The attributes are not protected, see C35.) -/
def Spec.Minted (O : Oracle) (u : User G) (b : Bytes) (cs : List (CredentialIssuance G)) : Prop :=
  ∃ c : CredentialIssuance G, CredentialIssuance.fromBytes b = .ok c ∧ (u.obtainFinish O (some c)).1 = .ok () ∧
    ∀ c' ∈ cs, (c'.secretKeyCommitment, c'.credential.mac, c'.proof) ≠ (c.secretKeyCommitment, c.credential.mac, c.proof)

/-- The bytes that the adversary sends are handed to a user, who makes a hash query; all issuances that were received are
noted, after `cs`. -/
def Spec.Impostor.delivered (sp : SystemParameters G) (X : G) :
    Spec.Impostor G Bytes → List (CredentialIssuance G) → Spec.Impostor G (Bytes × List (CredentialIssuance G))
  | .out b, cs => .ask (Spec.mintQuery sp X b) fun _ => .out (b, cs)
  | .ask t next, cs => .ask t fun a => (next a).delivered sp X cs
  | .issue m next, cs => .issue m fun c => (next c).delivered sp X (c :: cs)

open Classical in
/-- The probability that an adversary makes a new issuance that a user accepts. It is given the parameters and the public
key; setup `σ`, coins `ω` and the issuer's secret key are uniform. -/
noncomputable def Spec.minterWins {S Ω : Type} [Fintype S] [Fintype Ω] (O : Oracle) (sp : S → SystemParameters G)
    (A : SystemParameters G → G → Ω → Spec.Impostor G Bytes) : ℚ :=
  Spec.mean fun x : S × Ω × F × F =>
    let X := x.2.2.2 • (sp x.1).h
    ((A (sp x.1) X x.2.1).delivered (sp x.1) X []).expect
      (Spec.honestIssue O (sp x.1) (Scalar.ofF x.2.2.1) (Scalar.ofF x.2.2.2))
      (fun o l => if Spec.Minted (l.oracle O) (User.new (sp x.1) ⟨[X]⟩ none) o.1 o.2 then 1 else 0) []

/-! ## The two algorithms -/

/-- A tag on `m` for the secret key `x0`, `x1`, where only `X = x1·h` is known. -/
def Spec.knownTag (sp : SystemParameters G) (X : G) (x0 : F) (m : Scalar) (b : F) : Tag G :=
  ⟨b • sp.h, (x0 * b) • sp.h + (m.val * b) • X⟩

/-- The proof in an encoded issuance. -/
def Spec.proofIn (G : Type) [AddCommGroup G] [Module F G] [Ristretto G] (b : Bytes) : IssuanceRevealed.Proof :=
  match CredentialIssuance.fromBytes (G := G) b with
  | .ok c => c.proof
  | _ => ⟨0, 0, 0, 0, 0⟩

/-- Finds the logarithm of `X` to the base `h`: runs the adversary twice, with the same randomness up to the query about
what it sends. Tags are made with `x0` of its own, issuances from the tags. -/
def Spec.unlock (sp : SystemParameters G) (X : G) (x0 : F) (A : Spec.Impostor G Bytes) (c c' : ℕ → Spec.Cell)
    (b b' : ℕ → F) : F :=
  let run := fun (c : ℕ → Spec.Cell) (b : ℕ → F) =>
    Reduction.play sp X c (fun n m => Spec.knownTag sp X x0 m (b n)) (A.delivered sp X []) [] fun _ => none
  let r := run c b
  let j := Reduction.place r.2.1 (Spec.mintQuery sp X r.1.1)
  let r' := run (Spec.switch j c c') (Spec.switch j b b')
  (IssuanceRevealed.extract (Spec.proofIn G r.1.1) (Spec.proofIn G r'.1.1)).x1.val

/-- The coins of the steps, from a tape. -/
noncomputable def Spec.coinsOf {Q : ℕ} (s : Fin Q → Spec.Cell × F) : ℕ → F := Spec.stretch fun k => (s k).2

open Classical in
/-- The probability that it finds the logarithm, `X` and everything else being uniform. -/
noncomputable def Spec.unlockWins {S Ω : Type} [Fintype S] [Fintype Ω] (sp : S → SystemParameters G)
    (A : SystemParameters G → G → Ω → Spec.Impostor G Bytes) (T : ℕ) : ℚ :=
  Spec.mean fun x : S × Ω × F × F =>
  Spec.mean fun s : (Fin (T + 1) → Spec.Cell × F) × (Fin (T + 1) → Spec.Cell × F) =>
    let X := x.2.2.2 • (sp x.1).h
    if X = Spec.unlock (sp x.1) X x.2.2.1 (A (sp x.1) X x.2.1) (Reduction.cellsOf s.1) (Reduction.cellsOf s.2)
      (Spec.coinsOf s.1) (Spec.coinsOf s.2) • (sp x.1).h then 1 else 0

/-- Possible logarithms of `h` to the base `g`, from bytes and issuances: quotients of differences of responses. -/
def Spec.quotients (b : Bytes) (cs : List (CredentialIssuance G)) : List F :=
  cs.map fun c => -(((Spec.proofIn G b).responses.x0.val - c.proof.responses.x0.val) /
    ((Spec.proofIn G b).responses.x0_tilde.val - c.proof.responses.x0_tilde.val))

/-- One of them is the logarithm. -/
def Spec.Divided (sp : SystemParameters G) (b : Bytes) (cs : List (CredentialIssuance G)) : Prop :=
  ∃ y ∈ Spec.quotients b cs, sp.h = y • sp.g

open Classical in
/-- The probability that one of them is the logarithm, if the adversary is run once, with issuances under a key of one's
own. -/
noncomputable def Spec.quotientWins {S Ω : Type} [Fintype S] [Fintype Ω] (O : Oracle) (sp : S → SystemParameters G)
    (A : SystemParameters G → G → Ω → Spec.Impostor G Bytes) : ℚ :=
  Spec.mean fun x : S × Ω × F × F =>
    let X := x.2.2.2 • (sp x.1).h
    ((A (sp x.1) X x.2.1).delivered (sp x.1) X []).expect
      (Spec.honestIssue O (sp x.1) (Scalar.ofF x.2.2.1) (Scalar.ofF x.2.2.2))
      (fun o _ => if Spec.Divided (sp x.1) o.1 o.2 then 1 else 0) []

namespace Mint

open Spec.Impostor Reduction

/-! ## Expectations -/

theorem delivered_within {sp : SystemParameters G} {X : G} (A : Spec.Impostor G Bytes) :
    ∀ cs n, A.Within n → (A.delivered sp X cs).Within (n + 1) := by
  induction A with
  | out b => intro cs n _; exact ⟨n, rfl, fun _ => trivial⟩
  | ask t next ih =>
    rintro cs _ ⟨n, rfl, h⟩
    exact ⟨n + 1, rfl, fun a => ih a cs n (h a)⟩
  | issue m next ih =>
    rintro cs _ ⟨n, rfl, h⟩
    exact ⟨n + 1, rfl, fun c => ih c _ n (h c)⟩

theorem expect_add {Out : Type} (O : Oracle) (sp : SystemParameters G) (x0 x1 : Scalar) (f g : Out → Spec.HashLog → ℚ)
    (A : Spec.Impostor G Out) : ∀ l, A.expect (Spec.honestIssue O sp x0 x1) (fun o l => f o l + g o l) l =
      A.expect (Spec.honestIssue O sp x0 x1) f l + A.expect (Spec.honestIssue O sp x0 x1) g l := by
  induction A with
  | out o => intro l; rfl
  | ask t next ih =>
    intro l
    simp only [expect]
    rw [← Sim.mean_add]
    exact Sim.mean_congr fun a => ih _ _
  | issue m next ih =>
    intro l
    simp only [expect, Deputy.issue_step]
    simp only [ih, Sim.mean_add]

/-- What holds of the issuances received so far: the hash was asked, the challenge is its answer, the proof is
canonical, and the nonce is not the identity. -/
def Sound (sp : SystemParameters G) (X : G) (cs : List (CredentialIssuance G)) (l : Spec.HashLog) : Prop :=
  ∀ c ∈ cs, (∃ a, l.lookup (Spec.acceptQuery sp X c) = some a ∧ c.proof.challenge = Scalar.fromWide a.1) ∧
    (c.proof.responses.x0.Reduced ∧ c.proof.responses.x1.Reduced ∧ c.proof.responses.x0_tilde.Reduced ∧
      c.proof.responses.m1x1.Reduced) ∧ c.credential.mac.nonce ≠ 0

theorem sound_asked {sp : SystemParameters G} {X : G} {cs : List (CredentialIssuance G)} {l : Spec.HashLog}
    (h : Sound sp X cs l) (t : Transcript) (a : Spec.Answer) : Sound sp X cs (l.asked t a) := by
  intro c hc
  obtain ⟨⟨b, h1, h2⟩, h3⟩ := h c hc
  exact ⟨⟨b, lookup_mono h1, h2⟩, h3⟩

theorem issueQuery_eq (sp : SystemParameters G) (x0 x1 : F) (m : Scalar) (b z : F) (ρ : F × F × F × F) (a : Spec.Answer) :
    Spec.acceptQuery sp (x1 • sp.h) (Deputy.issueWith sp (Scalar.ofF x0) (Scalar.ofF x1) m b z ρ a) =
      Deputy.issueQuery sp (Scalar.ofF x0) (Scalar.ofF x1) m b z ρ := by
  unfold Spec.acceptQuery Deputy.issueQuery
  rw [IssuanceRevealed.zkQuery_eq]
  simp only [Spec.issuancePublics, Deputy.issueWith, Scalar.val_ofF]
  rw [IssuanceRevealed.recommit_respond]
  simp only [Spec.IssuanceRevealed, Scalar.val_ofF, Scalar.val_mul]
  exact ⟨by module, trivial, trivial⟩

theorem sound_issue {sp : SystemParameters G} {x0 x1 : F} {cs : List (CredentialIssuance G)} {l : Spec.HashLog}
    (h : Sound sp (x1 • sp.h) cs l) (m : Scalar) {b : F} (hb : b ≠ 0) (z : F) (ρ : F × F × F × F) (a : Spec.Answer) :
    let t := Deputy.issueQuery sp (Scalar.ofF x0) (Scalar.ofF x1) m b z ρ
    Sound sp (x1 • sp.h)
      (Deputy.issueWith sp (Scalar.ofF x0) (Scalar.ofF x1) m b z ρ ((l.lookup t).getD a) :: cs) (l.asked t a) := by
  intro t c hc
  rcases List.mem_cons.1 hc with rfl | hc
  · refine ⟨⟨(l.lookup t).getD a, ?_, rfl⟩, ?_, ?_⟩
    · rw [issueQuery_eq]
      exact lookup_asked l t a
    · simp [Deputy.issueWith, IssuanceRevealed.respond]
    · exact smul_ne_zero hb Ristretto.base_ne
  · exact sound_asked h t a c hc

/-- It is enough to compare the values at the ends that can be reached, except for nonces that are the identity. -/
theorem expect_le (O : Oracle) (sp : SystemParameters G) (x0 x1 : F)
    {f g : Bytes × List (CredentialIssuance G) → Spec.HashLog → ℚ} (hf : ∀ o l, f o l ≤ 1) (hg : ∀ o l, 0 ≤ g o l)
    (hfg : ∀ b cs l, Sound sp (x1 • sp.h) cs l → f (b, cs) l ≤ g (b, cs) l) (A : Spec.Impostor G Bytes) :
    ∀ cs l n, A.Within n → Sound sp (x1 • sp.h) cs l →
      (A.delivered sp (x1 • sp.h) cs).expect (Spec.honestIssue O sp (Scalar.ofF x0) (Scalar.ofF x1)) f l ≤
      (A.delivered sp (x1 • sp.h) cs).expect (Spec.honestIssue O sp (Scalar.ofF x0) (Scalar.ofF x1)) g l + n / ell := by
  classical
  have hell : (0 : ℚ) < ell := Tagging.ell_pos
  have top : ∀ (A : Spec.Impostor G (Bytes × List (CredentialIssuance G))) l,
      A.expect (Spec.honestIssue O sp (Scalar.ofF x0) (Scalar.ofF x1)) f l ≤ 1 := by
    intro A
    induction A with
    | out o => intro l; exact hf o l
    | ask t next ih =>
      intro l
      exact le_of_le_of_eq (Sim.mean_mono fun a => ih _ _) (Sim.mean_const (α := Spec.Answer) 1)
    | issue m next ih =>
      intro l
      simp only [expect, Deputy.issue_step]
      refine le_of_le_of_eq (Sim.mean_mono fun b => ?_) (Sim.mean_const (α := F) 1)
      refine le_of_le_of_eq (Sim.mean_mono fun z => ?_) (Sim.mean_const (α := F) 1)
      refine le_of_le_of_eq (Sim.mean_mono fun ρ => ?_) (Sim.mean_const (α := F × F × F × F) 1)
      exact le_of_le_of_eq (Sim.mean_mono fun a => ih _ _) (Sim.mean_const (α := Spec.Answer) 1)
  have bot : ∀ (A : Spec.Impostor G (Bytes × List (CredentialIssuance G))) l,
      0 ≤ A.expect (Spec.honestIssue O sp (Scalar.ofF x0) (Scalar.ofF x1)) g l := by
    intro A
    induction A with
    | out o => intro l; exact hg o l
    | ask t next ih =>
      intro l
      exact le_of_eq_of_le (Sim.mean_const (α := Spec.Answer) 0).symm (Sim.mean_mono fun a => ih _ _)
    | issue m next ih =>
      intro l
      simp only [expect, Deputy.issue_step]
      refine le_of_eq_of_le (Sim.mean_const (α := F) 0).symm (Sim.mean_mono fun b => ?_)
      refine le_of_eq_of_le (Sim.mean_const (α := F) 0).symm (Sim.mean_mono fun z => ?_)
      refine le_of_eq_of_le (Sim.mean_const (α := F × F × F × F) 0).symm (Sim.mean_mono fun ρ => ?_)
      exact le_of_eq_of_le (Sim.mean_const (α := Spec.Answer) 0).symm (Sim.mean_mono fun a => ih _ _)
  induction A with
  | out b =>
    intro cs l n _ hs
    simp only [delivered, expect]
    refine le_add_of_le_of_nonneg (Sim.mean_mono fun a => ?_) (by positivity)
    exact hfg _ _ _ (sound_asked hs _ _)
  | ask t next ih =>
    rintro cs l _ ⟨n, rfl, hn⟩ hs
    simp only [delivered, expect]
    have h1 : ((n : ℕ) : ℚ) / ell ≤ ((n + 1 : ℕ) : ℚ) / ell :=
      div_le_div_of_nonneg_right (by push_cast; linarith) hell.le
    refine le_trans ?_ (add_le_add_right h1 _)
    rw [← Sim.mean_const (α := Spec.Answer) ((n : ℚ) / ell), ← Sim.mean_add]
    exact Sim.mean_mono fun a => ih _ cs _ n (hn _) (sound_asked hs _ _)
  | issue m next ih =>
    rintro cs l _ ⟨n, rfl, hn⟩ hs
    simp only [delivered, expect, Deputy.issue_step]
    have h1 : (Spec.mean fun b : F => if b = 0 then (1 : ℚ) else 0) ≤ 1 / ell :=
      Echo.mean_unique fun τ τ' h h' => h.trans h'.symm
    have h2 : ((n + 1 : ℕ) : ℚ) / ell = n / ell + 1 / ell := by push_cast; ring
    rw [h2, ← add_assoc]
    refine le_trans ?_ (add_le_add_right h1 _)
    rw [← Sim.mean_const (α := F) ((n : ℚ) / ell), ← Sim.mean_add, ← Sim.mean_add]
    refine Sim.mean_mono fun b => ?_
    by_cases hb : b = 0
    · rw [if_pos hb]
      refine le_trans (b := 1) ?_ ?_
      · refine le_of_le_of_eq (Sim.mean_mono fun z => ?_) (Sim.mean_const (α := F) 1)
        refine le_of_le_of_eq (Sim.mean_mono fun ρ => ?_) (Sim.mean_const (α := F × F × F × F) 1)
        exact le_of_le_of_eq (Sim.mean_mono fun a => top _ _) (Sim.mean_const (α := Spec.Answer) 1)
      · refine le_add_of_nonneg_left (add_nonneg ?_ (by positivity))
        refine le_of_eq_of_le (Sim.mean_const (α := F) 0).symm (Sim.mean_mono fun z => ?_)
        refine le_of_eq_of_le (Sim.mean_const (α := F × F × F × F) 0).symm (Sim.mean_mono fun ρ => ?_)
        exact le_of_eq_of_le (Sim.mean_const (α := Spec.Answer) 0).symm (Sim.mean_mono fun a => bot _ _)
    · rw [if_neg hb, add_zero, ← Sim.mean_const (α := F) ((n : ℚ) / ell), ← Sim.mean_add]
      refine Sim.mean_mono fun z => ?_
      rw [← Sim.mean_const (α := F × F × F × F) ((n : ℚ) / ell), ← Sim.mean_add]
      refine Sim.mean_mono fun ρ => ?_
      rw [← Sim.mean_const (α := Spec.Answer) ((n : ℚ) / ell), ← Sim.mean_add]
      exact Sim.mean_mono fun a => ih _ _ _ n (hn _) (sound_issue hs m hb z ρ a)

/-! ## Accepted issuances -/

/-- What was sent is accepted, and its query is not that of an issuance that was received. -/
def Novel (O : Oracle) (sp : SystemParameters G) (X : G) (o : Bytes × List (CredentialIssuance G)) (l : Spec.HashLog) :
    Prop :=
  ∃ c : CredentialIssuance G, CredentialIssuance.fromBytes o.1 = .ok c ∧
    IssuanceRevealed.verify (l.oracle O) [.init "AEONFLUX ISSUANCE"] c.proof (Spec.issuancePublics sp X c) = true ∧
    ∀ c' ∈ o.2, Spec.acceptQuery sp X c' ≠ Spec.acceptQuery sp X c

theorem accepted {O : Oracle} {sp : SystemParameters G} {X : G} {c : CredentialIssuance G}
    (h : ((User.new sp ⟨[X]⟩ none).obtainFinish O (some c)).1 = .ok ()) :
    IssuanceRevealed.verify O [.init "AEONFLUX ISSUANCE"] c.proof (Spec.issuancePublics sp X c) = true := by
  unfold User.obtainFinish at h
  dsimp only [User.new, List.getElem?_cons_zero] at h
  split at h
  · assumption
  · cases h

theorem query_inj {sp : SystemParameters G} {X : G} {c c' : CredentialIssuance G}
    (h : Spec.acceptQuery sp X c' = Spec.acceptQuery sp X c) :
    Spec.issuancePublics sp X c' = Spec.issuancePublics sp X c ∧
    IssuanceRevealed.recommit (Spec.issuancePublics sp X c') c'.proof =
      IssuanceRevealed.recommit (Spec.issuancePublics sp X c) c.proof := by
  have := C32_injective (show Spec.Query.ops (.issuanceRevealed "AEONFLUX ISSUANCE" _ _) =
    Spec.Query.ops (.issuanceRevealed "AEONFLUX ISSUANCE" _ _) from h)
  simp only [Spec.Query.issuanceRevealed.injEq, true_and] at this
  exact this

/-- A new issuance with the query of one that was received gives the logarithm of `h`. -/
theorem cases {O : Oracle} {sp : SystemParameters G} {X : G} (hg : sp.g ≠ 0) (hh : sp.h ≠ 0) {b : Bytes}
    {cs : List (CredentialIssuance G)} {l : Spec.HashLog} (hs : Sound sp X cs l)
    (h : Spec.Minted (l.oracle O) (User.new sp ⟨[X]⟩ none) b cs) :
    Novel O sp X (b, cs) l ∨ Spec.Divided sp b cs := by
  obtain ⟨c, h1, h2, h3⟩ := h
  have hv := accepted h2
  by_cases hn : ∀ c' ∈ cs, Spec.acceptQuery sp X c' ≠ Spec.acceptQuery sp X c
  · exact .inl ⟨c, h1, hv, hn⟩
  push Not at hn
  obtain ⟨c', hc', hq⟩ := hn
  obtain ⟨⟨a, s1, s2⟩, ⟨r0, r1, r2, r3⟩, s4⟩ := hs c' hc'
  obtain ⟨m, rest, ⟨-, -, u0, u1, u2, u3, u4⟩, -⟩ := (C08_ok_iff b c).1 h1
  obtain ⟨q1, q2⟩ := query_inj hq
  have hch : c'.proof.challenge = c.proof.challenge := by
    have : getChallenge (l.oracle O) (Spec.acceptQuery sp X c) = c.proof.challenge := of_decide_eq_true hv
    rw [← hq, Sim.getChallenge_oracle s1] at this
    rw [s2, this]
  have p1 : c'.credential.mac.nonce = c.credential.mac.nonce := congrArg IssuanceRevealed.Publics.P q1
  have p2 : c'.credential.mac.mac = c.credential.mac.mac := congrArg IssuanceRevealed.Publics.Q q1
  have p3 : c'.secretKeyCommitment = c.secretKeyCommitment := congrArg IssuanceRevealed.Publics.Cx0 q1
  have k1 := congrArg IssuanceRevealed.Commitments.Q q2
  have k2 := congrArg IssuanceRevealed.Commitments.Cx0 q2
  have k3 := congrArg IssuanceRevealed.Commitments.X1 q2
  simp only [IssuanceRevealed.recommit, Spec.issuancePublics, msm, List.zipWith_cons_cons, List.zipWith_nil_right,
    List.sum_cons, List.sum_nil, Scalar.smul_def, hch, p1, p2, p3, add_zero] at k1 k2 k3
  rw [p1] at s4
  set P := c.credential.mac.nonce
  have j2 : (c.proof.responses.x0.val - c'.proof.responses.x0.val) • sp.g +
      (c.proof.responses.x0_tilde.val - c'.proof.responses.x0_tilde.val) • sp.h = 0 := by
    rw [← add_assoc, ← add_assoc, add_left_inj] at k2
    refine Eq.trans ?_ (sub_eq_zero.2 k2.symm)
    module
  by_cases ht : c.proof.responses.x0_tilde.val - c'.proof.responses.x0_tilde.val = 0
  · exfalso
    rw [ht, zero_smul, add_zero] at j2
    have e0 := (smul_eq_zero.1 j2).resolve_right hg
    rw [sub_eq_zero] at e0 ht
    have e3 : c.proof.responses.m1x1.val = c'.proof.responses.m1x1.val := by
      rw [e0, add_right_inj, add_left_inj] at k1
      exact (smul_left_injective F s4 k1).symm
    have e1 : c.proof.responses.x1.val = c'.proof.responses.x1.val := by
      rw [add_left_inj] at k3
      exact (smul_left_injective F hh k3).symm
    refine h3 c' hc' ?_
    rw [p3, show c'.credential.mac = c.credential.mac from Tag.ext p1 p2]
    congr 2
    refine IssuanceRevealed.Proof.ext hch (IssuanceRevealed.Responses.ext ?_ ?_ ?_ ?_)
    · exact Scalar.val_inj_of_reduced r0 u1 e0.symm
    · exact Scalar.val_inj_of_reduced r1 u2 e1.symm
    · exact Scalar.val_inj_of_reduced r2 u3 ht.symm
    · exact Scalar.val_inj_of_reduced r3 u4 e3.symm
  · refine .inr ⟨_, List.mem_map.2 ⟨c', hc', rfl⟩, ?_⟩
    have hp : Spec.proofIn G b = c.proof := by simp only [Spec.proofIn, h1]
    rw [hp]
    have : (c.proof.responses.x0_tilde.val - c'.proof.responses.x0_tilde.val) • sp.h =
        (c.proof.responses.x0_tilde.val - c'.proof.responses.x0_tilde.val) •
          (-((c.proof.responses.x0.val - c'.proof.responses.x0.val) /
            (c.proof.responses.x0_tilde.val - c'.proof.responses.x0_tilde.val))) • sp.g := by
      rw [smul_smul, mul_neg, mul_div_cancel₀ _ ht, neg_smul]
      exact eq_neg_of_add_eq_zero_right j2
    exact smul_right_injective G ht this

/-! ## Runs -/

section
variable {sp : SystemParameters G} {X : G} {cells cells' : ℕ → Spec.Cell} {tags tags' : ℕ → Scalar → Tag G}

theorem play_mono (A : Spec.Impostor G Bytes) : ∀ (cs : List (CredentialIssuance G)) (l : Spec.HashLog)
    (got : ℕ → Option (Tag G)), cs ⊆ (play sp X cells tags (A.delivered sp X cs) l got).1.2 := by
  induction A with
  | out b => intro cs l got; exact fun _ h => h
  | ask t next ih => intro cs l got; exact ih _ _ _ _
  | issue m next ih => intro cs l got; exact fun c h => ih _ _ _ _ (List.mem_cons_of_mem _ h)

/-- Two runs with the same randomness before step `j` make the same query at step `j`, unless that is the query of an
issuance which the first of them receives; if the query is new, then the answers are those for the step. -/
theorem run_fork {j : ℕ} (hc : ∀ n < j, cells n = cells' n) (ht : ∀ n < j, tags n = tags' n) {t t' : Transcript}
    {a a' : Spec.Answer} (A : Spec.Impostor G Bytes) :
    ∀ (cs cs' : List (CredentialIssuance G)) (l : Spec.HashLog) (got got' : ℕ → Option (Tag G)), l.length ≤ j →
      (play sp X cells tags (A.delivered sp X cs) l got).2.1[j]? = some (t, a) →
      (play sp X cells' tags' (A.delivered sp X cs') l got').2.1[j]? = some (t', a') →
      (∃ c ∈ (play sp X cells tags (A.delivered sp X cs) l got).1.2, Spec.acceptQuery sp X c = t) ∨
      (t' = t ∧ ((∀ e ∈ (play sp X cells tags (A.delivered sp X cs) l got).2.1.take j, e.1 ≠ t) →
        a = (cells j).1 ∧ a' = (cells' j).1)) := by
  have step : ∀ {Out : Type} (q : Transcript) (B B' : Spec.Answer → Spec.Impostor G Out) (l : Spec.HashLog)
      (got got' : ℕ → Option (Tag G)), j = l.length →
      (play sp X cells tags (.ask q B) l got).2.1[j]? = some (t, a) →
      (play sp X cells' tags' (.ask q B') l got').2.1[j]? = some (t', a') →
      (t' = t ∧ ((∀ e ∈ (play sp X cells tags (.ask q B) l got).2.1.take j, e.1 ≠ t) →
        a = (cells j).1 ∧ a' = (cells' j).1)) := by
    rintro Out q B B' l got got' rfl h1 h2
    simp only [play] at h1 h2 ⊢
    obtain ⟨u1, u2⟩ := prefix_at (e := (q, (l.lookup q).getD (cells l.length).1))
      (play_prefix (sp := sp) (X := X) (cells := cells) (tags := tags)
        (B ((l.lookup q).getD (cells l.length).1)) (l.asked q (cells l.length).1) got)
    obtain ⟨v1, v2⟩ := prefix_at (e := (q, (l.lookup q).getD (cells' l.length).1))
      (play_prefix (sp := sp) (X := X) (cells := cells') (tags := tags')
        (B' ((l.lookup q).getD (cells' l.length).1)) (l.asked q (cells' l.length).1) got')
    rw [u1] at h1
    rw [v1] at h2
    cases h1
    cases h2
    refine ⟨rfl, fun hn => ?_⟩
    rw [u2] at hn
    rw [Knowledge.lookup_none hn]
    exact ⟨rfl, rfl⟩
  induction A with
  | out b =>
    intro cs cs' l got got' hj h1 h2
    rcases Nat.lt_or_ge l.length j with hlt | hge
    · simp only [delivered, play] at h1
      rw [List.getElem?_eq_none (by rw [asked_length]; omega)] at h1
      cases h1
    · exact .inr (step _ _ _ l got got' (by omega) h1 h2)
  | ask q next ih =>
    intro cs cs' l got got' hj h1 h2
    rcases Nat.lt_or_ge l.length j with hlt | hge
    · simp only [delivered, play] at h1 h2 ⊢
      rw [← hc _ hlt] at h2
      exact ih _ _ _ _ _ _ (by rw [asked_length]; omega) h1 h2
    · exact .inr (step _ _ _ l got got' (by omega) h1 h2)
  | issue m next ih =>
    intro cs cs' l got got' hj h1 h2
    rcases Nat.lt_or_ge l.length j with hlt | hge
    · simp only [delivered, play] at h1 h2 ⊢
      rw [← hc _ hlt, ← ht _ hlt] at h2
      exact ih _ _ _ _ _ _ (by rw [fake_length]; omega) h1 h2
    · obtain rfl : j = l.length := by omega
      simp only [delivered, play] at h1 ⊢
      obtain ⟨u1, -⟩ := prefix_at (play_prefix (sp := sp) (X := X) (cells := cells) (tags := tags)
        ((next (Spec.fakeIssue sp X m (tags l.length m) (cells l.length)).1).delivered sp X
          ((Spec.fakeIssue sp X m (tags l.length m) (cells l.length)).1 :: cs))
        (l ++ [(Spec.fakeIssue sp X m (tags l.length m) (cells l.length)).2])
        (Function.update got l.length (some (tags l.length m))))
      rw [u1] at h1
      cases h1
      exact .inl ⟨_, play_mono _ _ _ _ List.mem_cons_self, rfl⟩

theorem delivered_mem (A : Spec.Impostor G Bytes) : ∀ (cs : List (CredentialIssuance G)) (l : Spec.HashLog)
    (got : ℕ → Option (Tag G)), ∃ e ∈ (play sp X cells tags (A.delivered sp X cs) l got).2.1,
      e.1 = Spec.mintQuery sp X (play sp X cells tags (A.delivered sp X cs) l got).1.1 := by
  induction A with
  | out b =>
    intro cs l got
    simp only [delivered, play]
    exact ⟨_, List.mem_append_right _ (List.mem_singleton.2 rfl), rfl⟩
  | ask t next ih => intro cs l got; exact ih _ _ _ _
  | issue m next ih => intro cs l got; exact ih _ _ _ _

/-- Only the randomness of the steps that are made matters. -/
theorem play_congr_within {Out : Type} (A : Spec.Impostor G Out) : ∀ (l : Spec.HashLog) (got : ℕ → Option (Tag G)) (n : ℕ),
    A.Within n → (∀ k < l.length + n, cells k = cells' k) → (∀ k < l.length + n, tags k = tags' k) →
    play sp X cells tags A l got = play sp X cells' tags' A l got := by
  induction A with
  | out o => intros; rfl
  | ask t next ih =>
    rintro l got _ ⟨n, rfl, hn⟩ hc ht
    simp only [play]
    rw [← hc _ (by omega)]
    exact ih _ _ _ n (hn _) (fun k hk => hc k (by rw [asked_length] at hk; omega))
      fun k hk => ht k (by rw [asked_length] at hk; omega)
  | issue m next ih =>
    rintro l got _ ⟨n, rfl, hn⟩ hc ht
    simp only [play]
    rw [← hc _ (by omega), ← ht _ (by omega)]
    exact ih _ _ _ n (hn _) (fun k hk => hc k (by rw [fake_length] at hk; omega))
      fun k hk => ht k (by rw [fake_length] at hk; omega)

end

section runs
variable (O : Oracle) (sp : SystemParameters G) (X : G) (x0 : F) (A : Spec.Impostor G Bytes) {Q : ℕ}

/-- The tags of the steps, from a tape. -/
noncomputable def known (s : Fin Q → Spec.Cell × F) : ℕ → Scalar → Tag G :=
  fun n m => Spec.knownTag sp X x0 m (Spec.coinsOf s n)

/-- The run with a tape. -/
noncomputable def final (s : Fin Q → Spec.Cell × F) :
    (Bytes × List (CredentialIssuance G)) × Spec.HashLog × (ℕ → Option (Tag G)) :=
  play sp X (cellsOf s) (known sp X x0 s) (A.delivered sp X []) [] fun _ => none

/-- The run wins. -/
def Win (s : Fin Q → Spec.Cell × F) : Prop := Novel O sp X (final sp X x0 A s).1 (final sp X x0 A s).2.1

/-- The step of the query about what was sent. -/
noncomputable def spot (s : Fin Q → Spec.Cell × F) : Option (Fin Q) :=
  Echo.locate Q (Win O sp X x0 A s) (place (final sp X x0 A s).2.1 (Spec.mintQuery sp X (final sp X x0 A s).1.1))

variable {O sp X x0 A}

theorem spot_isSome {T : ℕ} (hA : A.Within T) (hQ : T + 1 ≤ Q) (s : Fin Q → Spec.Cell × F) :
    (spot O sp X x0 A s).isSome ↔ Win O sp X x0 A s := by
  unfold spot Echo.locate
  split
  · rename_i h
    simp [h.1]
  · rename_i h
    simp only [Option.isSome_none, Bool.false_eq_true, false_iff]
    refine fun hg => h ⟨hg, ?_⟩
    have h1 := (place_spec (delivered_mem (sp := sp) (X := X) (cells := cellsOf s) (tags := known sp X x0 s) A []
      [] fun _ => none)).1
    have h2 := play_length (sp := sp) (X := X) (cells := cellsOf s) (tags := known sp X x0 s)
      (A.delivered sp X []) [] (fun _ => none) _ (delivered_within A [] T hA)
    simp only [List.length_nil, Nat.zero_add] at h2
    exact lt_of_lt_of_le h1 (h2.trans hQ)

theorem spot_eq_some {s : Fin Q → Spec.Cell × F} {j : Fin Q} (h : spot O sp X x0 A s = some j) :
    Win O sp X x0 A s ∧ place (final sp X x0 A s).2.1 (Spec.mintQuery sp X (final sp X x0 A s).1.1) = j := by
  unfold spot Echo.locate at h
  split at h
  · rename_i hg
    cases h
    exact ⟨hg.1, rfl⟩
  · cases h

theorem coinsOf_splice (j : ℕ) (s s' : Fin Q → Spec.Cell × F) :
    Spec.coinsOf (Spec.splice j s s') = Spec.switch j (Spec.coinsOf s) (Spec.coinsOf s') := by
  funext n
  unfold Spec.coinsOf Spec.stretch Spec.switch Spec.splice
  by_cases h : n < Q <;> by_cases h' : n < j <;> simp [h, h']

/-- Two such runs give the logarithm. -/
theorem pair_unlocks {s s' : Fin Q → Spec.Cell × F} {j : Fin Q} (h1 : spot O sp X x0 A s = some j)
    (h2 : spot O sp X x0 A (Spec.splice j s s') = some j) (hr : (leVal (s j).1.1.1 : F) ≠ leVal (s' j).1.1.1) :
    X = Spec.unlock sp X x0 A (cellsOf s) (cellsOf s') (Spec.coinsOf s) (Spec.coinsOf s') • sp.h := by
  obtain ⟨⟨c, a1, a2, a3⟩, e⟩ := spot_eq_some h1
  obtain ⟨⟨c', b1, b2, -⟩, e'⟩ := spot_eq_some h2
  obtain ⟨l1, ⟨a, l2⟩, l3⟩ := place_spec (L := (final sp X x0 A s).2.1)
    (t := Spec.mintQuery sp X (final sp X x0 A s).1.1)
    (delivered_mem (sp := sp) (X := X) (cells := cellsOf s) (tags := known sp X x0 s) A [] [] fun _ => none)
  obtain ⟨k1, ⟨a', k2⟩, k3⟩ := place_spec (L := (final sp X x0 A (Spec.splice j s s')).2.1)
    (t := Spec.mintQuery sp X (final sp X x0 A (Spec.splice j s s')).1.1)
    (delivered_mem (sp := sp) (X := X) (cells := cellsOf (Spec.splice j s s'))
      (tags := known sp X x0 (Spec.splice j s s')) A [] [] fun _ => none)
  have hu : Spec.unlock sp X x0 A (cellsOf s) (cellsOf s') (Spec.coinsOf s) (Spec.coinsOf s') =
      (IssuanceRevealed.extract c.proof c'.proof).x1.val := by
    have q1 : Spec.proofIn G (final sp X x0 A s).1.1 = c.proof := by simp only [Spec.proofIn, a1]
    have q2 : Spec.proofIn G (final sp X x0 A (Spec.splice j s s')).1.1 = c'.proof := by simp only [Spec.proofIn, b1]
    rw [← q1, ← q2]
    unfold Spec.unlock
    dsimp only
    have e0 : place (play sp X (cellsOf s) (fun n m => Spec.knownTag sp X x0 m (Spec.coinsOf s n)) (A.delivered sp X []) []
        fun _ => none).2.1 (Spec.mintQuery sp X (play sp X (cellsOf s)
          (fun n m => Spec.knownTag sp X x0 m (Spec.coinsOf s n)) (A.delivered sp X []) [] fun _ => none).1.1) = j := e
    rw [e0, ← cellsOf_splice, ← coinsOf_splice]
    rfl
  rw [hu]
  have q1 : Spec.mintQuery sp X (final sp X x0 A s).1.1 = Spec.acceptQuery sp X c := by
    simp only [Spec.mintQuery, a1, Spec.onDecoded]
  have q2 : Spec.mintQuery sp X (final sp X x0 A (Spec.splice j s s')).1.1 = Spec.acceptQuery sp X c' := by
    simp only [Spec.mintQuery, b1, Spec.onDecoded]
  rw [e] at l2 l3
  rw [e'] at k2 k3
  have fork := run_fork (sp := sp) (X := X) (cells := cellsOf s) (cells' := cellsOf (Spec.splice j s s'))
    (tags := known sp X x0 s) (tags' := known sp X x0 (Spec.splice j s s')) (j := j)
    (fun n hn => by rw [cellsOf_splice, Spec.switch, if_pos hn])
    (fun n hn => by funext m; unfold known; rw [coinsOf_splice, Spec.switch, if_pos hn])
    A [] [] [] (fun _ => none) (fun _ => none) (Nat.zero_le _) l2 k2
  rcases fork with ⟨w, hw, hq⟩ | ⟨f1, f2⟩
  · rw [q1] at hq
    exact absurd hq (a3 w hw)
  · obtain ⟨f2, f3⟩ := f2 l3
    have c1 := oracle_chal (O := O) (Knowledge.lookup_first l2 l3)
    have c2 := oracle_chal (O := O) (Knowledge.lookup_first k2 k3)
    rw [f1] at c2
    rw [q1, q2] at f1
    rw [q1] at c1 c2
    obtain ⟨p1, p2⟩ := query_inj f1
    rw [p1] at b2 p2
    have key := IssuanceRevealed.C30_special_sound a2 b2 (by rw [p2]) (by
      change (leVal (Oracle.chal _ (Spec.acceptQuery sp X c) "chal" 64) : F) ≠
        leVal (Oracle.chal _ (Spec.acceptQuery sp X c) "chal" 64)
      rw [c1, c2, f2, f3, cellsOf_splice, Spec.switch, if_neg (lt_irrefl _), cellsOf_at s j.2, cellsOf_at s' j.2]
      exact hr)
    exact key.2.2

end runs

/-! ## The bound -/

section bound
variable {S Ω : Type} [Fintype S] [Fintype Ω] {sp : S → SystemParameters G}
  {A : S × Ω × F × F → Spec.Impostor G Bytes} {T : ℕ}

open Classical in
/-- `Spec.minterWins` for adversaries that may depend on the secret key. -/
noncomputable def wins (O : Oracle) (sp : S → SystemParameters G) (A : S × Ω × F × F → Spec.Impostor G Bytes) : ℚ :=
  Spec.mean fun x : S × Ω × F × F =>
    let X := x.2.2.2 • (sp x.1).h
    ((A x).delivered (sp x.1) X []).expect
      (Spec.honestIssue O (sp x.1) (Scalar.ofF x.2.2.1) (Scalar.ofF x.2.2.2))
      (fun o l => if Spec.Minted (l.oracle O) (User.new (sp x.1) ⟨[X]⟩ none) o.1 o.2 then 1 else 0) []

open Classical in
/-- `Spec.unlockWins` for adversaries that may depend on the secret key. -/
noncomputable def unlocks (sp : S → SystemParameters G) (A : S × Ω × F × F → Spec.Impostor G Bytes) (T : ℕ) : ℚ :=
  Spec.mean fun x : S × Ω × F × F =>
  Spec.mean fun s : (Fin (T + 1) → Spec.Cell × F) × (Fin (T + 1) → Spec.Cell × F) =>
    let X := x.2.2.2 • (sp x.1).h
    if X = Spec.unlock (sp x.1) X x.2.2.1 (A x) (Reduction.cellsOf s.1) (Reduction.cellsOf s.2)
      (Spec.coinsOf s.1) (Spec.coinsOf s.2) • (sp x.1).h then 1 else 0

open Classical in
/-- `Spec.quotientWins` for adversaries that may depend on the secret key. -/
noncomputable def divides (O : Oracle) (sp : S → SystemParameters G) (A : S × Ω × F × F → Spec.Impostor G Bytes) : ℚ :=
  Spec.mean fun x : S × Ω × F × F =>
    let X := x.2.2.2 • (sp x.1).h
    ((A x).delivered (sp x.1) X []).expect
      (Spec.honestIssue O (sp x.1) (Scalar.ofF x.2.2.1) (Scalar.ofF x.2.2.2))
      (fun o _ => if Spec.Divided (sp x.1) o.1 o.2 then 1 else 0) []

open Classical in
/-- The probability of success, with simulated issuances, without using the query of one of them. -/
noncomputable def novelty (O : Oracle) (sp : S → SystemParameters G)
    (A : S × Ω × F × F → Spec.Impostor G Bytes) (T : ℕ) : ℚ :=
  Spec.mean fun x : S × Ω × F × F => Spec.mean fun s : Fin (T + 1) → Spec.Cell × F =>
    if Win O (sp x.1) (x.2.2.2 • (sp x.1).h) x.2.2.1 (A x) s then 1 else 0

/-- Tags with a multiple of `h` for a nonce are tags with a multiple of the base point for a nonce. -/
theorem tape_eq {sp : SystemParameters G} (hh : sp.h ≠ 0) {x0 x1 : F} {A : Spec.Impostor G Bytes} (hA : A.Within T)
    (f : Bytes × List (CredentialIssuance G) → Spec.HashLog → ℚ) :
    (Spec.mean fun s : Fin (T + 1) → Spec.Cell × F =>
      let r := play sp (x1 • sp.h) (cellsOf s) (tagsOf G x0 x1 s) (A.delivered sp (x1 • sp.h) []) [] fun _ => none
      f r.1 r.2.1) = Spec.mean fun s : Fin (T + 1) → Spec.Cell × F =>
        f (final sp (x1 • sp.h) x0 A s).1 (final sp (x1 • sp.h) x0 A s).2.1 := by
  obtain ⟨y, hy⟩ := exists_smul_of_ne_zero (P := basepoint G) Ristretto.base_ne sp.h
  have hy0 : y ≠ 0 := by
    rintro rfl
    exact hh (by rw [hy, zero_smul])
  let e : Spec.Cell × F ≃ Spec.Cell × F := Equiv.prodCongr (Equiv.refl _) (Equiv.mulRight₀ y hy0)
  rw [← Sim.mean_equiv (Equiv.piCongrRight fun _ : Fin (T + 1) => e)]
  refine Sim.mean_congr fun s => ?_
  have hp : play sp (x1 • sp.h) (cellsOf (Equiv.piCongrRight (fun _ : Fin (T + 1) => e) s))
      (tagsOf G x0 x1 (Equiv.piCongrRight (fun _ : Fin (T + 1) => e) s)) (A.delivered sp (x1 • sp.h) []) []
      (fun _ => none) = final sp (x1 • sp.h) x0 A s := by
    refine play_congr_within _ _ _ (T + 1) (delivered_within A [] T hA) ?_ ?_
    · intro k hk
      simp only [List.length_nil, Nat.zero_add] at hk
      rw [cellsOf_at _ hk, cellsOf_at _ hk]
      rfl
    · intro k hk
      simp only [List.length_nil, Nat.zero_add] at hk
      funext m
      rw [tagsOf_at _ _ _ hk]
      unfold known Spec.coinsOf
      rw [stretch_of_lt _ hk]
      change mac G x0 x1 m ((s ⟨k, hk⟩).2 * y) = _
      unfold mac Spec.knownTag
      rw [hy]
      congr 1
      · module
      · module
  dsimp only
  rw [hp]

theorem wins_le [Nonempty S] [Nonempty Ω] (O : Oracle) (hg : ∀ σ, (sp σ).g ≠ 0) (hh : ∀ σ, (sp σ).h ≠ 0)
    (hA : ∀ x, (A x).Within T) :
    wins O sp A ≤ novelty O sp A T + divides O sp A + 2 * (T + 1) ^ 2 / ell := by
  classical
  have hell : (0 : ℚ) < ell := Tagging.ell_pos
  unfold wins novelty divides
  rw [← Sim.mean_const (α := S × Ω × F × F) (2 * (T + 1) ^ 2 / ell : ℚ), ← Sim.mean_add, ← Sim.mean_add]
  refine Sim.mean_mono fun x => ?_
  dsimp only
  set X := x.2.2.2 • (sp x.1).h with hX
  have hw := delivered_within (sp := sp x.1) (X := X) _ [] T (hA x)
  let nov : Bytes × List (CredentialIssuance G) → Spec.HashLog → ℚ := fun o l =>
    if Novel O (sp x.1) X o l then 1 else 0
  let quo : Bytes × List (CredentialIssuance G) → Spec.HashLog → ℚ := fun o _ =>
    if Spec.Divided (sp x.1) o.1 o.2 then 1 else 0
  have n01 : ∀ o l, 0 ≤ nov o l ∧ nov o l ≤ 1 := fun o l => by dsimp only [nov]; split <;> norm_num
  have q0 : ∀ o l, 0 ≤ quo o l := fun o l => by dsimp only [quo]; split <;> norm_num
  have h1 := expect_le O (sp x.1) x.2.2.1 x.2.2.2
    (f := fun o l => if Spec.Minted (l.oracle O) (User.new (sp x.1) ⟨[X]⟩ none) o.1 o.2 then 1 else 0)
    (g := fun o l => nov o l + quo o l)
    (fun o l => by split <;> norm_num) (fun o l => add_nonneg (n01 o l).1 (q0 o l)) (by
      intro b cs l hs
      dsimp only
      split
      · rename_i hm
        rcases cases (O := O) (hg x.1) (hh x.1) hs hm with h | h
        · rw [show nov (b, cs) l = 1 from if_pos h]
          linarith [q0 (b, cs) l]
        · rw [show quo (b, cs) l = 1 from if_pos h]
          linarith [(n01 (b, cs) l).1]
      · exact add_nonneg (n01 (b, cs) l).1 (q0 (b, cs) l)) (A x) [] [] T (hA _) (fun c hc => by cases hc)
  rw [expect_add, ← hX] at h1
  have h2 := expect_close (Sim.issue_close O (sp x.1) (hh x.1) (Scalar.ofF x.2.2.1) (Scalar.ofF x.2.2.2)) n01
    _ [] (T + 1) hw
  rw [Scalar.val_ofF, Scalar.val_ofF] at h2
  have h3 := expect_tape (sp := sp x.1) (X := X) (x0 := x.2.2.1) (x1 := x.2.2.2) nov (Q := T + 1) _ [] (fun _ => none)
    (T + 1) hw (by simp)
  change |_ - Spec.Impostor.expect (Spec.simulatedIssue (sp x.1) X (mac G x.2.2.1 x.2.2.2)) _ _ _| ≤ _ at h2
  rw [h3, tape_eq (hh x.1) (hA _) nov, ← hX] at h2
  have h4 := (abs_sub_le_iff.1 h2).1
  simp only [List.length_nil, Nat.cast_zero, zero_add] at h4
  push_cast at h4
  have h5 : ((T : ℚ) + 1) * (T + 1) / ell + T / ell ≤ 2 * (T + 1) ^ 2 / ell := by
    rw [← add_div]
    refine div_le_div_of_nonneg_right ?_ hell.le
    nlinarith [show (0 : ℚ) ≤ T by positivity]
  have h6 := h1.trans (show _ ≤ (Spec.mean fun s : Fin (T + 1) → Spec.Cell × F =>
    nov (final (sp x.1) X x.2.2.1 (A x) s).1 (final (sp x.1) X x.2.2.1 (A x) s).2.1) +
    Spec.Impostor.expect (Spec.honestIssue O (sp x.1) (Scalar.ofF x.2.2.1) (Scalar.ofF x.2.2.2)) quo
      ((A x).delivered (sp x.1) X []) [] + 2 * (T + 1) ^ 2 / ell by linarith)
  exact h6

set_option synthInstance.maxSize 1000 in
/-- Such successes give the logarithm of the public key. -/
theorem novel_le [Nonempty S] [Nonempty Ω] (O : Oracle) (hA : ∀ x, (A x).Within T) :
    novelty O sp A T ^ 2 / (T + 1) - novelty O sp A T / 2 ^ 252 ≤ unlocks sp A T := by
  classical
  let B : S × Ω × F × F → Spec.Impostor G Bytes := fun x => A x
  let run : S × Ω × F × F → (Fin (T + 1) → Spec.Cell × F) → Option (Fin (T + 1)) := fun x s =>
    spot O (sp x.1) (x.2.2.2 • (sp x.1).h) x.2.2.1 (B x) s
  have hsome : ∀ x s, (run x s).isSome ↔ Win O (sp x.1) (x.2.2.2 • (sp x.1).h) x.2.2.1 (B x) s := fun x s =>
    spot_isSome (hA _) le_rfl s
  have hε : (Spec.prob fun x : (S × Ω × F × F) × (Fin (T + 1) → Spec.Cell × F) => (run x.1 x.2).isSome) =
      novelty O sp A T := by
    unfold novelty
    rw [← Sim.mean_indicator, Tagging.mean_prod (α := S × Ω × F × F)]
    refine Sim.mean_congr fun x => Sim.mean_congr fun s => ?_
    exact if_congr (hsome x s) rfl rfl
  have hcol : ∀ d : F, Spec.prob (fun c : Spec.Cell × F => (leVal c.1.1.1 : F) = d) ≤ 1 / 2 ^ 252 := by
    intro d
    refine le_trans (le_of_eq ?_) (Knowledge.collision d)
    rw [← Sim.mean_indicator, ← Sim.mean_indicator]
    rw [mean_fst fun c : Spec.Cell => if (leVal c.1.1 : F) = d then (1 : ℚ) else 0,
      mean_fst fun c : Spec.Answer => if (leVal c.1 : F) = d then (1 : ℚ) else 0]
  have key := Fork.forking run (fun c : Spec.Cell × F => (leVal c.1.1.1 : F)) (1 / 2 ^ 252) hcol
  rw [hε] at key
  push_cast at key
  rw [mul_one_div] at key
  refine key.trans ?_
  unfold unlocks
  rw [← Sim.mean_indicator, Tagging.mean_prod (α := S × Ω × F × F)]
  refine Sim.mean_mono fun x => Sim.mean_mono fun s => ?_
  dsimp only
  split
  swap
  · split <;> norm_num
  rename_i h
  obtain ⟨j, h1, h2, h3⟩ := h
  rw [if_pos (pair_unlocks h1 h2 h3)]

end bound

end Mint

/-! ## C104 -/

/-- **C104**: for every way to choose parameters (with `g` and `h` not the identity) and every adversary that has the
public key, asks the hash and gets attributes issued, at most `T` steps in all: the probability that it makes an issuance
which a user accepts, and which it did not get from the issuer, is at most `ε + ε' + 2(T+1)²/ℓ`, where `Spec.unlock`
finds the logarithm of the public key with probability at least `ε²/(T+1) - ε·2⁻²⁵²`, and running the adversary once, with
a key of one's own, gives the logarithm of `h` to the base `g` with probability `ε'`. -/
theorem C104_reduction {S Ω : Type} [Fintype S] [Nonempty S] [Fintype Ω] [Nonempty Ω] (O : Oracle)
    (sp : S → SystemParameters G) (hg : ∀ σ, (sp σ).g ≠ 0) (hh : ∀ σ, (sp σ).h ≠ 0)
    (A : SystemParameters G → G → Ω → Spec.Impostor G Bytes) (T : ℕ) (hA : ∀ σ X ω, (A (sp σ) X ω).Within T) :
    ∃ ε : ℚ, 0 ≤ ε ∧ Spec.minterWins O sp A ≤ ε + Spec.quotientWins O sp A + 2 * (T + 1) ^ 2 / ell ∧
      ε ^ 2 / (T + 1) - ε / 2 ^ 252 ≤ Spec.unlockWins sp A T := by
  let B : S × Ω × F × F → Spec.Impostor G Bytes := fun x => A (sp x.1) (x.2.2.2 • (sp x.1).h) x.2.1
  have hB : ∀ x, (B x).Within T := fun x => hA _ _ _
  refine ⟨Mint.novelty O sp B T, ?_, Mint.wins_le O hg hh hB, Mint.novel_le O hB⟩
  unfold Mint.novelty
  exact (Sim.mean01 fun x => Sim.mean01 fun s => by split <;> norm_num).1

/-- **C104**, as a bound: if `Spec.unlock` finds the logarithm of the public key with probability at most `t²/(2(T+1))`,
and the logarithm of `h` is found with probability at most `u`, then the adversary succeeds with probability at most
`t + u + 2(T+1)²/ℓ + 2(T+1)·2⁻²⁵²`. -/
theorem C104_bound {S Ω : Type} [Fintype S] [Nonempty S] [Fintype Ω] [Nonempty Ω] (O : Oracle)
    (sp : S → SystemParameters G) (hg : ∀ σ, (sp σ).g ≠ 0) (hh : ∀ σ, (sp σ).h ≠ 0)
    (A : SystemParameters G → G → Ω → Spec.Impostor G Bytes) (T : ℕ) (hA : ∀ σ X ω, (A (sp σ) X ω).Within T)
    (t u : ℚ) (ht : 0 ≤ t) (h1 : Spec.unlockWins sp A T ≤ t ^ 2 / (2 * (T + 1))) (h2 : Spec.quotientWins O sp A ≤ u) :
    Spec.minterWins O sp A ≤ t + u + 2 * (T + 1) ^ 2 / ell + 2 * (T + 1) / 2 ^ 252 := by
  obtain ⟨ε, h0, h3, h4⟩ := C104_reduction O sp hg hh A T hA
  have hT : (0 : ℚ) < T + 1 := by positivity
  have hD : (0 : ℚ) < 2 ^ 252 := by positivity
  have k1 := Theft.root hT hD h0 ht h4 h1
  linarith

/-! ## The converse -/

/-- Makes an issuance with the key `0`, `y`. -/
def Spec.counterfeit (sp : SystemParameters G) (y : F) : Spec.Impostor G Bytes :=
  .ask (Deputy.issueQuery sp (Scalar.ofF 0) (Scalar.ofF y) 0 1 0 (0, 0, 0, 0)) fun a =>
    .out (Deputy.issueWith sp (Scalar.ofF 0) (Scalar.ofF y) 0 1 0 (0, 0, 0, 0) a).toBytes

namespace Mint

theorem counterfeit_minted {O : Oracle} {sp : SystemParameters G} {X : G} {y : F} (hy : X = y • sp.h) {a : Spec.Answer}
    {l : Spec.HashLog}
    (hl : l.lookup (Deputy.issueQuery sp (Scalar.ofF 0) (Scalar.ofF y) 0 1 0 (0, 0, 0, 0)) = some a) :
    Spec.Minted (l.oracle O) (User.new sp ⟨[X]⟩ none)
      (Deputy.issueWith sp (Scalar.ofF 0) (Scalar.ofF y) 0 1 0 (0, 0, 0, 0) a).toBytes [] := by
  refine ⟨_, (C08_roundtrip _ 0 ?_).1, ?_, fun c hc => by cases hc⟩
  · simp [Spec.IssuanceOK, Deputy.issueWith, IssuanceRevealed.respond]
  · have hv : IssuanceRevealed.verify (l.oracle O) [.init "AEONFLUX ISSUANCE"]
        (Deputy.issueWith sp (Scalar.ofF 0) (Scalar.ofF y) 0 1 0 (0, 0, 0, 0) a).proof (Spec.issuancePublics sp X
          (Deputy.issueWith sp (Scalar.ofF 0) (Scalar.ofF y) 0 1 0 (0, 0, 0, 0) a)) = true := by
      refine decide_eq_true ?_
      change getChallenge (l.oracle O) (Spec.acceptQuery sp X _) = _
      rw [hy, issueQuery_eq, Sim.getChallenge_oracle hl]
      rfl
    unfold User.obtainFinish
    dsimp only [User.new, List.getElem?_cons_zero]
    split
    · rfl
    · rename_i h
      exact absurd hv h

end Mint

open Classical in
/-- **C104**, converse: whoever finds the logarithm of the public key makes an issuance which a user accepts, with the same
probability, from one hash query, and with nothing issued. -/
theorem C104_converse {S Ω : Type} [Fintype S] [Fintype Ω] (O : Oracle) (sp : S → SystemParameters G)
    (D : SystemParameters G → G → Ω → F) :
    let A : SystemParameters G → G → Ω → Spec.Impostor G Bytes := fun sp X ω => Spec.counterfeit sp (D sp X ω)
    (Spec.mean fun x : S × Ω × F × F =>
      let X := x.2.2.2 • (sp x.1).h
      if X = D (sp x.1) X x.2.1 • (sp x.1).h then (1 : ℚ) else 0) ≤ Spec.minterWins O sp A ∧
    ∀ σ X ω, (A (sp σ) X ω).Within 1 := by
  intro A
  refine ⟨Sim.mean_mono fun x => ?_, fun σ X ω => ⟨0, rfl, fun _ => trivial⟩⟩
  dsimp only
  set X := x.2.2.2 • (sp x.1).h
  have h01 : ∀ (o : Bytes × List (CredentialIssuance G)) (l : Spec.HashLog),
      0 ≤ (if Spec.Minted (l.oracle O) (User.new (sp x.1) ⟨[X]⟩ none) o.1 o.2 then (1 : ℚ) else 0) ∧
      (if Spec.Minted (l.oracle O) (User.new (sp x.1) ⟨[X]⟩ none) o.1 o.2 then (1 : ℚ) else 0) ≤ 1 := by
    intro o l
    split <;> norm_num
  split
  swap
  · exact (Reduction.expect01 (Reduction.honest01 O _ _ _) h01 _ []).1
  rename_i hX
  simp only [A, Spec.counterfeit, Spec.Impostor.delivered, Spec.Impostor.expect]
  refine le_of_eq_of_le (Sim.mean_const (α := Spec.Answer) 1).symm (Sim.mean_mono fun a => ?_)
  refine le_of_eq_of_le (Sim.mean_const (α := Spec.Answer) 1).symm (Sim.mean_mono fun a' => ?_)
  rw [if_pos]
  exact Mint.counterfeit_minted hX (Reduction.lookup_mono (Reduction.lookup_asked _ _ a))

/-- In the toy group, where logarithms are easy, an adversary always succeeds. It meets the hypotheses of
`C104_reduction`. -/
example (O : Oracle) : ∃ A : SystemParameters F → F → Unit → Spec.Impostor F Bytes, (∀ X ω, (A ⟨1, 4⟩ X ω).Within 1) ∧
    1 ≤ Spec.minterWins O (fun _ : Unit => (⟨1, 4⟩ : SystemParameters F)) A := by
  classical
  have h := C104_converse (Ω := Unit) O (fun _ : Unit => (⟨1, 4⟩ : SystemParameters F)) (fun sp X _ => X / sp.h)
  refine ⟨_, h.2 (), le_trans (le_of_eq ?_) h.1⟩
  refine Eq.trans (Sim.mean_const (α := Unit × Unit × F × F) 1).symm (Sim.mean_congr fun x => ?_)
  have h4 : (4 : F) ≠ 0 := by decide +kernel
  rw [if_pos]
  simp only [smul_eq_mul]
  rw [div_mul_cancel₀ _ h4]

/-- An adversary that sends nothing that can be decoded meets the hypotheses of `C104_bound`: the algorithm returns
zero. -/
example (O : Oracle) :
    let A : SystemParameters F → F → Unit → Spec.Impostor F Bytes := fun _ _ _ => .ask [] fun _ => .out []
    (∀ X ω, (A ⟨1, 4⟩ X ω).Within 1) ∧
    Spec.unlockWins (fun _ : Unit => (⟨1, 4⟩ : SystemParameters F)) A 1 ≤ (1 / 2 ^ 100) ^ 2 / (2 * ((1 : ℕ) + 1)) ∧
    Spec.quotientWins O (fun _ : Unit => (⟨1, 4⟩ : SystemParameters F)) A ≤ 0 := by
  intro A
  refine ⟨fun _ _ => ⟨0, rfl, fun _ => trivial⟩, ?_, ?_⟩
  swap
  · unfold Spec.quotientWins
    refine le_of_le_of_eq (Sim.mean_mono fun x => ?_) (Sim.mean_const (α := Unit × Unit × F × F) 0)
    simp only [A, Spec.Impostor.delivered, Spec.Impostor.expect]
    refine le_of_le_of_eq (Sim.mean_mono fun a => ?_) (Sim.mean_const (α := Spec.Answer) 0)
    refine le_of_le_of_eq (Sim.mean_mono fun a' => ?_) (Sim.mean_const (α := Spec.Answer) 0)
    rw [if_neg]
    rintro ⟨y, hy, -⟩
    cases hy
  have e : Spec.unlockWins (fun _ : Unit => (⟨1, 4⟩ : SystemParameters F)) A 1 = 1 / ell := by
    unfold Spec.unlockWins
    have g (f : F → ℚ) : (Spec.mean fun x : Unit × Unit × F × F => f x.2.2.2) = Spec.mean f := by
      rw [Tagging.mean_prod]
      refine Eq.trans (Sim.mean_congr (g := fun _ => Spec.mean f) fun a => ?_) (Sim.mean_const (α := Unit) (Spec.mean f))
      rw [Tagging.mean_prod]
      refine Eq.trans (Sim.mean_congr (g := fun _ => Spec.mean f) fun a => ?_) (Sim.mean_const (α := Unit) (Spec.mean f))
      exact Echo.mean_snd (β := F) f
    refine Eq.trans (Sim.mean_congr (g := fun x : Unit × Unit × F × F => if x.2.2.2 = 0 then (1 : ℚ) else 0)
      fun x => ?_) (Eq.trans (g fun z => if z = 0 then (1 : ℚ) else 0) ?_)
    · refine Eq.trans (Sim.mean_congr (g := fun _ => if x.2.2.2 = 0 then (1 : ℚ) else 0) fun s => ?_)
        (Sim.mean_const (if x.2.2.2 = 0 then (1 : ℚ) else 0))
      have o : ∀ (X : F) (c c' : ℕ → Spec.Cell) (b b' : ℕ → F),
          Spec.unlock (⟨1, 4⟩ : SystemParameters F) X x.2.2.1 (A ⟨1, 4⟩ X x.2.1) c c' b b' = 0 := by
        intro X c c' b b'
        have : Spec.proofIn F [] = ⟨0, 0, 0, 0, 0⟩ := rfl
        change (IssuanceRevealed.extract (Spec.proofIn F []) (Spec.proofIn F [])).x1.val = 0
        rw [this]
        simp [IssuanceRevealed.extract, Scalar.val_ofF]
      simp only [o]
      refine if_congr ?_ rfl rfl
      have h4 : (4 : F) ≠ 0 := by decide +kernel
      simp [h4]
    · unfold Spec.mean
      rw [Finset.sum_ite_eq' Finset.univ, if_pos (Finset.mem_univ _), ZMod.card]
  have : (2 : ℚ) ^ 252 ≤ ell := by exact_mod_cast (by decide +kernel : 2 ^ 252 ≤ ell)
  rw [e]
  refine (one_div_le_one_div_of_le (by positivity) this).trans ?_
  norm_num

end Verif
