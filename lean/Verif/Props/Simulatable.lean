import Verif.Props.Unlinkable
import Verif.Props.ZeroKnowledge

/-!
# Presentations and issuances can be simulated (C82, C83)

An issuer with all its keys cannot tell presentations from values that it makes itself from its keys and
the roster commitment. A user cannot tell issuances from values made from the MAC alone.
-/

set_option maxRecDepth 100000

namespace Verif

variable {G : Type} [AddCommGroup G] [Module F G] [Ristretto G]

/-! ## C82 presentations -/

/-- Somebody who can present: a valid credential on `m` and a roster entry for `m`. -/
structure Spec.Holder (sp : SystemParameters G) (x0 x1 : Scalar) where
  credential : Credential G
  m : Scalar
  ros : RosterEntryCommitment G
  valid : Spec.MacValid ⟨x0, [x1]⟩ credential.mac [m]
  nonce : credential.mac.nonce ≠ 0
  entry : ros.commitment = m.val • sp.h + ros.opening.val • sp.g

/-- `SignalUser::show` with uniform randomness. The hash is asked twice, by the two proofs. -/
noncomputable def Spec.honestShow (O : Oracle) (sp : SystemParameters G) (x0 x1 : Scalar) :
    Spec.Server (Spec.Holder sp x0 x1) (fun _ => SignalCredentialPresentation G) :=
  fun x l k =>
    Spec.mean fun d : F × F × F => Spec.mean fun ρ : F × F × F => Spec.mean fun a : Spec.Answer =>
    Spec.mean fun ρ' : F × F × F => Spec.mean fun a' : Spec.Answer =>
      let X := x1.val • sp.h
      let P := d.2.1 • x.credential.mac.nonce
      let C := x.m.val • P + d.1 • sp.h
      let p : ValidCredential.Publics G := ⟨sp.g, sp.h, X, P, d.1 • X - d.2.2 • sp.h, C⟩
      let p' : CommittedValuesEqual.Publics G := ⟨sp.g, sp.h, P, C, x.ros.commitment⟩
      let l₁ := l.asked (ValidCredential.commitCommitments
        (ValidCredential.commitPublics [.init "AEONFLUX SHOW"] p)
        (ValidCredential.commitmentsOf p (ValidCredential.randOf ρ))) a
      let l₂ := l₁.asked (CommittedValuesEqual.commitCommitments
        (CommittedValuesEqual.commitPublics [.init "SIGNAL GROUP MEMBERSHIP"] p')
        (CommittedValuesEqual.commitmentsOf p' (CommittedValuesEqual.randOf ρ'))) a'
      k l₂ (Spec.present (l₂.oracle O) sp X x.credential x.m x.ros d ρ ρ')

/-- C82: the presentations of `Spec.honestShow` are those of the code. A user with the credential and parameters
of a holder gets `Spec.present` from `SignalUser::show`, with the nine field elements of nine separate reads. -/
theorem C82_show {R : Type} [RngCore R] (O : Oracle) {sp : SystemParameters G} {x0 x1 : Scalar}
    (x : Spec.Holder sp x0 x1) {u : SignalUser G} (hs : u.user.systemParameters = sp)
    (hX : u.user.issuerParameters.Xn = [x1.val • sp.h]) (hc : u.user.credential = some x.credential)
    (hm : x.credential.attributes = [x.m]) (rng : R) (e1 e2 : Bytes) :
    ∃ z e, (Spec.reads [64, 32] rng).1 = [z, e] ∧
      let d := Spec.showCoins O z e
      let P := d.2.1 • x.credential.mac.nonce
      let C := x.m.val • P + d.1 • sp.h
      let ρ := Spec.proofCoins O (.validCredential "AEONFLUX SHOW"
        ⟨sp.g, sp.h, x1.val • sp.h, P, d.1 • (x1.val • sp.h) - d.2.2 • sp.h, C⟩
        ⟨x.m, Scalar.ofF d.1, -Scalar.ofF d.2.2⟩ e1)
      let ρ' := Spec.proofCoins O (.committedValuesEqual "SIGNAL GROUP MEMBERSHIP"
        ⟨sp.g, sp.h, P, C, x.ros.commitment⟩ ⟨x.m, Scalar.ofF d.1, x.ros.opening⟩ e2)
      (u.show O rng x.ros e1 e2).1 =
        .ok (Spec.present O sp (x1.val • sp.h) x.credential x.m x.ros d ρ ρ') := by
  subst hs
  exact C43_show_is_present O hX hc hm rng x.ros e1 e2

/-- A user that is a holder. -/
example : ∃ (x : Spec.Holder (⟨1, 2⟩ : SystemParameters F) ⟨3, by decide⟩ ⟨5, by decide⟩) (u : SignalUser F),
    u.user.systemParameters = ⟨1, 2⟩ ∧
    u.user.issuerParameters.Xn = [(⟨5, by decide⟩ : Scalar).val • (⟨1, 2⟩ : SystemParameters F).h] ∧
    u.user.credential = some x.credential ∧ x.credential.attributes = [x.m] :=
  ⟨⟨⟨⟨2, 76⟩, [⟨7, by decide⟩]⟩, ⟨7, by decide⟩, ⟨16, ⟨2, by decide⟩⟩, by
      simp only [Spec.MacValid, Spec.macFactor, List.map]; decide +kernel, by decide +kernel,
      by decide +kernel⟩,
    ⟨⟨7, by decide⟩, ⟨⟨1, 2⟩, ⟨[(⟨5, by decide⟩ : Scalar).val • 2]⟩, none,
      some ⟨⟨2, 76⟩, [⟨7, by decide⟩]⟩⟩⟩, rfl, rfl, rfl, rfl⟩

/-- A simulated presentation, from the issuer's keys `x0`, `x1` and the roster commitment `D`: three
uniform multiples of `h`, and two simulated proofs. No credential, phone number or opening is used. -/
noncomputable def Spec.simulateShow (sp : SystemParameters G) (x0 x1 : Scalar) (D : G)
    (l : Spec.HashLog) (k : Spec.HashLog → SignalCredentialPresentation G → ℚ) : ℚ :=
  Spec.mean fun v : F × F × F =>
    let P := v.1 • sp.h
    let C := v.2.1 • sp.h
    let CQ := v.2.2 • sp.h
    let V := x0.val • P + x1.val • C - CQ
    Spec.ValidCredential.simulated [.init "AEONFLUX SHOW"] ⟨sp.g, sp.h, x1.val • sp.h, P, V, C⟩ l
      fun l₁ π =>
        Spec.CommittedValuesEqual.simulated [.init "SIGNAL GROUP MEMBERSHIP"] ⟨sp.g, sp.h, P, C, D⟩ l₁
          fun l₂ π' => k l₂ ⟨D, ⟨CQ, P, [], [C], π⟩, π'⟩

/-- The server that simulates. -/
noncomputable def Spec.simulatedShow (sp : SystemParameters G) (x0 x1 : Scalar) :
    Spec.Server (Spec.Holder sp x0 x1) (fun _ => SignalCredentialPresentation G) :=
  fun x l k => Spec.simulateShow sp x0 x1 x.ros.commitment l k

namespace Sim

theorem lookup_asked_of_some {l : Spec.HashLog} {t : Transcript} {b : Spec.Answer} (h : l.lookup t = some b)
    (t' : Transcript) (a : Spec.Answer) : (l.asked t' a).lookup t = some b := by
  rw [Spec.HashLog.asked, List.lookup_append, h, Option.some_or]

/-- The presentation from its two proofs. -/
theorem honestShow_steps (O : Oracle) {sp : SystemParameters G} {x0 x1 : Scalar} (x : Spec.Holder sp x0 x1)
    (l : Spec.HashLog) (k : Spec.HashLog → SignalCredentialPresentation G → ℚ) :
    Spec.honestShow O sp x0 x1 x l k = Spec.mean fun d : F × F × F =>
      Spec.ValidCredential.honest O [.init "AEONFLUX SHOW"]
        ⟨sp.g, sp.h, x1.val • sp.h, d.2.1 • x.credential.mac.nonce,
          d.1 • (x1.val • sp.h) - d.2.2 • sp.h, x.m.val • (d.2.1 • x.credential.mac.nonce) + d.1 • sp.h⟩
        ⟨x.m, Scalar.ofF d.1, -Scalar.ofF d.2.2⟩ l fun l₁ π =>
          Spec.CommittedValuesEqual.honest O [.init "SIGNAL GROUP MEMBERSHIP"]
            ⟨sp.g, sp.h, d.2.1 • x.credential.mac.nonce,
              x.m.val • (d.2.1 • x.credential.mac.nonce) + d.1 • sp.h, x.ros.commitment⟩
            ⟨x.m, Scalar.ofF d.1, x.ros.opening⟩ l₁ fun l₂ π' =>
              k l₂ ⟨x.ros.commitment, ⟨d.2.1 • x.credential.mac.mac + d.2.2 • sp.h,
                d.2.1 • x.credential.mac.nonce, [],
                [x.m.val • (d.2.1 • x.credential.mac.nonce) + d.1 • sp.h], π⟩, π'⟩ := by
  unfold Spec.honestShow Spec.ValidCredential.honest Spec.CommittedValuesEqual.honest
  refine mean_congr fun d => mean_congr fun ρ => mean_congr fun a => mean_congr fun ρ' =>
    mean_congr fun a' => ?_
  have h1 := lookup_asked l (ValidCredential.commitCommitments
    (ValidCredential.commitPublics [.init "AEONFLUX SHOW"]
      (⟨sp.g, sp.h, x1.val • sp.h, d.2.1 • x.credential.mac.nonce, d.1 • (x1.val • sp.h) - d.2.2 • sp.h,
        x.m.val • (d.2.1 • x.credential.mac.nonce) + d.1 • sp.h⟩ : ValidCredential.Publics G))
    (ValidCredential.commitmentsOf (⟨sp.g, sp.h, x1.val • sp.h, d.2.1 • x.credential.mac.nonce,
        d.1 • (x1.val • sp.h) - d.2.2 • sp.h,
        x.m.val • (d.2.1 • x.credential.mac.nonce) + d.1 • sp.h⟩ : ValidCredential.Publics G)
      (ValidCredential.randOf ρ))) a
  simp only [Spec.present, ValidCredential.createWith]
  rw [getChallenge_oracle (lookup_asked_of_some h1 _ _), getChallenge_oracle h1]

/-- The blinding values as uniform multiples of `h`. -/
def showEquiv (a m k : F) (ha : a ≠ 0) : F × F × F ≃ F × F × F where
  toFun d := (d.2.1 * a, m * (d.2.1 * a) + d.1, k * (d.2.1 * a) + d.2.2)
  invFun v := (v.2.1 - m * v.1, v.1 * a⁻¹, v.2.2 - k * v.1)
  left_inv d := by
    simp only [add_sub_cancel_left, mul_inv_cancel_right₀ ha]
  right_inv v := by
    simp only [inv_mul_cancel_right₀ ha, add_sub_cancel]

theorem show_close (O : Oracle) (sp : SystemParameters G) (hh : sp.h ≠ 0) (x0 x1 : Scalar) :
    Close 2 (Spec.honestShow O sp x0 x1) (Spec.simulatedShow sp x0 x1) where
  range x l f hf := by
    rw [honestShow_steps]
    exact mean01 fun d => ValidCredential.honest01 _ _ _ _ _ fun _ _ =>
      CommittedValuesEqual.honest01 _ _ _ _ _ fun _ _ => hf _ _
  range' x l f hf := mean01 fun v => ValidCredential.simulated01 _ _ _ fun _ _ =>
      CommittedValuesEqual.simulated01 _ _ _ fun _ _ => hf _ _
  close x l f g ε hf hg hfg := by
    obtain ⟨⟨⟨P, Q⟩, as⟩, m, ros, hv, hn, hr⟩ := x
    simp only [Spec.MacValid, Spec.macFactor, List.map_cons, List.map_nil] at hv
    dsimp only at hn
    obtain ⟨a, ha⟩ := exists_smul_of_ne_zero hh P
    have ha0 : a ≠ 0 := by
      rintro rfl
      exact hn (by rw [ha, zero_smul])
    subst ha hv
    rw [honestShow_steps]
    have key : Spec.simulatedShow sp x0 x1
        ⟨⟨⟨a • sp.h, (x1.val * m.val + x0.val) • (a • sp.h)⟩, as⟩, m, ros, rfl, hn, hr⟩ l g =
        Spec.mean fun d : F × F × F =>
          Spec.ValidCredential.simulated [.init "AEONFLUX SHOW"]
            ⟨sp.g, sp.h, x1.val • sp.h, d.2.1 • (a • sp.h),
              d.1 • (x1.val • sp.h) - d.2.2 • sp.h, m.val • (d.2.1 • (a • sp.h)) + d.1 • sp.h⟩
            l fun l₁ π =>
              Spec.CommittedValuesEqual.simulated [.init "SIGNAL GROUP MEMBERSHIP"]
                ⟨sp.g, sp.h, d.2.1 • (a • sp.h),
                  m.val • (d.2.1 • (a • sp.h)) + d.1 • sp.h, ros.commitment⟩
                l₁ fun l₂ π' =>
                  g l₂ ⟨ros.commitment, ⟨d.2.1 • ((x1.val * m.val + x0.val) • (a • sp.h)) + d.2.2 • sp.h,
                    d.2.1 • (a • sp.h), [],
                    [m.val • (d.2.1 • (a • sp.h)) + d.1 • sp.h], π⟩, π'⟩ := by
      unfold Spec.simulatedShow Spec.simulateShow
      rw [← mean_equiv (showEquiv a m.val (x1.val * m.val + x0.val) ha0)]
      refine mean_congr fun d => ?_
      simp only [showEquiv, Equiv.coe_fn_mk]
      have e1 : (d.2.1 * a) • sp.h = d.2.1 • (a • sp.h) := by module
      have e2 : (m.val * (d.2.1 * a) + d.1) • sp.h = m.val • (d.2.1 • (a • sp.h)) + d.1 • sp.h := by module
      have e3 : ((x1.val * m.val + x0.val) * (d.2.1 * a) + d.2.2) • sp.h =
          d.2.1 • ((x1.val * m.val + x0.val) • (a • sp.h)) + d.2.2 • sp.h := by module
      have e4 : x0.val • (d.2.1 • (a • sp.h)) + x1.val • (m.val • (d.2.1 • (a • sp.h)) + d.1 • sp.h) -
          (d.2.1 • ((x1.val * m.val + x0.val) • (a • sp.h)) + d.2.2 • sp.h) =
          d.1 • (x1.val • sp.h) - d.2.2 • sp.h := by module
      rw [e1, e2, e3, e4]
    rw [key]
    have hb : ε + ((2 : ℕ) : ℚ) * (l.length + ((2 : ℕ) : ℚ)) / ell ≥
        (ε + ((l.length + 1 : ℕ) : ℚ) / ell) + (l.length : ℚ) / ell := by
      rw [add_assoc, ← add_div]
      gcongr
      push_cast
      linarith
    refine le_trans (abs_sub_mean_le fun d => ?_) hb
    refine ValidCredential.zk_close O _ ?_ (Or.inr (Or.inl hh)) l _ _ _
      (fun _ _ => CommittedValuesEqual.honest01 _ _ _ _ _ fun _ _ => hf _ _) fun l₁ π h1 => ?_
    · simp only [Spec.ValidCredential, Scalar.val_neg, Scalar.val_ofF]
      exact ⟨trivial, by module⟩
    · rw [← h1]
      refine CommittedValuesEqual.zk_close O _ ?_ (Or.inr (Or.inl hh)) l₁ _ _ _
        (fun _ _ => hf _ _) fun l₂ π' h2 => hfg _ _ (by rw [h2, h1])
      simp only [Spec.CommittedValuesEqual, Scalar.val_ofF]
      exact ⟨trivial, hr⟩

end Sim

/-- C82: a presentation shows the issuer nothing that it could not have made itself. For an observer with
the issuer's keys, that chooses who presents, with which credentials and roster entries, and asks the
hash at most `q` times and sees at most `n` presentations, the probability of a yes changes by at most
`2n(q+2n)/ℓ` when all presentations are simulated from the keys and the roster commitments. -/
theorem C82_presentation_simulatable (O : Oracle) (sp : SystemParameters G) (hh : sp.h ≠ 0)
    (x0 x1 : Scalar)
    (A : Spec.Observer (Spec.Holder sp x0 x1) fun _ => SignalCredentialPresentation G) (q n : ℕ)
    (hA : A.Within q n) :
    |A.yes (Spec.honestShow O sp x0 x1) [] - A.yes (Spec.simulatedShow sp x0 x1) []| ≤
      2 * n * (q + 2 * n) / ell := by
  refine (Sim.advantage (Sim.show_close O sp hh x0 x1) A [] q n hA).trans (le_of_eq ?_)
  push_cast
  rw [List.length_nil]
  push_cast
  ring

/-- A holder exists for every roster commitment, and any observer of presentations is covered: this one
asks for a presentation, recomputes the challenge of its first proof, and compares. -/
example : ∃ (x : Spec.Holder (⟨1, 2⟩ : SystemParameters F) ⟨3, by decide⟩ ⟨5, by decide⟩)
    (A : Spec.Observer (Spec.Holder (⟨1, 2⟩ : SystemParameters F) ⟨3, by decide⟩ ⟨5, by decide⟩) fun _ =>
      SignalCredentialPresentation F), x.m.val = 7 ∧ A.Within 1 1 :=
  ⟨⟨⟨⟨2, 76⟩, []⟩, ⟨7, by decide⟩, ⟨16, ⟨2, by decide⟩⟩, by
      simp only [Spec.MacValid, Spec.macFactor, List.map]; decide +kernel, by decide +kernel,
      by decide +kernel⟩,
    .request ⟨⟨⟨2, 76⟩, []⟩, ⟨7, by decide⟩, ⟨16, ⟨2, by decide⟩⟩, by
      simp only [Spec.MacValid, Spec.macFactor, List.map]; decide +kernel, by decide +kernel,
      by decide +kernel⟩ fun p =>
      .ask (ValidCredential.verifyTranscript [.init "AEONFLUX SHOW"]
        ⟨1, 2, 10, p.presentation.rerandomizedNonce, 0, 0⟩
        (ValidCredential.recommit ⟨1, 2, 10, p.presentation.rerandomizedNonce, 0, 0⟩ p.presentation.proof))
        fun a => .done (decide (Scalar.fromWide a.1 = p.presentation.proof.challenge)),
    by decide +kernel, 0, rfl, fun _ => ⟨0, rfl, fun _ => trivial⟩⟩

open Classical in
/-- Both checks of the issuer accept. -/
noncomputable def Spec.accepts (O : Oracle) (i : Issuer G) (l : Spec.HashLog)
    (p : SignalCredentialPresentation G) : ℚ :=
  if SignalIssuer.verify (l.oracle O) ⟨i⟩ p = .ok ⟨p⟩ ∧
    SignalIssuer.verifyRosterMembership (l.oracle O) ⟨i⟩ ⟨p⟩ = .ok p.rosterEntryCommitment then 1 else 0

/-- C82: simulated presentations are accepted by the issuer, for every roster commitment, except with
probability `2(|l|+2)/ℓ` after the queries `l`. So an issuer cannot convince anybody, by showing a
presentation, that somebody presented. -/
theorem C82_simulated_accepted (O : Oracle) (i : Issuer G) (hh : i.systemParameters.h ≠ 0) {x0 x1 : Scalar}
    (hk : i.keypair.secretKey = ⟨x0, [x1]⟩)
    (hX : i.keypair.publicKey.Xn = [x1.val • i.systemParameters.h]) (D : G) (l : Spec.HashLog) :
    1 - 2 * (l.length + 2) / ell ≤
      Spec.simulateShow i.systemParameters x0 x1 D l (Spec.accepts O i) := by
  obtain ⟨sp, ⟨⟨Xn⟩, sk⟩⟩ := i
  dsimp only at hk hX hh
  subst hk hX
  obtain ⟨m, hm⟩ := exists_smul_of_ne_zero hh D
  let x : Spec.Holder sp x0 x1 :=
    ⟨⟨⟨sp.h, (x1.val * m + x0.val) • sp.h⟩, []⟩, Scalar.ofF m, ⟨D, 0⟩,
      by simp [Spec.MacValid, Spec.macFactor], hh, by simp [hm]⟩
  have hf : Sim.Unit01 (Spec.accepts O ⟨sp, ⟨⟨[x1.val • sp.h]⟩, ⟨x0, [x1]⟩⟩⟩) := by
    intro l p
    unfold Spec.accepts
    split <;> simp
  have h1 : Spec.honestShow O sp x0 x1 x l (Spec.accepts O ⟨sp, ⟨⟨[x1.val • sp.h]⟩, ⟨x0, [x1]⟩⟩⟩) = 1 := by
    unfold Spec.honestShow
    rw [← Sim.mean_const (α := F × F × F) 1]
    refine Sim.mean_congr fun d => ?_
    rw [← Sim.mean_const (α := F × F × F) 1]
    refine Sim.mean_congr fun ρ => ?_
    rw [← Sim.mean_const (α := Spec.Answer) 1]
    refine Sim.mean_congr fun a => ?_
    rw [← Sim.mean_const (α := F × F × F) 1]
    refine Sim.mean_congr fun ρ' => ?_
    rw [← Sim.mean_const (α := Spec.Answer) 1]
    refine Sim.mean_congr fun a' => ?_
    dsimp only
    generalize Spec.HashLog.asked _ _ a' = l₂
    have hv := ValidCredential.C29_complete_any (l₂.oracle O) [.init "AEONFLUX SHOW"]
      (p := (⟨sp.g, sp.h, x1.val • sp.h, d.2.1 • sp.h, d.1 • (x1.val • sp.h) - d.2.2 • sp.h,
        m • (d.2.1 • sp.h) + d.1 • sp.h⟩ : ValidCredential.Publics G))
      (s := ⟨Scalar.ofF m, Scalar.ofF d.1, -Scalar.ofF d.2.2⟩)
      (by
        simp only [Spec.ValidCredential, Scalar.val_neg, Scalar.val_ofF]
        exact ⟨trivial, by module⟩) (ValidCredential.randOf ρ)
    have hc := CommittedValuesEqual.C29_complete_any (l₂.oracle O) [.init "SIGNAL GROUP MEMBERSHIP"]
      (p := (⟨sp.g, sp.h, d.2.1 • sp.h, m • (d.2.1 • sp.h) + d.1 • sp.h, D⟩ :
        CommittedValuesEqual.Publics G))
      (s := ⟨Scalar.ofF m, Scalar.ofF d.1, 0⟩)
      (by
        simp only [Spec.CommittedValuesEqual, Scalar.val_ofF]
        exact ⟨trivial, by simp [hm]⟩) (CommittedValuesEqual.randOf ρ')
    have hV : x0.val • (d.2.1 • sp.h) + x1.val • (m • (d.2.1 • sp.h) + d.1 • sp.h) -
        (d.2.1 • ((x1.val * m + x0.val) • sp.h) + d.2.2 • sp.h) =
        d.1 • (x1.val • sp.h) - d.2.2 • sp.h := by module
    unfold Spec.accepts
    rw [if_pos]
    constructor
    · simp only [x, SignalIssuer.verify, Issuer.verify, Issuer.verifyRevealed, Issuer.verifyBlinded,
        Spec.present, index, List.getElem?_cons_zero, Scalar.smul_def, Scalar.val_ofF, Res.ok_bind, Res.unwrap, hV,
        Issuer.showTranscript, hv, if_true]
    · simp only [x, SignalIssuer.verifyRosterMembership, Spec.present, index, List.getElem?_cons_zero,
        Scalar.val_ofF, Res.ok_bind, Res.unwrap, SignalIssuer.membershipTranscript, hc, if_true]
  have h2 := (Sim.show_close O sp hh x0 x1).close x l _ _ 0 hf hf (fun _ _ _ => by simp)
  rw [h1, zero_add] at h2
  have h3 := (abs_le.1 h2).2
  push_cast at h3
  have h4 : Spec.simulatedShow sp x0 x1 x l (Spec.accepts O ⟨sp, ⟨⟨[x1.val • sp.h]⟩, ⟨x0, [x1]⟩⟩⟩) =
      Spec.simulateShow sp x0 x1 D l (Spec.accepts O ⟨sp, ⟨⟨[x1.val • sp.h]⟩, ⟨x0, [x1]⟩⟩⟩) := rfl
  rw [h4] at h3
  dsimp only
  linarith

/-- The bound is not trivial: it is at least one half for up to `2^200` queries. -/
example {l : Spec.HashLog} (h : l.length ≤ 2 ^ 200) : (1 : ℚ) / 2 ≤ 1 - 2 * (l.length + 2) / ell := by
  have h1 : (l.length : ℚ) ≤ 2 ^ 200 := by exact_mod_cast h
  have h2 : (2 : ℚ) ^ 252 ≤ ell := by exact_mod_cast (by decide +kernel : 2 ^ 252 ≤ ell)
  have h3 : 2 * ((l.length : ℚ) + 2) / ell ≤ 1 / 2 := by
    rw [div_le_iff₀ (by linarith [show (0 : ℚ) < 2 ^ 252 by positivity])]
    have : (2 : ℚ) ^ 252 = 2 ^ 200 * 2 ^ 52 := by norm_num
    have : (2 : ℚ) ^ 252 ≥ 2 ^ 200 * 16 := by norm_num
    have : (2 : ℚ) ^ 200 ≥ 2 := by norm_num
    linarith
  linarith

/-! ## C83 issuances -/

/-- What `Issuer::issue` returns, as a function of its random field elements: the nonce `b`, the opening
`z` of the key commitment, and the randomness of the proof. -/
def Spec.issued (O : Oracle) (sp : SystemParameters G) (x0 x1 m : Scalar) (b z : F)
    (ρ : F × F × F × F) : CredentialIssuance G :=
  let P := b • basepoint G
  let Q := (x0.val + x1.val * m.val) • P
  let C := x0.val • sp.g + z • sp.h
  { secretKeyCommitment := C
    credential := ⟨⟨P, Q⟩, [m]⟩
    proof := IssuanceRevealed.createWith O [.init "AEONFLUX ISSUANCE"]
      ⟨P, Q, C, sp.g, sp.h, x1.val • sp.h⟩ ⟨x0, x1, Scalar.ofF z, m * x1⟩ (IssuanceRevealed.randOf ρ) }

/-- `issue` returns `Spec.issued`, with six field elements from six different reads: two of a transcript
generator keyed with 32 bytes `e` of the caller's generator, and four for the proof. -/
theorem C83_issue_is_issued {R : Type} [RngCore R] (O : Oracle) {i : Issuer G} {x0 x1 : Scalar}
    (hk : i.keypair.secretKey = ⟨x0, [x1]⟩)
    (hX : i.keypair.publicKey.Xn = [x1.val • i.systemParameters.h]) (m : Scalar) (rng : R)
    (entropy : Bytes) :
    ∃ e, (Spec.reads [32] rng).1 = [e] ∧
      let sp := i.systemParameters
      let b := Spec.coin (O.rng [.init "AEONFLUX ISSUANCE"] [] e [] 64)
      let z := Spec.coin (O.rng [.init "AEONFLUX ISSUANCE"] [] e [64] 64)
      let P := b • basepoint G
      let call : Spec.Call G := .issuanceRevealed "AEONFLUX ISSUANCE"
        ⟨P, (x0.val + x1.val * m.val) • P, x0.val • sp.g + z • sp.h, sp.g, sp.h, x1.val • sp.h⟩
        ⟨x0, x1, Scalar.ofF z, m * x1⟩ entropy
      (i.issue O ⟨[m]⟩ rng entropy).1 = .ok (Spec.issued O sp x0 x1 m b z
        (((call.read 0).scalar O).val, ((call.read 1).scalar O).val, ((call.read 2).scalar O).val,
          ((call.read 3).scalar O).val)) := by
  obtain ⟨sp, ⟨⟨Xn⟩, sk⟩⟩ := i
  dsimp only at hk hX
  subst hk hX
  refine ⟨(RngCore.fill rng 32).1, rfl, ?_⟩
  have ei : ∀ (p : IssuanceRevealed.Publics G) (s : IssuanceRevealed.Secrets),
      IssuanceRevealed.create O [.init "AEONFLUX ISSUANCE"] entropy p s =
        IssuanceRevealed.createWith O [.init "AEONFLUX ISSUANCE"] p s (IssuanceRevealed.randOf
          ((((Spec.Call.issuanceRevealed "AEONFLUX ISSUANCE" p s entropy).read 0).scalar O).val,
            (((Spec.Call.issuanceRevealed "AEONFLUX ISSUANCE" p s entropy).read 1).scalar O).val,
            (((Spec.Call.issuanceRevealed "AEONFLUX ISSUANCE" p s entropy).read 2).scalar O).val,
            (((Spec.Call.issuanceRevealed "AEONFLUX ISSUANCE" p s entropy).read 3).scalar O).val)) := by
    intro p s
    rw [IssuanceRevealed.create]
    congr 1
    simp only [IssuanceRevealed.randOf, Spec.Read.scalar, Scalar.val_ofF]
    rfl
  rw [issue_one]
  dsimp only
  generalize hb : Spec.coin (O.rng [.init "AEONFLUX ISSUANCE"] [] (RngCore.fill rng 32).1 [] 64) = b
  generalize hz : Spec.coin (O.rng [.init "AEONFLUX ISSUANCE"] [] (RngCore.fill rng 32).1 [64] 64) = z
  have h1 : (issueDraws O rng).1 = Scalar.ofF b := by rw [← hb]; rfl
  have h2 : (issueDraws O rng).2 = Scalar.ofF z := by rw [← hz]; rfl
  rw [h1, h2]
  simp only [issuanceData, Spec.issued, Issuer.issuanceTranscript, Scalar.smul_def, Scalar.val_ofF,
    Scalar.val_add, Scalar.val_mul, ei]

/-- An issuer that meets the hypotheses. -/
example : ∃ i : Issuer F, i.keypair.secretKey = ⟨⟨3, by decide⟩, [⟨5, by decide⟩]⟩ ∧
    i.keypair.publicKey.Xn = [(⟨5, by decide⟩ : Scalar).val • i.systemParameters.h] ∧
    i.systemParameters.h ≠ 0 :=
  ⟨⟨⟨1, 2⟩, ⟨⟨[(⟨5, by decide⟩ : Scalar).val • 2]⟩, ⟨⟨3, by decide⟩, [⟨5, by decide⟩]⟩⟩⟩, rfl, rfl,
    by decide +kernel⟩

/-- `Issuer::issue` on an attribute, with uniform randomness. The hash is asked once, by the proof. -/
noncomputable def Spec.honestIssue (O : Oracle) (sp : SystemParameters G) (x0 x1 : Scalar) :
    Spec.Server Scalar (fun _ => CredentialIssuance G) :=
  fun m l k =>
    Spec.mean fun b : F => Spec.mean fun z : F => Spec.mean fun ρ : F × F × F × F =>
    Spec.mean fun a : Spec.Answer =>
      let P := b • basepoint G
      let p : IssuanceRevealed.Publics G := ⟨P, (x0.val + x1.val * m.val) • P,
        x0.val • sp.g + z • sp.h, sp.g, sp.h, x1.val • sp.h⟩
      let l' := l.asked (IssuanceRevealed.commitCommitments
        (IssuanceRevealed.commitPublics [.init "AEONFLUX ISSUANCE"] p)
        (IssuanceRevealed.commitmentsOf p (IssuanceRevealed.randOf ρ))) a
      k l' (Spec.issued (l'.oracle O) sp x0 x1 m b z ρ)

/-- A simulated issuance, from the system parameters, the issuer's public key `X` and a MAC oracle, that
makes a tag for an attribute from a uniform coin: the key commitment is a uniform multiple of `h`, and the
proof is simulated. -/
noncomputable def Spec.simulatedIssue (sp : SystemParameters G) (X : G)
    (mac : Scalar → F → Amacs.Tag G) : Spec.Server Scalar (fun _ => CredentialIssuance G) :=
  fun m l k =>
    Spec.mean fun b : F => Spec.mean fun w : F =>
      let tag := mac m b
      let C := w • sp.h
      Spec.IssuanceRevealed.simulated [.init "AEONFLUX ISSUANCE"] ⟨tag.nonce, tag.mac, C, sp.g, sp.h, X⟩ l
        fun l' π => k l' ⟨C, ⟨tag, [m]⟩, π⟩

namespace Sim

theorem issue_close (O : Oracle) (sp : SystemParameters G) (hh : sp.h ≠ 0) (x0 x1 : Scalar) :
    Close 1 (Spec.honestIssue O sp x0 x1) (Spec.simulatedIssue sp (x1.val • sp.h) fun m b =>
      ⟨b • basepoint G, (x0.val + x1.val * m.val) • (b • basepoint G)⟩) where
  range m l f hf := mean01 fun b => mean01 fun z => mean01 fun ρ => mean01 fun a => hf _ _
  range' m l f hf := mean01 fun b => mean01 fun w => IssuanceRevealed.simulated01 _ _ _ fun _ _ => hf _ _
  close m l f g ε hf hg hfg := by
    obtain ⟨c, hc⟩ := exists_smul_of_ne_zero hh sp.g
    have key : Spec.simulatedIssue sp (x1.val • sp.h) (fun m b =>
        ⟨b • basepoint G, (x0.val + x1.val * m.val) • (b • basepoint G)⟩) m l g =
        Spec.mean fun b : F => Spec.mean fun z : F =>
          Spec.IssuanceRevealed.simulated [.init "AEONFLUX ISSUANCE"]
            ⟨b • basepoint G, (x0.val + x1.val * m.val) • (b • basepoint G), x0.val • sp.g + z • sp.h,
              sp.g, sp.h, x1.val • sp.h⟩ l fun l' π =>
              g l' ⟨x0.val • sp.g + z • sp.h,
                ⟨⟨b • basepoint G, (x0.val + x1.val * m.val) • (b • basepoint G)⟩, [m]⟩, π⟩ := by
      unfold Spec.simulatedIssue
      refine mean_congr fun b => ?_
      rw [← mean_equiv (Equiv.addLeft (x0.val * c))]
      refine mean_congr fun z => ?_
      have e : (Equiv.addLeft (x0.val * c) z) • sp.h = x0.val • sp.g + z • sp.h := by
        rw [hc, Equiv.coe_addLeft]
        module
      simp only [e]
    rw [key]
    refine le_trans (abs_sub_mean_le fun b => abs_sub_mean_le fun z => ?_) (le_one_query l ε)
    refine IssuanceRevealed.zk_close O [.init "AEONFLUX ISSUANCE"] (s := ⟨x0, x1, Scalar.ofF z, m * x1⟩) ?_
      (Or.inr (Or.inr hh)) l (fun l' π => f l' ⟨x0.val • sp.g + z • sp.h,
        ⟨⟨b • basepoint G, (x0.val + x1.val * m.val) • (b • basepoint G)⟩, [m]⟩, π⟩) _ ε
      (fun _ _ => hf _ _) fun l' π h => hfg _ _ h
    simp only [Spec.IssuanceRevealed, Scalar.val_ofF, Scalar.val_mul]
    exact ⟨by module, trivial, trivial⟩

end Sim

/-- C83: an issuance shows the user nothing about the issuer's key but a MAC on the attribute. For an
observer that asks the hash at most `q` times and gets at most `n` attributes of its choice issued, the
probability of a yes changes by at most `n(q+n)/ℓ` when the issuances are made from the public key and the
MACs alone. -/
theorem C83_issuance_simulatable (O : Oracle) (sp : SystemParameters G) (hh : sp.h ≠ 0) (x0 x1 : Scalar)
    (A : Spec.Observer Scalar fun _ => CredentialIssuance G) (q n : ℕ) (hA : A.Within q n) :
    |A.yes (Spec.honestIssue O sp x0 x1) [] -
      A.yes (Spec.simulatedIssue sp (x1.val • sp.h) fun m b =>
        ⟨b • basepoint G, (x0.val + x1.val * m.val) • (b • basepoint G)⟩) []| ≤ n * (q + n) / ell := by
  have := Sim.advantage (Sim.issue_close O sp hh x0 x1) A [] q n hA
  simpa using this

/-- An observer that gets the number 7 issued and then, if the key commitment is zero, the number 8. -/
example : Spec.Observer.Within (.request ⟨7, by decide⟩ fun c => if c.secretKeyCommitment = 0 then
    .request ⟨8, by decide⟩ fun _ => .done true else .done false :
    Spec.Observer Scalar fun _ => CredentialIssuance F) 0 2 :=
  ⟨1, rfl, fun c => by
    dsimp only
    split
    · exact ⟨0, rfl, fun _ => trivial⟩
    · trivial⟩

end Verif
