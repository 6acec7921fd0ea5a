import Verif.Props.Show

/-!
# What an accepted presentation proves (C41, C42, C45)
-/

set_option maxRecDepth 100000

namespace Verif

open Amacs

variable {G : Type} [AddCommGroup G] [Module F G] [Ristretto G]

/-! ## C41 possession of a MAC -/

/-- A forged presentation, from public data only (system parameters, issuer parameter `X`): the
identity as nonce, `z0·h` as blinded attribute, `zQ·h` as blinded MAC, and an honest proof. `m` is
any number of the forger's choice. -/
def Spec.forgedPresentation (O : Oracle) (sp : SystemParameters G) (X : G) (m z0 zQ : Scalar)
    (entropy : Bytes) : CredentialPresentation G :=
  { rerandomizedMacCommitment := zQ • sp.h
    rerandomizedNonce := 0
    attributesRevealed := []
    attributesBlinded := [z0 • sp.h]
    proof := ValidCredential.create O [.init "AEONFLUX SHOW"] entropy
      ⟨sp.g, sp.h, X, 0, z0 • X - zQ • sp.h, z0 • sp.h⟩ ⟨m, z0, -zQ⟩ }

/-- The forged presentation together with an honest proof about a roster entry the forger opened. -/
def Spec.forgedSignal (O : Oracle) (sp : SystemParameters G) (X : G) (m z0 zQ z1 : Scalar)
    (e e' : Bytes) : SignalCredentialPresentation G :=
  { rosterEntryCommitment := m • sp.h + z1 • sp.g
    presentation := Spec.forgedPresentation O sp X m z0 zQ e
    rosterMembershipProof := CommittedValuesEqual.create O [.init "SIGNAL GROUP MEMBERSHIP"] e'
      ⟨sp.g, sp.h, 0, z0 • sp.h, m • sp.h + z1 • sp.g⟩ ⟨m, z0, z1⟩ }

/-- The claim of C41 is false: with the published parameters alone, without any credential, anyone
makes presentations that `verify` accepts, for every issuer key, every attribute and every choice of
blinding. -/
theorem C41_forgery (O : Oracle) {i : Issuer G} (hi : Spec.KeypairMatches i) {X : G}
    (hX : i.getIssuerParameters.Xn = [X]) (m z0 zQ : Scalar) (entropy : Bytes) :
    i.verify O (Spec.forgedPresentation O i.systemParameters X m z0 zQ entropy) =
      .ok ⟨Spec.forgedPresentation O i.systemParameters X m z0 zQ entropy⟩ := by
  obtain ⟨x0, x1, hi'⟩ := matches_form hi
  obtain ⟨sp, kp⟩ := i
  have hk := congrArg Issuer.keypair hi'
  dsimp only at hk
  subst hk
  simp only [Issuer.getIssuerParameters, List.cons.injEq, and_true] at hX
  subst hX
  dsimp only [Spec.forgedPresentation]
  rw [verify_one]
  have e : x0 • (0 : G) + x1 • (z0 • sp.h) - zQ • sp.h = z0 • (x1.val • sp.h) - zQ • sp.h := by
    simp only [Scalar.smul_def]
    module
  rw [e, if_pos]
  apply ValidCredential.C29_complete
  simp only [Spec.ValidCredential, Scalar.smul_def, Scalar.val_neg]
  exact ⟨by module, by module⟩

/-- The same through the Signal wrapper: the forger passes `verify` and `verify_roster_membership`
for any phone number with a roster entry for it, in particular someone else's number. -/
theorem C41_signal_forgery (O : Oracle) {i : SignalIssuer G} (hi : Spec.KeypairMatches i.issuer)
    {X : G} (hX : i.getIssuerParameters.Xn = [X]) (m z0 zQ z1 : Scalar) (e e' : Bytes) :
    i.verify O (Spec.forgedSignal O i.issuer.systemParameters X m z0 zQ z1 e e') =
      .ok ⟨Spec.forgedSignal O i.issuer.systemParameters X m z0 zQ z1 e e'⟩ ∧
    i.verifyRosterMembership O
      ⟨Spec.forgedSignal O i.issuer.systemParameters X m z0 zQ z1 e e'⟩ =
      .ok (m • i.issuer.systemParameters.h + z1 • i.issuer.systemParameters.g) := by
  constructor
  · rw [SignalIssuer.verify]
    dsimp only [Spec.forgedSignal]
    rw [C41_forgery O hi hX]
    rfl
  · dsimp only [Spec.forgedSignal, Spec.forgedPresentation]
    rw [verifyRoster_one, if_pos]
    apply CommittedValuesEqual.C29_complete
    simp only [Spec.CommittedValuesEqual, Scalar.smul_def]
    exact ⟨by module, trivial⟩

/-- The forged presentation also survives the wire, so it can be sent to a remote issuer. -/
theorem C41_forgery_decodes (O : Oracle) (sp : SystemParameters G) (X : G) (m z0 zQ z1 : Scalar)
    (e e' : Bytes) :
    SignalCredentialPresentation.fromBytes (Spec.forgedSignal O sp X m z0 zQ z1 e e').toBytes =
      .ok (Spec.forgedSignal O sp X m z0 zQ z1 e e') :=
  (C10_roundtrip _ _ ⟨⟨rfl, rfl, Scalar.reduced_fromWide _, Scalar.reduced_add _ _,
    Scalar.reduced_add _ _, Scalar.reduced_add _ _⟩, Scalar.reduced_fromWide _,
    Scalar.reduced_add _ _, Scalar.reduced_add _ _, Scalar.reduced_add _ _⟩).1

/-- Every created issuer is affected. -/
example {R : Type} [RngCore R] (O : Oracle) (sp : SystemParameters G) (r : R) (m : Scalar) :
    ∃ p v, (SignalIssuer.create sp r).1.verify O p = .ok v :=
  ⟨_, _, (C41_signal_forgery O (C33_created_matches sp r).1 rfl m 1 1 1 [] []).1⟩

/-- What remains of C41, by extraction from two accepted presentations with the same values that
asked the same hash query: from the two proofs one computes `m0`, `z0`, `minus_zQ` with the blinded
attribute equal to `m0·P + z0·h` and `(P, CQ + minus_zQ·h)` satisfying the MAC equation for `m0`.
Missing: `P ≠ 0`, without which the equation says nothing (`C41_forgery`); the code never checks it. How to
come by two such presentations: `C78_presentation`. -/
theorem C41_extract_partial {O₁ O₂ : Oracle} {i : Issuer G} (hi : Spec.KeypairMatches i)
    {CQ P C : G} {r₁ r₂ : ValidCredential.Proof} {v₁ v₂ : VerifiedCredential G}
    (h₁ : i.verify O₁ ⟨CQ, P, [], [C], r₁⟩ = .ok v₁) (h₂ : i.verify O₂ ⟨CQ, P, [], [C], r₂⟩ = .ok v₂)
    (p : ValidCredential.Publics G)
    (hp : ∀ x1 ∈ i.keypair.secretKey.xn, p = ⟨i.systemParameters.g, i.systemParameters.h,
      x1.val • i.systemParameters.h, P, i.keypair.secretKey.x0 • P + x1 • C - CQ, C⟩)
    (q : Transcript)
    (hq₁ : ValidCredential.verifyTranscript [.init "AEONFLUX SHOW"] p
      (ValidCredential.recommit p r₁) = q)
    (hq₂ : ValidCredential.verifyTranscript [.init "AEONFLUX SHOW"] p
      (ValidCredential.recommit p r₂) = q)
    (hc : (leVal (O₁.chal q "chal" 64) : F) ≠ leVal (O₂.chal q "chal" 64)) :
    let s := ValidCredential.extract r₁ r₂
    C = s.m0.val • P + s.z0.val • i.systemParameters.h ∧
      Spec.MacValid i.keypair.secretKey ⟨P, CQ + s.minus_zQ.val • i.systemParameters.h⟩ [s.m0] := by
  obtain ⟨x0, x1, hi'⟩ := matches_form hi
  obtain ⟨sp, kp⟩ := i
  have hk := congrArg Issuer.keypair hi'
  dsimp only at hk
  subst hk
  have hp := hp x1 (by simp)
  dsimp only at hp
  rw [verify_one] at h₁ h₂
  rw [← hp] at h₁ h₂
  split at h₁
  swap; · cases h₁
  rename_i v₁
  split at h₂
  swap; · cases h₂
  rename_i v₂
  subst hq₁
  obtain ⟨s1, s2⟩ := ValidCredential.C30_special_sound v₁ v₂ hq₂.symm hc
  subst hp
  generalize ValidCredential.extract r₁ r₂ = s at s1 s2
  dsimp only at s1 s2
  refine ⟨s1, ?_⟩
  simp only [Spec.MacValid, Spec.macFactor, List.map_cons, List.map_nil]
  simp only [Scalar.smul_def] at s1 s2
  rw [s1] at s2
  linear_combination (norm := module) -s2

omit [Ristretto G] in
/-- With a non-identity nonce the extracted tag is a genuine one: it determines the attribute (for
`x1 ≠ 0`). -/
theorem C41_attribute_determined_partial {i : Issuer G} (hi : Spec.KeypairMatches i) {P Q : G}
    (hP : P ≠ 0) (hx : ∀ x ∈ i.keypair.secretKey.xn, x.val ≠ 0) {m m' : Scalar}
    (h : Spec.MacValid i.keypair.secretKey ⟨P, Q⟩ [m])
    (h' : Spec.MacValid i.keypair.secretKey ⟨P, Q⟩ [m']) : m.val = m'.val := by
  obtain ⟨x1, h7, _⟩ := hi
  rw [Spec.MacValid] at h h'
  rw [h, smul_right_inj' hP, h7] at h'
  simp only [Spec.macFactor, List.map_cons, List.map_nil] at h'
  exact mul_left_cancel₀ (hx x1 (by rw [h7]; simp)) (add_right_cancel h')

example : ∃ (i : Issuer F), Spec.KeypairMatches i ∧ (∀ x ∈ i.keypair.secretKey.xn, x.val ≠ 0) :=
  ⟨⟨⟨1, 2⟩, ⟨⟨[(1 : Scalar).val • 2]⟩, ⟨1, [1]⟩⟩⟩, ⟨1, rfl, rfl⟩, by decide +kernel⟩

/-! ## C42 the roster entry has the credential's number -/

/-- Extraction from both proofs: the blinded attribute opens to the computed `m0` as in the credential, the
roster entry is a commitment to the computed `m0` of the other proof, and either these are equal or the nonce
is a multiple of `h` by a computed number. -/
theorem C42_bound {O₁ O₂ : Oracle} {sp : SystemParameters G} {X P V C R : G}
    {r₁ r₂ : ValidCredential.Proof} {s₁ s₂ : CommittedValuesEqual.Proof}
    (p : ValidCredential.Publics G) (hp : p = ⟨sp.g, sp.h, X, P, V, C⟩)
    (p' : CommittedValuesEqual.Publics G) (hp' : p' = ⟨sp.g, sp.h, P, C, R⟩)
    {t t' : Transcript}
    (h₁ : ValidCredential.verify O₁ t r₁ p = true) (h₂ : ValidCredential.verify O₂ t r₂ p = true)
    (g₁ : CommittedValuesEqual.verify O₁ t' s₁ p' = true)
    (g₂ : CommittedValuesEqual.verify O₂ t' s₂ p' = true) (q q' : Transcript)
    (hq₁ : ValidCredential.verifyTranscript t p (ValidCredential.recommit p r₁) = q)
    (hq₂ : ValidCredential.verifyTranscript t p (ValidCredential.recommit p r₂) = q)
    (hq₁' : CommittedValuesEqual.verifyTranscript t' p' (CommittedValuesEqual.recommit p' s₁) = q')
    (hq₂' : CommittedValuesEqual.verifyTranscript t' p' (CommittedValuesEqual.recommit p' s₂) = q')
    (hc : (leVal (O₁.chal q "chal" 64) : F) ≠ leVal (O₂.chal q "chal" 64))
    (hc' : (leVal (O₁.chal q' "chal" 64) : F) ≠ leVal (O₂.chal q' "chal" 64)) :
    let w := ValidCredential.extract r₁ r₂
    let w' := CommittedValuesEqual.extract s₁ s₂
    (C = w.m0.val • P + w.z0.val • sp.h ∧ V = w.z0.val • X + w.minus_zQ.val • sp.h) ∧
      (C = w'.m0.val • P + w'.z0.val • sp.h ∧ R = w'.m0.val • sp.h + w'.z1.val • sp.g) ∧
      (w.m0.val = w'.m0.val ∨
        P = ((w'.z0.val - w.z0.val) / (w.m0.val - w'.m0.val)) • sp.h) := by
  subst hq₁ hq₁'
  obtain ⟨a1, a2⟩ := ValidCredential.C30_special_sound h₁ h₂ hq₂.symm hc
  obtain ⟨b1, b2⟩ := CommittedValuesEqual.C30_special_sound g₁ g₂ hq₂'.symm hc'
  subst hp hp'
  refine ⟨⟨a1, a2⟩, ⟨b1, b2⟩, ?_⟩
  dsimp only at a1 b1
  generalize (ValidCredential.extract r₁ r₂).m0.val = m at *
  generalize (ValidCredential.extract r₁ r₂).z0.val = z at *
  generalize (CommittedValuesEqual.extract s₁ s₂).m0.val = m' at *
  generalize (CommittedValuesEqual.extract s₁ s₂).z0.val = z' at *
  by_cases h : m = m'
  · exact .inl h
  · right
    have hne : m - m' ≠ 0 := sub_ne_zero.2 h
    have e : (m - m') • P = (z' - z) • sp.h := by
      have := a1.symm.trans b1
      linear_combination (norm := module) this
    rw [div_eq_inv_mul, mul_smul, ← e, smul_smul, inv_mul_cancel₀ hne, one_smul]

/-- The accepting checks of the issuer are exactly the two verifications assumed in `C42_bound`. -/
theorem C42_checks {O : Oracle} {sp : SystemParameters G} {X : G} {x0 x1 : Scalar}
    {R CQ P C : G} {r : ValidCredential.Proof} {s : CommittedValuesEqual.Proof}
    {v : VerifiedSignalCredential G} {out : G}
    (hv : SignalIssuer.verify O ⟨⟨sp, ⟨⟨[X]⟩, ⟨x0, [x1]⟩⟩⟩⟩ ⟨R, ⟨CQ, P, [], [C], r⟩, s⟩ = .ok v)
    (hm : SignalIssuer.verifyRosterMembership O ⟨⟨sp, ⟨⟨[X]⟩, ⟨x0, [x1]⟩⟩⟩⟩ v = .ok out) :
    out = R ∧
    ValidCredential.verify O [.init "AEONFLUX SHOW"] r
      ⟨sp.g, sp.h, X, P, x0 • P + x1 • C - CQ, C⟩ = true ∧
    CommittedValuesEqual.verify O [.init "SIGNAL GROUP MEMBERSHIP"] s ⟨sp.g, sp.h, P, C, R⟩ = true := by
  rw [SignalIssuer.verify] at hv
  dsimp only at hv
  rw [verify_one] at hv
  split at hv
  swap; · cases hv
  rename_i h1
  cases hv
  rw [verifyRoster_one] at hm
  split at hm
  swap; · cases hm
  rename_i h2
  cases hm
  exact ⟨rfl, h1, h2⟩

/-- The second alternative of `C42_bound` is not hypothetical: with the identity as nonce it holds
with ratio zero, and the two proofs can be about different numbers `m ≠ m'`. -/
theorem C42_identity_nonce (O : Oracle) {i : SignalIssuer G} (hi : Spec.KeypairMatches i.issuer)
    {X : G} (hX : i.getIssuerParameters.Xn = [X]) (m m' z0 zQ z1 : Scalar) (e e' : Bytes)
    (p : SignalCredentialPresentation G)
    (hp : p = { rosterEntryCommitment :=
                  m'.val • i.issuer.systemParameters.h + z1.val • i.issuer.systemParameters.g
                presentation := Spec.forgedPresentation O i.issuer.systemParameters X m z0 zQ e
                rosterMembershipProof := CommittedValuesEqual.create O
                  [.init "SIGNAL GROUP MEMBERSHIP"] e'
                  ⟨i.issuer.systemParameters.g, i.issuer.systemParameters.h, 0,
                    z0 • i.issuer.systemParameters.h,
                    m'.val • i.issuer.systemParameters.h + z1.val • i.issuer.systemParameters.g⟩
                  ⟨m', z0, z1⟩ }) :
    i.verify O p = .ok ⟨p⟩ ∧ i.verifyRosterMembership O ⟨p⟩ = .ok p.rosterEntryCommitment := by
  subst hp
  constructor
  · rw [SignalIssuer.verify]
    dsimp only
    rw [C41_forgery O hi hX]
    rfl
  · dsimp only [Spec.forgedPresentation]
    rw [verifyRoster_one, if_pos]
    apply CommittedValuesEqual.C29_complete
    simp only [Spec.CommittedValuesEqual, Scalar.smul_def]
    exact ⟨by module, trivial⟩

/-- The hypotheses of `C42_bound` are met. -/
example : ∃ (sp : SystemParameters F) (p : ValidCredential.Publics F)
    (p' : CommittedValuesEqual.Publics F) (r₁ r₂ : ValidCredential.Proof)
    (s₁ s₂ : CommittedValuesEqual.Proof),
    p = ⟨sp.g, sp.h, p.X0, p.P, p.V, p.Cm0⟩ ∧ p' = ⟨sp.g, sp.h, p.P, p.Cm0, p'.Cm1⟩ ∧
    ValidCredential.verify toyOracle [] r₁ p = true ∧
    ValidCredential.verify toyOracle2 [] r₂ p = true ∧
    CommittedValuesEqual.verify toyOracle [] s₁ p' = true ∧
    CommittedValuesEqual.verify toyOracle2 [] s₂ p' = true ∧
    ValidCredential.verifyTranscript [] p (ValidCredential.recommit p r₁) =
      ValidCredential.verifyTranscript [] p (ValidCredential.recommit p r₂) ∧
    CommittedValuesEqual.verifyTranscript [] p' (CommittedValuesEqual.recommit p' s₁) =
      CommittedValuesEqual.verifyTranscript [] p' (CommittedValuesEqual.recommit p' s₂) :=
  let p : ValidCredential.Publics F := ⟨1, 4, 6, 7, 38, 41⟩
  let s : ValidCredential.Secrets := ⟨⟨3, by decide⟩, ⟨5, by decide⟩, ⟨2, by decide⟩⟩
  let p' : CommittedValuesEqual.Publics F := ⟨1, 4, 7, 41, 21⟩
  let s' : CommittedValuesEqual.Secrets := ⟨⟨3, by decide⟩, ⟨5, by decide⟩, ⟨9, by decide⟩⟩
  let rand : ValidCredential.Randomnesses := ⟨⟨23, by decide⟩, ⟨25, by decide⟩, ⟨22, by decide⟩⟩
  let rand' : CommittedValuesEqual.Randomnesses := ⟨⟨23, by decide⟩, ⟨25, by decide⟩, ⟨22, by decide⟩⟩
  ⟨⟨1, 4⟩, p, p', ValidCredential.createWith toyOracle [] p s rand,
    ValidCredential.createWith toyOracle2 [] p s rand,
    CommittedValuesEqual.createWith toyOracle [] p' s' rand',
    CommittedValuesEqual.createWith toyOracle2 [] p' s' rand', rfl, rfl, by decide +kernel,
    by decide +kernel, by decide +kernel, by decide +kernel, by decide +kernel, by decide +kernel⟩

/-! ## C45 the "verified" type -/

/-- The claim of C45 is false: decoding makes a `VerifiedSignalCredential` out of every well-formed
presentation, without any check. -/
theorem C45_unchecked {p : SignalCredentialPresentation G} {Cm : G}
    (h : Spec.SignalPresentationOK p Cm) : VerifiedSignalCredential.fromBytes p.toBytes = .ok ⟨p⟩ :=
  (C10_roundtrip p Cm h).2.1

example : ∃ (p : SignalCredentialPresentation F) (Cm : F), Spec.SignalPresentationOK p Cm :=
  ⟨⟨3, ⟨3, 4, [], [5], ⟨1, ⟨1, 0, 1⟩⟩⟩, ⟨1, ⟨1, 1, 0⟩⟩⟩, 5,
    ⟨⟨rfl, rfl, by decide, by decide, by decide, by decide⟩, by decide, by decide, by decide, by decide⟩⟩

/-- Such a value is accepted by `verify_roster_membership` although the presentation is rejected by
`verify`: concrete witness. -/
theorem C45_false : ∃ (O : Oracle) (i : SignalIssuer F) (b : Bytes) (v : VerifiedSignalCredential F),
    Spec.KeypairMatches i.issuer ∧ VerifiedSignalCredential.fromBytes b = .ok v ∧
    i.verify O v.inner = .err .macVerification ∧
    i.verifyRosterMembership O v = .ok v.inner.rosterEntryCommitment := by
  let i : SignalIssuer F := ⟨⟨⟨1, 4⟩, ⟨⟨[(1 : Scalar).val • 4]⟩, ⟨1, [1]⟩⟩⟩⟩
  let p' : CommittedValuesEqual.Publics F := ⟨1, 4, 7, 41, 21⟩
  let s' : CommittedValuesEqual.Secrets := ⟨⟨3, by decide⟩, ⟨5, by decide⟩, ⟨9, by decide⟩⟩
  let rand' : CommittedValuesEqual.Randomnesses := ⟨⟨23, by decide⟩, ⟨25, by decide⟩, ⟨22, by decide⟩⟩
  let pf := CommittedValuesEqual.createWith toyOracle SignalIssuer.membershipTranscript p' s' rand'
  let p : SignalCredentialPresentation F := ⟨21, ⟨0, 7, [], [41], ⟨0, ⟨0, 0, 0⟩⟩⟩, pf⟩
  refine ⟨toyOracle, i, p.toBytes, ⟨p⟩, ⟨1, rfl, rfl⟩, ?_, by decide +kernel, by decide +kernel⟩
  refine C45_unchecked (Cm := 41) ⟨⟨rfl, rfl, by decide, by decide, by decide, by decide⟩,
    Scalar.reduced_fromWide _, Scalar.reduced_add _ _, Scalar.reduced_add _ _,
    Scalar.reduced_add _ _⟩

/-- For every issuer and number, anyone can make bytes that decode to a "verified" credential which
passes the membership check, without any proof of possession at all: the presentation's own proof is
four zero scalars, and no issuer key enters. -/
theorem C45_membership_for_anyone (O : Oracle) (i : SignalIssuer G) (m z0 z1 : Scalar) (P : G)
    (e : Bytes) :
    ∃ (b : Bytes) (v : VerifiedSignalCredential G), VerifiedSignalCredential.fromBytes b = .ok v ∧
      v.inner.presentation.proof = ⟨0, ⟨0, 0, 0⟩⟩ ∧ v.inner.presentation.rerandomizedNonce = P ∧
      i.verifyRosterMembership O v =
        .ok (m • i.issuer.systemParameters.h + z1 • i.issuer.systemParameters.g) := by
  let sp := i.issuer.systemParameters
  let p : SignalCredentialPresentation G :=
    ⟨m • sp.h + z1 • sp.g, ⟨0, P, [], [m • P + z0 • sp.h], ⟨0, ⟨0, 0, 0⟩⟩⟩,
      CommittedValuesEqual.create O SignalIssuer.membershipTranscript e
        ⟨sp.g, sp.h, P, m • P + z0 • sp.h, m • sp.h + z1 • sp.g⟩ ⟨m, z0, z1⟩⟩
  refine ⟨p.toBytes, ⟨p⟩, C45_unchecked (Cm := m • P + z0 • sp.h) ⟨⟨rfl, rfl, Scalar.reduced_zero,
    Scalar.reduced_zero, Scalar.reduced_zero, Scalar.reduced_zero⟩, Scalar.reduced_fromWide _,
    Scalar.reduced_add _ _, Scalar.reduced_add _ _, Scalar.reduced_add _ _⟩, rfl, rfl, ?_⟩
  rw [verifyRoster_one, if_pos]
  apply CommittedValuesEqual.C29_complete
  simp only [Spec.CommittedValuesEqual, Scalar.smul_def]
  exact ⟨trivial, trivial⟩

/-- What remains of C45: the value returned by `verify` itself was checked. Missing: values obtained
by decoding (`C45_false`). -/
theorem C45_verify_partial {O : Oracle} {i : SignalIssuer G} {p : SignalCredentialPresentation G}
    {v : VerifiedSignalCredential G} (h : i.verify O p = .ok v) :
    v = ⟨p⟩ ∧ i.issuer.verify O p.presentation = .ok ⟨p.presentation⟩ := by
  simp only [SignalIssuer.verify, Res.bind_eq_ok] at h
  obtain ⟨w, h1, h2⟩ := h
  cases h2
  refine ⟨rfl, ?_⟩
  have h3 := h1
  simp only [Issuer.verify, Res.bind_eq_ok] at h3
  obtain ⟨_, _, _, _, _, _, _, _, h3⟩ := h3
  split at h3
  · cases h3; exact h1
  · cases h3

example {R : Type} [RngCore R] (O : Oracle) (sp : SystemParameters G) (r : R) :
    ∃ p v, (SignalIssuer.create sp r).1.verify O p = .ok v :=
  ⟨_, _, (C41_signal_forgery O (C33_created_matches sp r).1 rfl 1 1 1 1 [] []).1⟩

end Verif
