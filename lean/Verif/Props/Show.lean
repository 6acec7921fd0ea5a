import Verif.Props.Issuance

/-!
# Presentation and verification (C37–C40, C47)
-/

set_option maxRecDepth 100000

namespace Verif

open Amacs

variable {G : Type} [AddCommGroup G] [Module F G] [Ristretto G]

/-! ## C37 outcomes of show -/

theorem index_cases {ε α : Type} (l : List α) (i : ℕ) :
    (∃ a, l[i]? = some a ∧ (index l i : Res ε α) = .ok a) ∨
      (l.length ≤ i ∧ (index l i : Res ε α) = .panic) := by
  rw [index]
  cases h : l[i]? with
  | none => exact .inr ⟨by simpa using h, rfl⟩
  | some a => exact .inl ⟨a, rfl, rfl⟩

omit [Ristretto G] in
theorem showV_cases (Xn : List G) : ∀ (zs : List Scalar) (i : ℕ) (V : G),
    (zs ≠ [] → i + zs.length ≤ Xn.length) →
      ∃ V', User.showV Xn i zs V = .ok V' := by
  intro zs
  induction zs with
  | nil => intro i V _; exact ⟨V, rfl⟩
  | cons z zs ih =>
    intro i V h
    have h := h nofun
    simp only [List.length_cons] at h
    rw [User.showV, index_ok (by omega), Res.ok_bind]
    exact ih _ _ (fun _ => by omega)

omit [Ristretto G] in
theorem showV_panic (Xn : List G) : ∀ (zs : List Scalar) (i : ℕ) (V : G),
    zs ≠ [] → Xn.length < i + zs.length → User.showV Xn i zs V = .panic := by
  intro zs
  induction zs with
  | nil => intro i V h; exact absurd rfl h
  | cons z zs ih =>
    intro i V _ h
    simp only [List.length_cons] at h
    rw [User.showV]
    rcases index_cases (ε := CredentialError) Xn i with ⟨X, h1, h2⟩ | ⟨_, h2⟩
    · rw [h2, Res.ok_bind]
      obtain ⟨h3, _⟩ := List.getElem?_eq_some_iff.1 h1
      apply ih
      · rintro rfl
        simp at h; omega
      · omega
    · rw [h2]; rfl

/-- The complete outcome table of `User::show`: an error exactly without a credential, success
exactly when there is an attribute, a nonce, and no more nonces than issuer parameters, otherwise a
panic. -/
theorem C37_outcomes {R : Type} [RngCore R] (O : Oracle) (u : User G) (nonces : List Scalar) (rng : R)
    (entropy : Bytes) :
    (u.credential = none → (u.show O nonces rng entropy).1 = .err .missingData) ∧
    (∀ c, u.credential = some c → c.attributes ≠ [] → nonces ≠ [] →
      nonces.length ≤ u.issuerParameters.Xn.length →
      ∃ p, (u.show O nonces rng entropy).1 = .ok p ∧ p.attributesRevealed = [] ∧
        p.attributesBlinded.length = min nonces.length c.attributes.length) ∧
    (∀ c, u.credential = some c → (c.attributes = [] ∨ nonces = [] ∨
      u.issuerParameters.Xn.length < nonces.length) →
      (u.show O nonces rng entropy).1 = .panic) := by
  obtain ⟨sp, ⟨Xn⟩, k, cr⟩ := u
  refine ⟨?_, ?_, ?_⟩
  · rintro h
    dsimp only at h
    subst h
    rfl
  · rintro ⟨tag, as⟩ h ha hn hl
    dsimp only at h ha hl
    subst h
    obtain ⟨V, hV⟩ := showV_cases Xn nonces 0 0 (fun _ => by omega)
    cases as with
    | nil => exact absurd rfl ha
    | cons a as =>
      cases nonces with
      | nil => exact absurd rfl hn
      | cons z zs =>
        cases Xn with
        | nil => simp at hl
        | cons X Xs =>
          simp only [User.show, hV, Res.ok_bind]
          refine ⟨_, rfl, rfl, ?_⟩
          simp
  · rintro ⟨tag, as⟩ h hh
    dsimp only at h hh
    subst h
    simp only [User.show]
    by_cases hp : nonces ≠ [] ∧ Xn.length < nonces.length
    · rw [showV_panic Xn nonces 0 0 hp.1 (by omega)]
      rfl
    · obtain ⟨V, hV⟩ := showV_cases Xn nonces 0 0 (fun h => by
        by_contra hc
        exact hp ⟨h, by omega⟩)
      rw [hV, Res.ok_bind]
      rcases hh with rfl | rfl | h
      · rfl
      · cases as <;> rfl
      · exfalso
        apply hp
        refine ⟨?_, h⟩
        rintro rfl
        simp at h

example : ∃ (u : User F) (c : Credential F), u.credential = some c ∧ c.attributes ≠ [] ∧
    [(1 : Scalar)].length ≤ u.issuerParameters.Xn.length :=
  ⟨⟨⟨1, 2⟩, ⟨[6]⟩, none, some ⟨⟨1, 7⟩, [1]⟩⟩, _, rfl, by simp, by simp⟩

theorem C37_missing_iff {R : Type} [RngCore R] (O : Oracle) (u : User G) (nonces : List Scalar)
    (rng : R) (entropy : Bytes) (e : CredentialError) :
    (u.show O nonces rng entropy).1 = .err e ↔ u.credential = none ∧ e = .missingData := by
  obtain ⟨h1, h2, h3⟩ := C37_outcomes O u nonces rng entropy
  cases hc : u.credential with
  | none =>
    rw [h1 hc]
    simp [eq_comm]
  | some c =>
    have : (u.show O nonces rng entropy).1 ≠ .err e := by
      by_cases h : c.attributes = [] ∨ nonces = [] ∨ u.issuerParameters.Xn.length < nonces.length
      · rw [h3 c hc h]; nofun
      · push Not at h
        obtain ⟨p, hp, _⟩ := h2 c hc h.1 h.2.1 h.2.2
        rw [hp]; nofun
    simp [this]

/-- The outcome table of `SignalUser::show`. -/
theorem C37_signal_outcomes {R : Type} [RngCore R] (O : Oracle) (u : SignalUser G) (rng : R)
    (roster : RosterEntryCommitment G) (e1 e2 : Bytes) :
    (u.user.credential = none → (u.show O rng roster e1 e2).1 = .err .missingData) ∧
    (∀ c, u.user.credential = some c → c.attributes ≠ [] → u.user.issuerParameters.Xn ≠ [] →
      ∃ p, (u.show O rng roster e1 e2).1 = .ok p ∧ p.presentation.attributesRevealed = [] ∧
        p.rosterEntryCommitment = roster.commitment) ∧
    (∀ c, u.user.credential = some c → (c.attributes = [] ∨ u.user.issuerParameters.Xn = []) →
      (u.show O rng roster e1 e2).1 = .panic) := by
  obtain ⟨number, ⟨sp, ⟨Xn⟩, k, cr⟩⟩ := u
  refine ⟨?_, ?_, ?_⟩
  · rintro h
    dsimp only at h
    subst h
    rfl
  · rintro ⟨tag, as⟩ h ha hX
    dsimp only at h ha hX
    subst h
    cases as with
    | nil => exact absurd rfl ha
    | cons a as =>
      cases Xn with
      | nil => exact absurd rfl hX
      | cons X Xs => exact ⟨_, rfl, rfl, rfl⟩
  · rintro ⟨tag, as⟩ h hh
    dsimp only at h hh
    subst h
    rcases hh with rfl | rfl
    · cases Xn <;> rfl
    · cases as <;> rfl

/-- Users produced by the API: a held credential has an attribute, and issuer parameters are then
present. -/
def Spec.ApiUser (u : SignalUser G) : Prop :=
  ∀ c, u.user.credential = some c → c.attributes ≠ [] ∧ u.user.issuerParameters.Xn ≠ []

/-- Every way of getting a `SignalUser` gives an `ApiUser`: `new`, `from_bytes`, and `obtain_finish`
with an issuance that was decoded from bytes or returned by `Issuer::issue`. -/
theorem C37_api_users :
    (∀ (sp : SystemParameters G) ip k b u, SignalUser.new sp ip k b = .ok u → Spec.ApiUser u) ∧
    (∀ (b : Bytes) (u : SignalUser G), SignalUser.fromBytes b = .ok u → Spec.ApiUser u) ∧
    (∀ (O : Oracle) (u : SignalUser G) iss, Spec.ApiUser u →
      ((∃ b, CredentialIssuance.fromBytes b = .ok iss) ∨
        (∃ (R : Type) (_ : RngCore R) (O' : Oracle) (i : Issuer G) (rq : CredentialRequest) (rng : R)
          (e : Bytes), (i.issue O' rq rng e).1 = .ok iss)) →
      Spec.ApiUser (u.obtainFinish O (some iss)).2) := by
  refine ⟨?_, ?_, ?_⟩
  · intro sp ip k b u h c hc
    simp only [SignalUser.new, Res.bind_eq_ok] at h
    obtain ⟨n, _, h⟩ := h
    cases h
    cases hc
  · intro b u h c hc
    simp only [SignalUser.fromBytes, Res.bind_eq_ok] at h
    obtain ⟨_, _, n, _, _, _, us, h, h'⟩ := h
    cases h'
    obtain ⟨X, kb, cb, hX, _, h2, _⟩ := (C11_ok_iff _ _).1 h
    dsimp only at hc
    rw [hc] at h2
    obtain ⟨a, _, h3, _⟩ := h2
    exact ⟨by simp [h3], by simp [hX]⟩
  · intro O u iss hu hiss
    have ha : iss.credential.attributes ≠ [] := by
      rcases hiss with ⟨b, h⟩ | ⟨R, _, O', i, rq, rng, e, h⟩
      · obtain ⟨a, _, h1, _⟩ := (C08_ok_iff _ _).1 h
        simp [h1.1]
      · rw [(C25_issue_valid h).1]
        intro hr
        obtain ⟨h1, h2, h3, _⟩ := C46_outcomes O' i rq rng e
        by_cases a : i.keypair.publicKey.Xn = []
        · rw [h1 a] at h; cases h
        · by_cases b : i.keypair.secretKey.xn = []
          · rw [h2 a b] at h; cases h
          · rw [h3 a b (by rw [hr]; simpa using b)] at h; cases h
    intro c hc
    have h0 := C34_outcomes O u.user (some iss)
    rcases C34_all_or_nothing O u.user (some iss) with ⟨c', hc', h⟩ | h | h
    · rw [(C34_signal O u (some iss)).2, h] at hc ⊢
      cases hc'
      cases hc
      refine ⟨ha, ?_⟩
      obtain ⟨_, X, _, h2, _⟩ := h0.1.1 (by rw [h])
      intro hn
      dsimp only at hn
      simp [hn] at h2
    · rw [(C34_signal O u (some iss)).2, h] at hc ⊢
      exact hu c hc
    · rw [(C34_signal O u (some iss)).2, h] at hc ⊢
      exact hu c hc

/-- For such users: an error exactly without a credential, otherwise success with nothing revealed. -/
theorem C37_api {R : Type} [RngCore R] (O : Oracle) {u : SignalUser G} (hu : Spec.ApiUser u) (rng : R)
    (roster : RosterEntryCommitment G) (e1 e2 : Bytes) :
    ((u.show O rng roster e1 e2).1 = .err .missingData ↔ u.user.credential = none) ∧
    (u.user.credential ≠ none → ∃ p, (u.show O rng roster e1 e2).1 = .ok p ∧
      p.presentation.attributesRevealed = [] ∧ p.rosterEntryCommitment = roster.commitment) := by
  obtain ⟨h1, h2, h3⟩ := C37_signal_outcomes O u rng roster e1 e2
  cases hc : u.user.credential with
  | none => exact ⟨⟨fun _ => rfl, fun _ => h1 hc⟩, fun h => absurd rfl h⟩
  | some c =>
    obtain ⟨p, hp⟩ := h2 c hc (hu c hc).1 (hu c hc).2
    refine ⟨⟨fun h => ?_, nofun⟩, fun _ => ⟨p, hp⟩⟩
    rw [hp.1] at h
    cases h

example : Spec.ApiUser (⟨1, ⟨⟨1, 2⟩, ⟨[6]⟩, none, some ⟨⟨1, 7⟩, [1]⟩⟩⟩ : SignalUser F) := by
  intro c hc
  cases hc
  simp

/-! ## C38 honest presentations verify -/

omit [Ristretto G] in
theorem presentation_relation (sp : SystemParameters G) (x0 x1 m z0 r zQ : Scalar) (tag : Tag G)
    (hm : tag.mac = (x1.val * m.val + x0.val) • tag.nonce) :
    Spec.ValidCredential (⟨sp.g, sp.h, x1.val • sp.h, r • tag.nonce,
      0 + z0 • (x1.val • sp.h) - zQ • sp.h, m • (r • tag.nonce) + z0 • sp.h⟩ :
        ValidCredential.Publics G) ⟨m, z0, -zQ⟩ ∧
    x0 • (r • tag.nonce) + x1 • (m • (r • tag.nonce) + z0 • sp.h) - (r • tag.mac + zQ • sp.h) =
      0 + z0 • (x1.val • sp.h) - zQ • sp.h := by
  simp only [Spec.ValidCredential, Scalar.smul_def, Scalar.val_neg, hm]
  refine ⟨⟨trivial, by module⟩, by module⟩

/-- For every matching issuer, valid MAC, nonce, RNG, entropy and hash, `verify` accepts what `show`
returns, and returns exactly it. -/
theorem C38_honest_accepted {R : Type} [RngCore R] (O : Oracle) {i : Issuer G}
    (hi : Spec.KeypairMatches i) {u : User G} (hsp : u.systemParameters = i.systemParameters)
    (hip : u.issuerParameters = i.getIssuerParameters) {tag : Tag G} {m : Scalar}
    (hc : u.credential = some ⟨tag, [m]⟩) (hm : Spec.MacValid i.keypair.secretKey tag [m])
    (z0 : Scalar) (rng : R) (entropy : Bytes) :
    ∃ p, (u.show O [z0] rng entropy).1 = .ok p ∧ i.verify O p = .ok ⟨p⟩ := by
  obtain ⟨x0, x1, hi'⟩ := matches_form hi
  obtain ⟨sp, kp⟩ := i
  obtain ⟨sp', ip, k, cr⟩ := u
  dsimp only at hsp hip hc hi' hm
  subst hsp hip hc
  have hk := congrArg Issuer.keypair hi'
  dsimp only at hk
  subst hk
  simp only [Spec.MacValid, Spec.macFactor, List.map_cons, List.map_nil] at hm
  refine ⟨_, show_one O m z0 rng entropy, ?_⟩
  obtain ⟨h1, h2⟩ := presentation_relation sp' x0 x1 m z0 (showDraws O rng).1 (showDraws O rng).2
    tag hm
  dsimp only [presentationData]
  rw [verify_one, h2, if_pos]
  exact ValidCredential.C29_complete O _ _ h1

/-- In particular for a credential accepted from that issuer's `issue`. -/
theorem C38_issued {R R' : Type} [RngCore R] [RngCore R'] (O O' : Oracle) {i : Issuer G}
    (hi : Spec.KeypairMatches i) {u u' : User G} (hsp : u.systemParameters = i.systemParameters)
    (hip : u.issuerParameters = i.getIssuerParameters) (m : Scalar) (rng : R) (e : Bytes)
    {c : CredentialIssuance G} (hc : (i.issue O ⟨[m]⟩ rng e).1 = .ok c)
    (hu : u.obtainFinish O (some c) = (.ok (), u')) (z0 : Scalar) (rng' : R') (e' : Bytes) :
    ∃ p, (u'.show O' [z0] rng' e').1 = .ok p ∧ i.verify O' p = .ok ⟨p⟩ := by
  obtain ⟨ha, hm⟩ := C25_issue_valid hc
  have hu' : u' = { u with credential := some c.credential } := by
    rcases C34_all_or_nothing O u (some c) with ⟨c', e1, h⟩ | h | h
    · cases e1
      rw [h] at hu
      exact (Prod.mk.inj hu).2.symm
    · rw [h] at hu; cases hu
    · rw [h] at hu; cases hu
  subst hu'
  obtain ⟨pf, ⟨tag, as⟩, sk⟩ := c
  dsimp only at ha hm
  subst ha
  exact C38_honest_accepted O' hi (u := { u with credential := some ⟨tag, [m]⟩ }) hsp hip rfl hm z0
    rng' e'

/-- In particular for every issuer made by `Issuer::create`, with no assumption about its
keys: issuing, accepting, presenting and verifying all succeed. -/
theorem C38_created {R₀ R R' : Type} [RngCore R₀] [RngCore R] [RngCore R'] (O O' : Oracle)
    (sp : SystemParameters G) (r₀ : R₀) {u : User G} (hsp : u.systemParameters = sp)
    (hip : u.issuerParameters = (Issuer.create sp r₀).1.getIssuerParameters) (m : Scalar) (rng : R)
    (e : Bytes) (z0 : Scalar) (rng' : R') (e' : Bytes) :
    ∃ c u' p, ((Issuer.create sp r₀).1.issue O ⟨[m]⟩ rng e).1 = .ok c ∧
      u.obtainFinish O (some c) = (.ok (), u') ∧ (u'.show O' [z0] rng' e').1 = .ok p ∧
      (Issuer.create sp r₀).1.verify O' p = .ok ⟨p⟩ := by
  have hi := (C33_created_matches sp r₀).1
  have hs : (Issuer.create sp r₀).1.systemParameters = sp := rfl
  obtain ⟨c, hc, -, -, hu⟩ := C33_honest_accepted O hi m rng e u (hsp.trans hs.symm) hip
  obtain ⟨p, hp, hv⟩ := C38_issued O O' hi (hsp.trans hs.symm) hip m rng e hc hu z0 rng' e'
  exact ⟨c, _, p, hc, hu, hp, hv⟩

example : ∃ u : User F, u.systemParameters = ⟨1, 2⟩ ∧
    u.issuerParameters = (Issuer.create (⟨1, 2⟩ : SystemParameters F) (⟨0⟩ : ToyRng)).1.getIssuerParameters :=
  ⟨⟨⟨1, 2⟩, (Issuer.create (⟨1, 2⟩ : SystemParameters F) (⟨0⟩ : ToyRng)).1.getIssuerParameters, none, none⟩,
    rfl, rfl⟩

example : ∃ (i : Issuer F) (tag : Tag F), Spec.KeypairMatches i ∧
    Spec.MacValid i.keypair.secretKey tag [1] :=
  ⟨⟨⟨1, 2⟩, ⟨⟨[(1 : Scalar).val • 2]⟩, ⟨1, [1]⟩⟩⟩, ⟨3, 6⟩, ⟨1, rfl, rfl⟩, by
    simp only [Spec.MacValid, Spec.macFactor, List.map]; decide +kernel⟩

/-! ## C39 the whole protocol -/

/-- A presentation of a valid MAC on `m`, with a roster entry for `m`, passes both checks. -/
theorem signal_presentation_verifies (O : Oracle) {sp : SystemParameters G} {x0 x1 m : Scalar}
    {tag : Tag G} (hm : tag.mac = (x1.val * m.val + x0.val) • tag.nonce) (z0 r zQ : Scalar)
    {ros : RosterEntryCommitment G} (hros : ros.commitment = m.val • sp.h + ros.opening.val • sp.g)
    (e₂ e₃ : Bytes) (p : SignalCredentialPresentation G)
    (hp : p = signalPresentationData sp (x1.val • sp.h) tag m z0 r zQ ros
      (ValidCredential.create O Issuer.showTranscript e₂)
      (CommittedValuesEqual.create O SignalIssuer.membershipTranscript e₃)) :
    SignalIssuer.verify O ⟨⟨sp, ⟨⟨[x1.val • sp.h]⟩, ⟨x0, [x1]⟩⟩⟩⟩ p = .ok ⟨p⟩ ∧
    SignalIssuer.verifyRosterMembership O ⟨⟨sp, ⟨⟨[x1.val • sp.h]⟩, ⟨x0, [x1]⟩⟩⟩⟩ ⟨p⟩ =
      .ok ros.commitment := by
  subst hp
  constructor
  · obtain ⟨h5, h6⟩ := presentation_relation sp x0 x1 m z0 r zQ tag hm
    have : Issuer.verify O ⟨sp, ⟨⟨[x1.val • sp.h]⟩, ⟨x0, [x1]⟩⟩⟩
        (presentationData sp (x1.val • sp.h) tag m z0 r zQ
          (ValidCredential.create O Issuer.showTranscript e₂)) =
        .ok ⟨presentationData sp (x1.val • sp.h) tag m z0 r zQ
          (ValidCredential.create O Issuer.showTranscript e₂)⟩ := by
      dsimp only [presentationData]
      rw [verify_one, h6, if_pos]
      exact ValidCredential.C29_complete O _ _ h5
    rw [SignalIssuer.verify]
    dsimp only [signalPresentationData]
    rw [this]
    rfl
  · dsimp only [signalPresentationData, presentationData]
    rw [verifyRoster_one, if_pos]
    apply CommittedValuesEqual.C29_complete
    simp only [Spec.CommittedValuesEqual, Scalar.smul_def]
    exact ⟨trivial, hros⟩

/-- Everything in memory: for each number of at most 27 bytes, all six steps succeed and the last
returns the user's own roster commitment. Each step has its own RNG and entropy. -/
theorem C39_complete {R₁ R₂ R₃ : Type} [RngCore R₁] [RngCore R₂] [RngCore R₃] (O : Oracle)
    {i : SignalIssuer G} (hi : Spec.KeypairMatches i.issuer) (key : Option (Elgamal.Keypair G))
    {b : Bytes} (hb : b.length ≤ 27) (r₁ : R₁) (r₂ : R₂) (r₃ : R₃) (e₁ e₂ e₃ : Bytes) :
    ∃ u c u' ros p,
      SignalUser.new i.issuer.systemParameters i.getIssuerParameters key b = .ok u ∧
      (i.issue O b r₁ e₁).1 = .ok c ∧
      u.obtainFinish O (some c) = (.ok (), u') ∧
      (RosterEntryCommitment.create b i.issuer.systemParameters r₂).1 = .ok ros ∧
      (u'.show O r₃ ros e₂ e₃).1 = .ok p ∧
      i.verify O p = .ok ⟨p⟩ ∧
      i.verifyRosterMembership O ⟨p⟩ = .ok ros.commitment := by
  have hn : PhoneNumber.tryFromBytes b = .ok _ := PhoneNumber.encodeWith_ok id _ hb
  generalize Scalar.fromBytesModOrder _ = m at hn
  obtain ⟨i⟩ := i
  dsimp only at hi ⊢
  have hu : SignalUser.new i.systemParameters i.getIssuerParameters key b =
      .ok ⟨m, User.new i.systemParameters i.getIssuerParameters key⟩ := by
    simp only [SignalUser.new, hn, Res.mapErr_ok, Res.ok_bind]
  have his : SignalIssuer.issue O ⟨i⟩ b r₁ e₁ = i.issue O ⟨[m]⟩ r₁ e₁ := by
    simp only [SignalIssuer.issue, hn, Res.mapErr_ok]
  obtain ⟨c, h1, h2, h3, h4⟩ := C33_honest_accepted O hi m r₁ e₁
    (User.new i.systemParameters i.getIssuerParameters key) rfl rfl
  obtain ⟨x0, x1, hi'⟩ := matches_form hi
  obtain ⟨sp, kp⟩ := i
  dsimp only at hi'
  have hk := congrArg Issuer.keypair hi'
  dsimp only at hk
  subst hk
  obtain ⟨pf, ⟨tag, as⟩, sk⟩ := c
  dsimp only at h2 h3
  subst h2
  simp only [Spec.MacValid, Spec.macFactor, List.map_cons, List.map_nil] at h3
  obtain ⟨h5, h6⟩ := signal_presentation_verifies O (sp := sp) h3 (signalShowDraws O r₃).1
    (signalShowDraws O r₃).2.1 (signalShowDraws O r₃).2.2
    (ros := ⟨m • sp.h + (Scalar.random r₂).1 • sp.g, (Scalar.random r₂).1⟩) rfl e₂ e₃ _ rfl
  refine ⟨_, _, ⟨m, ⟨sp, ⟨[x1.val • sp.h]⟩, key, some ⟨tag, [m]⟩⟩⟩, _, _, hu,
    by rw [his]; exact h1, ?_, roster_create b _ r₂ hn, signal_show_one O m m r₃ _ e₂ e₃, h5, h6⟩
  rw [SignalUser.obtainFinish]
  simp only [h4]
  rfl

example : (List.replicate 27 (1 : UInt8)).length ≤ 27 := by decide

/-! ## C40 over the wire -/

/-- The protocol with every object sent as bytes and read back before use: parameters, issuer, issuer
parameters, user (twice), issuance, roster entry, presentation and verified credential. Returns what
`verify_roster_membership` returned and the commitment in the roster entry. -/
def Spec.wireRun {R₀ R₁ R₂ R₃ : Type} [RngCore R₀] [RngCore R₁] [RngCore R₂] [RngCore R₃] (O : Oracle)
    (checks : Bool) (params : SystemParameters G) (key : Option (Elgamal.Keypair G)) (b : Bytes)
    (r₀ : R₀) (r₁ : R₁) (r₂ : R₂) (r₃ : R₃) (e₁ e₂ e₃ : Bytes) : Res CredentialError (G × G) := do
  let sp : SystemParameters G ← SystemParameters.fromBytes params.toBytes
  let i : SignalIssuer G ← SignalIssuer.fromBytes checks (SignalIssuer.create sp r₀).1.toBytes
  let pk : PublicKey G ← (PublicKey.fromBytes i.getIssuerParameters.toBytes).mapErr
    CredentialError.ofMac
  let u ← SignalUser.new sp pk key b
  let u : SignalUser G ← SignalUser.fromBytes u.toBytes
  let c ← (i.issue O b r₁ e₁).1
  let c : CredentialIssuance G ← CredentialIssuance.fromBytes c.toBytes
  let _ ← (u.obtainFinish O (some c)).1
  let u : SignalUser G ← SignalUser.fromBytes (u.obtainFinish O (some c)).2.toBytes
  let ros ← (RosterEntryCommitment.create b sp r₂).1.mapErr CredentialError.ofPhone
  let ros : RosterEntryCommitment G ← (RosterEntryCommitment.fromBytes ros.toBytes).mapErr CredentialError.ofPhone
  let p ← (u.show O r₃ ros e₂ e₃).1
  let p : SignalCredentialPresentation G ← SignalCredentialPresentation.fromBytes p.toBytes
  let v ← i.verify O p
  let v : VerifiedSignalCredential G ← VerifiedSignalCredential.fromBytes v.toBytes
  let out ← i.verifyRosterMembership O v
  .ok (out, ros.commitment)

/-- For every parameters, number of at most 27 bytes, optional key that survives saving, RNGs,
entropies, hash and build mode, the run succeeds and returns the roster entry's commitment. -/
theorem C40_complete {R₀ R₁ R₂ R₃ : Type} [RngCore R₀] [RngCore R₁] [RngCore R₂] [RngCore R₃]
    (O : Oracle) (checks : Bool) (params : SystemParameters G) (key : Option (Elgamal.Keypair G))
    (hkey : ∀ k, key = some k → Spec.KeySaves k) {b : Bytes} (hb : b.length ≤ 27) (r₀ : R₀) (r₁ : R₁)
    (r₂ : R₂) (r₃ : R₃) (e₁ e₂ e₃ : Bytes) :
    ∃ ros, (RosterEntryCommitment.create b params r₂).1 = .ok ros ∧
      Spec.wireRun O checks params key b r₀ r₁ r₂ r₃ e₁ e₂ e₃ =
        .ok (ros.commitment, ros.commitment) := by
  have hn : PhoneNumber.tryFromBytes b = .ok _ := PhoneNumber.encodeWith_ok id _ hb
  generalize Scalar.fromBytesModOrder _ = m at hn
  obtain ⟨hmr, hm0⟩ := C18_canonical (.inl hn)
  refine ⟨_, roster_create b params r₂ hn, ?_⟩
  obtain ⟨x0, x1, hx0, hx1, hi⟩ : ∃ x0 x1 : Scalar, x0.Reduced ∧ x1.Reduced ∧
      (SignalIssuer.create params r₀).1 =
        ⟨⟨params, ⟨⟨[x1.val • params.h]⟩, ⟨x0, [x1]⟩⟩⟩⟩ :=
    ⟨_, _, Scalar.reduced_fromWide _, Scalar.reduced_fromWide _, rfl⟩
  have hm : Spec.KeypairMatches (⟨params, ⟨⟨[x1.val • params.h]⟩, ⟨x0, [x1]⟩⟩⟩ : Issuer G) :=
    ⟨x1, rfl, rfl⟩
  have hu : SignalUser.new params ⟨[x1.val • params.h]⟩ key b =
      .ok ⟨m, ⟨params, ⟨[x1.val • params.h]⟩, key, none⟩⟩ := by
    simp only [SignalUser.new, hn, Res.mapErr_ok, Res.ok_bind]
    rfl
  have his : SignalIssuer.issue O ⟨⟨params, ⟨⟨[x1.val • params.h]⟩, ⟨x0, [x1]⟩⟩⟩⟩ b r₁ e₁ =
      Issuer.issue O ⟨params, ⟨⟨[x1.val • params.h]⟩, ⟨x0, [x1]⟩⟩⟩ ⟨[m]⟩ r₁ e₁ := by
    simp only [SignalIssuer.issue, hn, Res.mapErr_ok]
  obtain ⟨c, h1, h2, h3, h4⟩ := C33_honest_accepted O hm m r₁ e₁
    ⟨params, ⟨[x1.val • params.h]⟩, key, none⟩ rfl rfl
  have hcOK : Spec.IssuanceOK c m := by
    rw [issue_one] at h1
    cases h1
    refine ⟨rfl, hmr, Scalar.reduced_fromWide _, Scalar.reduced_add _ _, Scalar.reduced_add _ _,
      Scalar.reduced_add _ _, Scalar.reduced_add _ _⟩
  obtain ⟨pf, ⟨tag, as⟩, sk⟩ := c
  dsimp only at h2 h3
  subst h2
  simp only [Spec.MacValid, Spec.macFactor, List.map_cons, List.map_nil] at h3
  have h4' : SignalUser.obtainFinish O ⟨m, ⟨params, ⟨[x1.val • params.h]⟩, key, none⟩⟩
      (some ⟨pf, ⟨tag, [m]⟩, sk⟩) =
      (.ok (), ⟨m, ⟨params, ⟨[x1.val • params.h]⟩, key, some ⟨tag, [m]⟩⟩⟩) := by
    rw [SignalUser.obtainFinish]
    simp only [h4]
  have hu1 : SignalUser.fromBytes (SignalUser.toBytes ⟨m, ⟨params, ⟨[x1.val • params.h]⟩, key, none⟩⟩) =
      .ok ⟨m, ⟨params, ⟨[x1.val • params.h]⟩, key, none⟩⟩ := by
    rw [C11_signal_roundtrip_iff, C11_roundtrip_iff]
    exact ⟨rfl, hkey, nofun⟩
  have hu2 : SignalUser.fromBytes
      (SignalUser.toBytes ⟨m, ⟨params, ⟨[x1.val • params.h]⟩, key, some ⟨tag, [m]⟩⟩⟩) =
      .ok ⟨m, ⟨params, ⟨[x1.val • params.h]⟩, key, some ⟨tag, [m]⟩⟩⟩ := by
    rw [C11_signal_roundtrip_iff, C11_roundtrip_iff]
    refine ⟨rfl, hkey, ?_⟩
    intro c hc
    cases hc
    refine ⟨m, rfl, hmr, ?_⟩
    rintro ⟨_, _, h0⟩
    exact hm0 (by rw [h0, Scalar.val_zero])
  obtain ⟨h5, h6⟩ := signal_presentation_verifies O (sp := params) h3 (signalShowDraws O r₃).1
    (signalShowDraws O r₃).2.1 (signalShowDraws O r₃).2.2
    (ros := ⟨m • params.h + (Scalar.random r₂).1 • params.g, (Scalar.random r₂).1⟩) rfl e₂ e₃ _ rfl
  obtain ⟨hp1, hp2, _⟩ := C10_roundtrip (signalPresentationData params (x1.val • params.h) tag m
    (signalShowDraws O r₃).1 (signalShowDraws O r₃).2.1 (signalShowDraws O r₃).2.2
    ⟨m • params.h + (Scalar.random r₂).1 • params.g, (Scalar.random r₂).1⟩
    (ValidCredential.create O Issuer.showTranscript e₂)
    (CommittedValuesEqual.create O SignalIssuer.membershipTranscript e₃)) _
    ⟨⟨rfl, rfl, Scalar.reduced_fromWide _, Scalar.reduced_add _ _, Scalar.reduced_add _ _,
      Scalar.reduced_add _ _⟩, Scalar.reduced_fromWide _, Scalar.reduced_add _ _,
      Scalar.reduced_add _ _, Scalar.reduced_add _ _⟩
  have hsi := C06_signal_roundtrip checks
    (⟨⟨params, ⟨⟨[x1.val • params.h]⟩, ⟨x0, [x1]⟩⟩⟩⟩ : SignalIssuer G) rfl (le_refl 1) hx0
    (by simpa using hx1)
  rw [Spec.wireRun]
  simp only [C01_roundtrip, Res.ok_bind, hi, hsi, SignalIssuer.getIssuerParameters,
    Issuer.getIssuerParameters, C03_roundtrip, Res.mapErr_ok, hu, hu1, his, h1,
    (C08_roundtrip _ _ hcOK).1, h4', hu2, roster_create b params r₂ hn, C12_roster_roundtrip,
    signal_show_one, hp1, h5, hp2, h6]

example : Spec.KeySaves (⟨1, 1⟩ : Elgamal.Keypair F) := ⟨by decide, by decide +kernel⟩

/-- Without the condition on the key the run would forget it: a key of all zeros, which
`Keypair::generate` can produce, does not survive saving (so C40 is stated for keys that do, or no
key; the C and JavaScript interfaces never pass one). -/
theorem C40_zero_key (sp : SystemParameters G) (X : G) :
    User.fromBytes (User.toBytes ⟨sp, ⟨[X]⟩, some ⟨0, 0⟩, none⟩) = .ok ⟨sp, ⟨[X]⟩, none, none⟩ := by
  rw [C11_ok_iff]
  refine ⟨X, List.replicate 64 0, List.replicate 96 0, rfl, rfl, rfl, ?_⟩
  have e : Elgamal.Keypair.toBytes (⟨0, 0⟩ : Elgamal.Keypair G) = List.replicate 64 0 := by
    have h1 : (0 : Scalar).toBytes = List.replicate 32 0 := toBytes_eq_zero.2 rfl
    simp only [Elgamal.Keypair.toBytes, Elgamal.SecretKey.toBytes, Elgamal.PublicKey.toBytes, h1,
      Ristretto.enc_zero]
    rfl
  simp only [User.toBytes, e, SystemParameters.toBytes, PublicKey.toBytes, List.map_cons,
    List.map_nil, List.flatten_cons, List.flatten_nil, List.append_nil]

/-- The run never looks at the user's key pair: with any canonical key, also the all-zero one that
saving forgets (C40_zero_key), it succeeds with the same result as with no key. -/
theorem C40_any_key {R₀ R₁ R₂ R₃ : Type} [RngCore R₀] [RngCore R₁] [RngCore R₂] [RngCore R₃]
    (O : Oracle) (checks : Bool) (params : SystemParameters G) (key : Option (Elgamal.Keypair G))
    (hkey : ∀ k, key = some k → k.secretKey.Reduced) {b : Bytes} (hb : b.length ≤ 27) (r₀ : R₀)
    (r₁ : R₁) (r₂ : R₂) (r₃ : R₃) (e₁ e₂ e₃ : Bytes) :
    ∃ ros, (RosterEntryCommitment.create b params r₂).1 = .ok ros ∧
      Spec.wireRun O checks params key b r₀ r₁ r₂ r₃ e₁ e₂ e₃ =
        .ok (ros.commitment, ros.commitment) := by
  by_cases h : ∀ k, key = some k → Spec.KeySaves k
  · exact C40_complete O checks params key h hb r₀ r₁ r₂ r₃ e₁ e₂ e₃
  · push Not at h
    obtain ⟨k, rfl, hk⟩ := h
    have hz : k = ⟨0, 0⟩ := by
      by_contra hne
      refine hk ⟨hkey k rfl, fun h => hne ?_⟩
      obtain ⟨s, p⟩ := k
      obtain ⟨rfl, rfl⟩ := h
      rfl
    subst hz
    have e : Spec.wireRun O checks params (some ⟨0, 0⟩) b r₀ r₁ r₂ r₃ e₁ e₂ e₃ =
        Spec.wireRun O checks params none b r₀ r₁ r₂ r₃ e₁ e₂ e₃ := by
      have hz : Elgamal.Keypair.toBytes (⟨0, 0⟩ : Elgamal.Keypair G) = List.replicate 64 0 := by
        have h1 : (0 : Scalar).toBytes = List.replicate 32 0 := toBytes_eq_zero.2 rfl
        simp only [Elgamal.Keypair.toBytes, Elgamal.SecretKey.toBytes, Elgamal.PublicKey.toBytes,
          h1, Ristretto.enc_zero]
        rfl
      have hn : PhoneNumber.tryFromBytes b = .ok _ := PhoneNumber.encodeWith_ok id _ hb
      simp only [Spec.wireRun, SignalUser.new, User.new, hn, Res.mapErr_ok, Res.ok_bind,
        SignalUser.toBytes, User.toBytes, hz]
    rw [e]
    exact C40_complete O checks params none (fun k h => by cases h) hb r₀ r₁ r₂ r₃ e₁ e₂ e₃

example : (0 : Scalar).Reduced ∧ ¬ Spec.KeySaves (⟨0, 0⟩ : Elgamal.Keypair F) :=
  ⟨by decide, fun h => h.2 ⟨rfl, rfl⟩⟩

/-! ## C47 verify on decoded data -/

/-- On a decoded issuer and presentation, `verify` returns the presentation or `MacVerification`. -/
theorem C47_verify (O : Oracle) {checks : Bool} {b b' : Bytes} {i : Issuer G}
    {p : CredentialPresentation G} (hi : Issuer.fromBytes checks b = .ok i)
    (hp : CredentialPresentation.fromBytes b' = .ok p) :
    i.verify O p = .ok ⟨p⟩ ∨ i.verify O p = .err .macVerification := by
  obtain ⟨h1, h2⟩ := C06_has_key hi
  obtain ⟨_, Cm, _, ⟨h3, h4, _⟩, _⟩ := (C09_ok_iff _ _).1 hp
  obtain ⟨sp, ⟨⟨Xn⟩, ⟨x0, xn⟩⟩⟩ := i
  obtain ⟨CQ, P, ar, ab, pf⟩ := p
  dsimp only at h1 h2 h3 h4
  subst h3 h4
  cases Xn with
  | nil => exact absurd rfl h1
  | cons X Xs =>
    cases xn with
    | nil => exact absurd rfl h2
    | cons x xs =>
      rw [verify_one]
      split
      · exact .inl rfl
      · exact .inr rfl

example : (∃ b, Issuer.fromBytes true b = .ok (⟨⟨1, 2⟩, ⟨⟨[6]⟩, ⟨1, [1]⟩⟩⟩ : Issuer F)) ∧
    (∃ b, CredentialPresentation.fromBytes b =
      .ok (⟨3, 4, [], [5], ⟨1, ⟨1, 0, 1⟩⟩⟩ : CredentialPresentation F)) :=
  ⟨⟨_, C06_roundtrip true _ rfl (le_refl 1) (by decide) (by decide)⟩,
    ⟨_, (C09_roundtrip _ 5 ⟨rfl, rfl, by decide, by decide, by decide, by decide⟩).1⟩⟩

/-- The same for the Signal wrapper and for roster membership, where the issuer need not be decoded. -/
theorem C47_signal (O : Oracle) {checks : Bool} {b b' b'' : Bytes} {i : SignalIssuer G}
    {p : SignalCredentialPresentation G} {v : VerifiedSignalCredential G}
    (hi : SignalIssuer.fromBytes checks b = .ok i)
    (hp : SignalCredentialPresentation.fromBytes b' = .ok p)
    (hv : VerifiedSignalCredential.fromBytes b'' = .ok v) :
    (i.verify O p = .ok ⟨p⟩ ∨ i.verify O p = .err .macVerification) ∧
    (i.verifyRosterMembership O v = .ok v.inner.rosterEntryCommitment ∨
      i.verifyRosterMembership O v = .err .verificationFailure) := by
  constructor
  · rw [(C06_signal checks b).1, Res.map_eq_ok] at hi
    obtain ⟨i, hi, rfl⟩ := hi
    obtain ⟨Cm, rest, h1, h2⟩ := (C10_ok_iff _ _).1 hp
    have := C47_verify O hi (C09_roundtrip _ _ h1.1).1
    rw [SignalIssuer.verify]
    dsimp only
    rcases this with h | h <;> rw [h]
    · exact .inl rfl
    · exact .inr rfl
  · rw [C10_verified, Res.map_eq_ok] at hv
    obtain ⟨p, hp, rfl⟩ := hv
    obtain ⟨Cm, rest, h1, h2⟩ := (C10_ok_iff _ _).1 hp
    obtain ⟨R, ⟨CQ, P, ar, ab, pf⟩, pf'⟩ := p
    obtain ⟨⟨h3, h4, _⟩, _⟩ := h1
    dsimp only at h3 h4
    subst h3 h4
    rw [verifyRoster_one]
    split
    · exact .inl rfl
    · exact .inr rfl

/-- Decoded issuers, presentations and verified credentials exist. -/
example : (∃ b, SignalIssuer.fromBytes true b = .ok (⟨⟨⟨1, 2⟩, ⟨⟨[6]⟩, ⟨1, [1]⟩⟩⟩⟩ : SignalIssuer F)) ∧
    (∃ b, SignalCredentialPresentation.fromBytes b =
      .ok (⟨3, ⟨3, 4, [], [5], ⟨1, ⟨1, 0, 1⟩⟩⟩, ⟨1, ⟨1, 1, 0⟩⟩⟩ : SignalCredentialPresentation F)) :=
  ⟨⟨_, C06_signal_roundtrip true _ rfl (le_refl 1) (by decide) (by decide)⟩,
    ⟨_, (C10_roundtrip _ 5 ⟨⟨rfl, rfl, by decide, by decide, by decide, by decide⟩, by decide,
      by decide, by decide, by decide⟩).1⟩⟩

end Verif
