import Verif.Props.Commit
import Verif.Props.Draws
import Verif.Props.NizkWi
import Verif.Props.ProofRng
import Verif.Props.Show

/-!
# Unlinkability and roster entries (C43, C44)
-/

set_option maxRecDepth 100000

namespace Verif

open Amacs

variable {G : Type} [AddCommGroup G] [Module F G] [Ristretto G]

/-! ## C43 unlinkability -/

/-- What `SignalUser::show` sends, as a function of its nine random field elements: the attribute
blinding `z0`, the rerandomisation `r` and the MAC blinding `zQ` (in `d`), and the randomness of the
two proofs (`ρ`, `ρ'`). -/
def Spec.present (O : Oracle) (sp : SystemParameters G) (X : G) (c : Credential G) (m : Scalar)
    (ros : RosterEntryCommitment G) (d ρ ρ' : F × F × F) : SignalCredentialPresentation G :=
  let P := d.2.1 • c.mac.nonce
  let C := m.val • P + d.1 • sp.h
  { rosterEntryCommitment := ros.commitment
    presentation :=
      { rerandomizedMacCommitment := d.2.1 • c.mac.mac + d.2.2 • sp.h
        rerandomizedNonce := P
        attributesRevealed := []
        attributesBlinded := [C]
        proof := ValidCredential.createWith O [.init "AEONFLUX SHOW"]
          ⟨sp.g, sp.h, X, P, d.1 • X - d.2.2 • sp.h, C⟩
          ⟨m, Scalar.ofF d.1, -Scalar.ofF d.2.2⟩ (ValidCredential.randOf ρ) }
    rosterMembershipProof := CommittedValuesEqual.createWith O [.init "SIGNAL GROUP MEMBERSHIP"]
      ⟨sp.g, sp.h, P, C, ros.commitment⟩ ⟨m, Scalar.ofF d.1, ros.opening⟩
      (CommittedValuesEqual.randOf ρ') }

/-- The field element of a 64-byte read. -/
def Spec.coin (b : Bytes) : F := leVal b

/-- The randomness of a proof with three secrets: three reads of the generator of the call, which is no other
call's (`C66_reads_injective`). -/
def Spec.proofCoins (O : Oracle) (c : Spec.Call G) : F × F × F :=
  (((c.read 0).scalar O).val, ((c.read 1).scalar O).val, ((c.read 2).scalar O).val)

/-- The randomness of the values of a presentation: the first 64 bytes `z` of the caller's generator, and the
first two reads of a transcript generator with the next 32 bytes `e`. -/
def Spec.showCoins (O : Oracle) (z e : Bytes) : F × F × F :=
  (Spec.coin z, Spec.coin (O.rng [.init "AEONFLUX SHOW"] [] e [] 64),
    Spec.coin (O.rng [.init "AEONFLUX SHOW"] [] e [64] 64))

/-- `show` returns `Spec.present`, with nine field elements from nine different reads: one of the caller's
generator, two of a transcript generator keyed with further bytes of it, and three for each proof. -/
theorem C43_show_is_present {R : Type} [RngCore R] (O : Oracle) {u : SignalUser G} {X : G}
    {Xs : List G} {c : Credential G} {m : Scalar} (hX : u.user.issuerParameters.Xn = X :: Xs)
    (hc : u.user.credential = some c) (hm : c.attributes = [m]) (rng : R)
    (ros : RosterEntryCommitment G) (e1 e2 : Bytes) :
    ∃ z e, (Spec.reads [64, 32] rng).1 = [z, e] ∧
      let sp := u.user.systemParameters
      let d := Spec.showCoins O z e
      let P := d.2.1 • c.mac.nonce
      let C := m.val • P + d.1 • sp.h
      let ρ := Spec.proofCoins O (.validCredential "AEONFLUX SHOW"
        ⟨sp.g, sp.h, X, P, d.1 • X - d.2.2 • sp.h, C⟩ ⟨m, Scalar.ofF d.1, -Scalar.ofF d.2.2⟩ e1)
      let ρ' := Spec.proofCoins O (.committedValuesEqual "SIGNAL GROUP MEMBERSHIP"
        ⟨sp.g, sp.h, P, C, ros.commitment⟩ ⟨m, Scalar.ofF d.1, ros.opening⟩ e2)
      (u.show O rng ros e1 e2).1 = .ok (Spec.present O sp X c m ros d ρ ρ') := by
  obtain ⟨number, ⟨sp, ⟨Xn⟩, k, cr⟩⟩ := u
  obtain ⟨tag, as⟩ := c
  dsimp only at hX hc hm
  subst hX hc hm
  refine ⟨(RngCore.fill rng 64).1, (RngCore.fill (RngCore.fill rng 64).2 32).1, rfl, ?_⟩
  have ev : ∀ (p : ValidCredential.Publics G) (s : ValidCredential.Secrets),
      ValidCredential.create O [.init "AEONFLUX SHOW"] e1 p s =
        ValidCredential.createWith O [.init "AEONFLUX SHOW"] p s
          (ValidCredential.randOf (Spec.proofCoins O (.validCredential "AEONFLUX SHOW" p s e1))) := by
    intro p s
    rw [ValidCredential.create]
    congr 1
    simp only [ValidCredential.randOf, Spec.proofCoins, Spec.Read.scalar, Scalar.val_ofF]
    rfl
  have ec : ∀ (p : CommittedValuesEqual.Publics G) (s : CommittedValuesEqual.Secrets),
      CommittedValuesEqual.create O [.init "SIGNAL GROUP MEMBERSHIP"] e2 p s =
        CommittedValuesEqual.createWith O [.init "SIGNAL GROUP MEMBERSHIP"] p s
          (CommittedValuesEqual.randOf
            (Spec.proofCoins O (.committedValuesEqual "SIGNAL GROUP MEMBERSHIP" p s e2))) := by
    intro p s
    rw [CommittedValuesEqual.create]
    congr 1
    simp only [CommittedValuesEqual.randOf, Spec.proofCoins, Spec.Read.scalar, Scalar.val_ofF]
    rfl
  rw [signal_show_one]
  dsimp only
  generalize hd : Spec.showCoins O (RngCore.fill rng 64).1 (RngCore.fill (RngCore.fill rng 64).2 32).1 = d
  have h1 : (signalShowDraws O rng).1 = Scalar.ofF d.1 := by rw [← hd]; rfl
  have h2 : (signalShowDraws O rng).2.1 = Scalar.ofF d.2.1 := by rw [← hd]; rfl
  have h3 : (signalShowDraws O rng).2.2 = Scalar.ofF d.2.2 := by rw [← hd]; rfl
  rw [h1, h2, h3]
  simp only [signalPresentationData, presentationData, Spec.present, Issuer.showTranscript,
    SignalIssuer.membershipTranscript, Scalar.smul_def, Scalar.val_ofF, zero_add, ev, ec]

/-- A user with a credential. -/
example : ∃ (u : SignalUser F) (X : F) (c : Credential F) (m : Scalar),
    u.user.issuerParameters.Xn = [X] ∧ u.user.credential = some c ∧ c.attributes = [m] ∧ X ≠ 0 ∧ m.val ≠ 0 :=
  ⟨⟨⟨7, by decide⟩, ⟨⟨1, 2⟩, ⟨[10]⟩, none, some ⟨⟨2, 76⟩, [⟨7, by decide⟩]⟩⟩⟩, 10, _, _, rfl, rfl, rfl,
    by decide +kernel, by decide +kernel⟩

/-- The change of blinding values that turns one credential's presentation into another's. -/
def blindEquiv (q k k' : F) (hq : q ≠ 0) : F × F × F ≃ F × F × F where
  toFun d := (d.1 + k * d.2.1, d.2.1 * q, d.2.2 + k' * d.2.1)
  invFun d := (d.1 - k * (d.2.1 * q⁻¹), d.2.1 * q⁻¹, d.2.2 - k' * (d.2.1 * q⁻¹))
  left_inv d := by
    simp only [mul_inv_cancel_right₀ hq, add_sub_cancel_right]
  right_inv d := by
    simp only [inv_mul_cancel_right₀ hq, sub_add_cancel]

/-- For every hash function, issuer key, system parameters with `h ≠ 0`, two credentials whose MACs
are valid under that key with non-identity nonces, and a roster commitment that both parties can open:
the presentations are identically distributed. The phone numbers may differ. -/
theorem C43_unlinkable (O : Oracle) (sp : SystemParameters G) (hh : sp.h ≠ 0) (x0 x1 : Scalar)
    {c c' : Credential G} {m m' : Scalar}
    (hv : Spec.MacValid ⟨x0, [x1]⟩ c.mac [m]) (hv' : Spec.MacValid ⟨x0, [x1]⟩ c'.mac [m'])
    (hn : c.mac.nonce ≠ 0) (hn' : c'.mac.nonce ≠ 0) {ros ros' : RosterEntryCommitment G}
    (hr : ros.commitment = m.val • sp.h + ros.opening.val • sp.g)
    (hr' : ros'.commitment = m'.val • sp.h + ros'.opening.val • sp.g)
    (hrr : ros.commitment = ros'.commitment) :
    (PMF.uniformOfFintype ((F × F × F) × (F × F × F) × (F × F × F))).map
        (fun u => Spec.present O sp (x1.val • sp.h) c m ros u.1 u.2.1 u.2.2) =
      (PMF.uniformOfFintype ((F × F × F) × (F × F × F) × (F × F × F))).map
        (fun u => Spec.present O sp (x1.val • sp.h) c' m' ros' u.1 u.2.1 u.2.2) := by
  obtain ⟨⟨P, Q⟩, as⟩ := c
  obtain ⟨⟨P', Q'⟩, as'⟩ := c'
  simp only [Spec.MacValid, Spec.macFactor, List.map_cons, List.map_nil] at hv hv'
  dsimp only at hn hn'
  obtain ⟨a, ha⟩ := exists_smul_of_ne_zero hh P
  obtain ⟨a', ha'⟩ := exists_smul_of_ne_zero hh P'
  have ha0 : a ≠ 0 := by
    rintro rfl
    exact hn (by rw [ha, zero_smul])
  have ha0' : a' ≠ 0 := by
    rintro rfl
    exact hn' (by rw [ha', zero_smul])
  have hq : a / a' ≠ 0 := div_ne_zero ha0 ha0'
  subst ha ha' hv hv'
  let φ := blindEquiv (a / a') ((m.val - m'.val) * a) (x1.val * ((m.val - m'.val) * a)) hq
  -- the blinded values agree
  have eP : ∀ d : F × F × F, (φ d).2.1 • (a' • sp.h) = d.2.1 • (a • sp.h) := by
    intro d
    dsimp only [φ, blindEquiv, Equiv.coe_fn_mk]
    rw [smul_smul, smul_smul, mul_assoc, div_mul_cancel₀ _ ha0']
  have eC : ∀ d : F × F × F, m'.val • (φ d).2.1 • (a' • sp.h) + (φ d).1 • sp.h =
      m.val • d.2.1 • (a • sp.h) + d.1 • sp.h := by
    intro d
    rw [eP]
    dsimp only [φ, blindEquiv, Equiv.coe_fn_mk]
    module
  have eV : ∀ d : F × F × F, (φ d).1 • (x1.val • sp.h) - (φ d).2.2 • sp.h =
      d.1 • (x1.val • sp.h) - d.2.2 • sp.h := by
    intro d
    dsimp only [φ, blindEquiv, Equiv.coe_fn_mk]
    module
  have eQ : ∀ d : F × F × F,
      (φ d).2.1 • ((x1.val * m'.val + x0.val) • (a' • sp.h)) + (φ d).2.2 • sp.h =
      d.2.1 • ((x1.val * m.val + x0.val) • (a • sp.h)) + d.2.2 • sp.h := by
    intro d
    rw [smul_comm, eP]
    dsimp only [φ, blindEquiv, Equiv.coe_fn_mk]
    module
  -- both witnesses satisfy the common statements
  let p : F × F × F → ValidCredential.Publics G := fun d => ⟨sp.g, sp.h, x1.val • sp.h,
    d.2.1 • (a • sp.h), d.1 • (x1.val • sp.h) - d.2.2 • sp.h,
    m.val • d.2.1 • (a • sp.h) + d.1 • sp.h⟩
  let p' : F × F × F → CommittedValuesEqual.Publics G := fun d => ⟨sp.g, sp.h, d.2.1 • (a • sp.h),
    m.val • d.2.1 • (a • sp.h) + d.1 • sp.h, ros.commitment⟩
  have w1 : ∀ d : F × F × F, Spec.ValidCredential (p d) ⟨m, Scalar.ofF d.1, -Scalar.ofF d.2.2⟩ := by
    intro d
    simp only [Spec.ValidCredential, p, Scalar.val_neg, Scalar.val_ofF]
    exact ⟨trivial, by module⟩
  have w2 : ∀ d : F × F × F,
      Spec.ValidCredential (p d) ⟨m', Scalar.ofF (φ d).1, -Scalar.ofF (φ d).2.2⟩ := by
    intro d
    simp only [Spec.ValidCredential, p, Scalar.val_neg, Scalar.val_ofF]
    refine ⟨by rw [← eC d, eP], ?_⟩
    rw [← eV d]
    module
  have w1' : ∀ d : F × F × F,
      Spec.CommittedValuesEqual (p' d) ⟨m, Scalar.ofF d.1, ros.opening⟩ := by
    intro d
    simp only [Spec.CommittedValuesEqual, p', Scalar.val_ofF]
    exact ⟨trivial, hr⟩
  have w2' : ∀ d : F × F × F,
      Spec.CommittedValuesEqual (p' d) ⟨m', Scalar.ofF (φ d).1, ros'.opening⟩ := by
    intro d
    simp only [Spec.CommittedValuesEqual, p', Scalar.val_ofF]
    exact ⟨by rw [← eC d, eP], by rw [hrr, hr']⟩
  apply uniform_map_eq (Equiv.prodShear φ fun d => Equiv.prodCongr
    (ValidCredential.wiEquiv O [.init "AEONFLUX SHOW"] (w1 d) (w2 d))
    (CommittedValuesEqual.wiEquiv O [.init "SIGNAL GROUP MEMBERSHIP"] (w1' d) (w2' d)))
  rintro ⟨d, ρ, ρ'⟩
  have k1 := ValidCredential.wiEquiv_proof O [.init "AEONFLUX SHOW"] (w1 d) (w2 d) ρ
  have k2 := CommittedValuesEqual.wiEquiv_proof O [.init "SIGNAL GROUP MEMBERSHIP"] (w1' d) (w2' d) ρ'
  simp only [Equiv.prodShear_apply, Equiv.prodCongr_apply, Prod.map_apply, Spec.present]
  rw [eQ, eC, eP, eV, ← hrr]
  dsimp only [p, p'] at k1 k2
  rw [k1, k2]

/-- Two different users' credentials and one roster commitment meeting the hypotheses. -/
example : ∃ (sp : SystemParameters F) (c c' : Credential F) (m m' : Scalar)
    (ros ros' : RosterEntryCommitment F), m.val ≠ m'.val ∧ sp.h ≠ 0 ∧
    Spec.MacValid ⟨1, [1]⟩ c.mac [m] ∧ Spec.MacValid ⟨1, [1]⟩ c'.mac [m'] ∧
    c.mac.nonce ≠ 0 ∧ c'.mac.nonce ≠ 0 ∧
    ros.commitment = m.val • sp.h + ros.opening.val • sp.g ∧
    ros'.commitment = m'.val • sp.h + ros'.opening.val • sp.g ∧
    ros.commitment = ros'.commitment :=
  ⟨⟨1, 2⟩, ⟨⟨3, 6⟩, []⟩, ⟨⟨5, 15⟩, []⟩, ⟨1, by decide⟩, ⟨2, by decide⟩, ⟨10, ⟨8, by decide⟩⟩,
    ⟨10, ⟨6, by decide⟩⟩, by
      simp only [Spec.MacValid, Spec.macFactor, List.map]
      decide +kernel⟩

/-- Issued tags have the identity as nonce only if the drawn scalar is zero. -/
theorem C43_issued_nonce {R : Type} [RngCore R] (O : Oracle) {i : Issuer G}
    (hi : Spec.KeypairMatches i) (m : Scalar) (rng : R) (e : Bytes) {c : CredentialIssuance G}
    (hc : (i.issue O ⟨[m]⟩ rng e).1 = .ok c) :
    c.credential.mac.nonce = 0 ↔ (issueDraws O rng).1.val = 0 := by
  obtain ⟨x0, x1, hi'⟩ := matches_form hi
  have h1 := issue_one O (sp := i.systemParameters) (X1 := x1.val • i.systemParameters.h) (Xs := [])
    (x0 := x0) (x1 := x1) m rng e
  rw [← hi', hc] at h1
  rw [Res.ok.inj h1]
  simp only [issuanceData, Scalar.smul_def]
  constructor
  · intro h
    by_contra h0
    exact smul_ne_zero h0 Ristretto.base_ne h
  · intro h
    rw [h, zero_smul]

example : ∃ c : CredentialIssuance F,
    Spec.KeypairMatches (⟨⟨1, 2⟩, ⟨⟨[10]⟩, ⟨⟨3, by decide⟩, [⟨5, by decide⟩]⟩⟩⟩ : Issuer F) ∧
    (Issuer.issue toyOracle (⟨⟨1, 2⟩, ⟨⟨[10]⟩, ⟨⟨3, by decide⟩, [⟨5, by decide⟩]⟩⟩⟩ : Issuer F)
      ⟨[⟨7, by decide⟩]⟩ (⟨4⟩ : ToyRng) []).1 = .ok c :=
  ⟨_, ⟨⟨5, by decide⟩, rfl, by decide +kernel⟩, rfl⟩

/-- A hash that depends on the committed bytes. -/
def toyOracle3 : Oracle where
  chal t _ n := leBytes n (t.map fun o => match o with
    | .commit _ b => leVal b
    | _ => 1).sum
  chal_length _ _ _ := leBytes_length _ _
  rng t w e d n := toyOracle.rng t w e d n
  rng_length := toyOracle.rng_length

/-- "Under the same key" is needed, and users cannot check it (C36): two credentials issued with
different `x0` and the same published parameters are told apart by which key verifies the
presentation. Concrete witness. -/
theorem C43_tagged_linkable : ∃ (O : Oracle) (i i' : Issuer F) (m : Scalar) (tag tag' : Tag F)
    (d ρ : F × F × F) (ros : RosterEntryCommitment F) (X : F),
    i.systemParameters = i'.systemParameters ∧ i.getIssuerParameters = i'.getIssuerParameters ∧
    i.getIssuerParameters.Xn = [X] ∧ Spec.KeypairMatches i ∧ Spec.KeypairMatches i' ∧
    Spec.MacValid i.keypair.secretKey tag [m] ∧ Spec.MacValid i'.keypair.secretKey tag' [m] ∧
    i.verify O (Spec.present O i.systemParameters X ⟨tag, [m]⟩ m ros d ρ ρ).presentation =
      .ok ⟨(Spec.present O i.systemParameters X ⟨tag, [m]⟩ m ros d ρ ρ).presentation⟩ ∧
    i.verify O (Spec.present O i.systemParameters X ⟨tag', [m]⟩ m ros d ρ ρ).presentation =
      .err .macVerification ∧
    i'.verify O (Spec.present O i.systemParameters X ⟨tag', [m]⟩ m ros d ρ ρ).presentation =
      .ok ⟨(Spec.present O i.systemParameters X ⟨tag', [m]⟩ m ros d ρ ρ).presentation⟩ := by
  refine ⟨toyOracle3, ⟨⟨1, 2⟩, ⟨⟨[(1 : Scalar).val • 2]⟩, ⟨1, [1]⟩⟩⟩,
    ⟨⟨1, 2⟩, ⟨⟨[(1 : Scalar).val • 2]⟩, ⟨0, [1]⟩⟩⟩, 1, ⟨3, 6⟩, ⟨3, 3⟩, (5, 7, 11), (1, 2, 3), ⟨3, 1⟩,
    (1 : Scalar).val • 2, rfl, rfl, rfl, ⟨1, rfl, rfl⟩, ⟨1, rfl, rfl⟩, ?_, ?_, ?_, ?_, ?_⟩
  · simp only [Spec.MacValid, Spec.macFactor, List.map]; decide +kernel
  · simp only [Spec.MacValid, Spec.macFactor, List.map]; decide +kernel
  · decide +kernel
  · decide +kernel
  · decide +kernel

/-! ## C44 roster entries -/

section Roster
variable [DecidableEq G]

omit [Ristretto G] in
/-- The complete outcome table of opening a created entry. -/
theorem C44_open_outcomes {R : Type} [RngCore R] {b : Bytes} {sp : SystemParameters G} {r : R}
    {ros : RosterEntryCommitment G} (hc : (RosterEntryCommitment.create b sp r).1 = .ok ros)
    (b' : Bytes) :
    (ros.open b sp = .ok ()) ∧
    (b'.length ≤ 27 → sp.h ≠ 0 → b' ≠ b → ros.open b' sp = .err .invalidPhoneNumber) ∧
    (28 ≤ b'.length → b'.length ≤ 32 → ros.open b' sp = .panic) ∧
    (33 ≤ b'.length → ros.open b' sp = .err .lengthExceeded) := by
  have hb : ∃ m, PhoneNumber.tryFromBytes b = .ok m := by
    simp only [RosterEntryCommitment.create, Res.bind_eq_ok] at hc
    obtain ⟨m, hm, _⟩ := hc
    exact ⟨m, hm⟩
  obtain ⟨m, hm⟩ := hb
  have hros := (roster_create b sp r hm).symm.trans hc
  have hros := Res.ok.inj hros
  subst hros
  refine ⟨?_, ?_, ?_, ?_⟩
  · rw [RosterEntryCommitment.open, hm, Res.ok_bind, if_pos]
    rw [CommittedPhoneNumber.open, C26_open_iff]
    rfl
  · intro h1 h2 h3
    have hm' : PhoneNumber.tryFromBytes b' = .ok _ := PhoneNumber.encodeWith_ok id _ h1
    rw [RosterEntryCommitment.open, hm', Res.ok_bind, if_neg]
    rw [CommittedPhoneNumber.open, C26_open_iff]
    intro h4
    have h5 := add_right_cancel h4
    rw [Scalar.smul_def, Scalar.smul_def, smul_right_inj' h2] at h5
    exact h3 (C17_injective hm' hm h5.symm)
  · intro h1 h2
    rw [RosterEntryCommitment.open, (C16_bytes_panic_iff b').2 ⟨h1, h2⟩]
    rfl
  · intro h1
    rw [RosterEntryCommitment.open, (C16_bytes_err_iff b' _).2 ⟨h1, rfl⟩]
    rfl

omit [Ristretto G] in
/-- Full claim: for all system parameters, a created entry opens for exactly its own number. Missing:
`h` the identity, for which it is false (`C44_identity_h`). -/
theorem C44_opens_iff_partial {R : Type} [RngCore R] {b : Bytes} {sp : SystemParameters G}
    (hh : sp.h ≠ 0) {r : R} {ros : RosterEntryCommitment G}
    (hc : (RosterEntryCommitment.create b sp r).1 = .ok ros) (b' : Bytes) :
    ros.open b' sp = .ok () ↔ b' = b := by
  obtain ⟨h1, h2, h3, h4⟩ := C44_open_outcomes hc b'
  constructor
  · intro h
    by_contra hne
    by_cases h27 : b'.length ≤ 27
    · rw [h2 h27 hh hne] at h; cases h
    · by_cases h32 : b'.length ≤ 32
      · rw [h3 (by omega) h32] at h; cases h
      · rw [h4 (by omega)] at h; cases h
  · rintro rfl
    exact h1

omit [Ristretto G] in
/-- With the identity as `h` — which `SystemParameters::from_bytes` accepts and `hunt_and_peck` can
return — every entry opens for every number. -/
theorem C44_identity_h {R : Type} [RngCore R] {b b' : Bytes} {g : G} {r : R}
    {ros : RosterEntryCommitment G} (hc : (RosterEntryCommitment.create b ⟨g, 0⟩ r).1 = .ok ros)
    (hb' : b'.length ≤ 27) : ros.open b' ⟨g, 0⟩ = .ok () := by
  have hb : ∃ m, PhoneNumber.tryFromBytes b = .ok m := by
    simp only [RosterEntryCommitment.create, Res.bind_eq_ok] at hc
    obtain ⟨m, hm, _⟩ := hc
    exact ⟨m, hm⟩
  obtain ⟨m, hm⟩ := hb
  have hros := Res.ok.inj ((roster_create b _ r hm).symm.trans hc)
  subst hros
  have hm' : PhoneNumber.tryFromBytes b' = .ok _ := PhoneNumber.encodeWith_ok id _ hb'
  rw [RosterEntryCommitment.open, hm', Res.ok_bind, if_pos]
  rw [CommittedPhoneNumber.open, C26_open_iff]
  simp only [Scalar.smul_def, smul_zero]

end Roster

omit [Ristretto G] in
/-- The entry is a commitment as a function of the drawn opening. -/
theorem C44_commitment {R : Type} [RngCore R] {b : Bytes} {sp : SystemParameters G} {r : R}
    {ros : RosterEntryCommitment G} (hc : (RosterEntryCommitment.create b sp r).1 = .ok ros) :
    ∃ m, PhoneNumber.tryFromBytes b = .ok m ∧ ros.opening = (Scalar.random r).1 ∧
      ros.commitment = m.val • sp.h + ros.opening.val • sp.g := by
  have hb : ∃ m, PhoneNumber.tryFromBytes b = .ok m := by
    simp only [RosterEntryCommitment.create, Res.bind_eq_ok] at hc
    obtain ⟨m, hm, _⟩ := hc
    exact ⟨m, hm⟩
  obtain ⟨m, hm⟩ := hb
  have hros := Res.ok.inj ((roster_create b _ r hm).symm.trans hc)
  subst hros
  exact ⟨m, hm, rfl, rfl⟩

/-- Hiding: with a uniform opening and `g ≠ 0`, the commitment's distribution does not depend on the
number. -/
theorem C44_hiding {sp : SystemParameters G} (hg : sp.g ≠ 0) (m m' : F) :
    (PMF.uniformOfFintype F).map (fun o => m • sp.h + o • sp.g) =
      (PMF.uniformOfFintype F).map (fun o => m' • sp.h + o • sp.g) := by
  have := C27_hiding hg (m • sp.h) (m' • sp.h)
  simpa only [Pedersen.commit, Scalar.smul_def, Scalar.val_ofF] using this

example : (PMF.uniformOfFintype F).map (fun o => (5 : F) • (2 : F) + o • (1 : F)) =
    (PMF.uniformOfFintype F).map (fun o => (6 : F) • (2 : F) + o • (1 : F)) :=
  C44_hiding (sp := ⟨1, 2⟩) (by decide +kernel) 5 6

omit [Ristretto G] in
/-- The whole entry (with its opening, as serialised) does determine the number for anyone who can
enumerate numbers: two entries with equal bytes are for the same number. -/
theorem C44_entry_determines {R R' : Type} [RngCore R] [RngCore R'] {b b' : Bytes}
    {sp : SystemParameters G} (hh : sp.h ≠ 0) {r : R} {r' : R'} {ros : RosterEntryCommitment G}
    (hc : (RosterEntryCommitment.create b sp r).1 = .ok ros)
    (hc' : (RosterEntryCommitment.create b' sp r').1 = .ok ros) : b = b' := by
  classical
  exact ((C44_opens_iff_partial hh hc' b).1 (C44_open_outcomes hc b).1)

example : ∃ ros, (RosterEntryCommitment.create [1, 2, 3] (⟨1, 2⟩ : SystemParameters F)
    (⟨0⟩ : ToyRng)).1 = .ok ros :=
  ⟨_, roster_create _ _ _ (PhoneNumber.encodeWith_ok id _ (by decide))⟩

end Verif
