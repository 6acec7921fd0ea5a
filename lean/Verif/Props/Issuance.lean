import Verif.Lemmas.Protocol
import Verif.Props.Mac
import Verif.Props.Nizk
import Verif.Props.Phone

/-!
# Issuance (C33–C36, C46)
-/

set_option maxRecDepth 100000

namespace Verif

open Amacs

variable {G : Type} [AddCommGroup G] [Module F G] [Ristretto G]

/-! ## C33 honest issuance is accepted -/

/-- The issuer has one attribute key and its public half is `x1·h`. -/
def Spec.KeypairMatches (i : Issuer G) : Prop :=
  ∃ x1 : Scalar, i.keypair.secretKey.xn = [x1] ∧
    i.keypair.publicKey.Xn = [x1.val • i.systemParameters.h]

omit [Ristretto G] in
/-- Issuers made by `create` (and by `new` with a keypair made by `Keypair::new` for the same
parameters) match, for every RNG. -/
theorem C33_created_matches {R : Type} [RngCore R] (sp : SystemParameters G) (r : R) :
    Spec.KeypairMatches (Issuer.create sp r).1 ∧
      Spec.KeypairMatches (Issuer.new sp (Keypair.new sp.h r).1) :=
  ⟨⟨_, rfl, rfl⟩, ⟨_, rfl, rfl⟩⟩

omit [Ristretto G] in
theorem matches_form {i : Issuer G} (h : Spec.KeypairMatches i) :
    ∃ x0 x1 : Scalar, i = ⟨i.systemParameters,
      ⟨⟨[x1.val • i.systemParameters.h]⟩, ⟨x0, [x1]⟩⟩⟩ := by
  obtain ⟨x1, h1, h2⟩ := h
  obtain ⟨sp, ⟨⟨Xn⟩, ⟨x0, xn⟩⟩⟩ := i
  dsimp only at h1 h2
  subst h1 h2
  exact ⟨x0, x1, rfl⟩

theorem issuanceData_relation (sp : SystemParameters G) (x0 x1 m b x0t : Scalar) :
    Spec.IssuanceRevealed (⟨b • basepoint G, (x0 + x1 * m) • (b • basepoint G),
      x0 • sp.g + x0t • sp.h, sp.g, sp.h, x1.val • sp.h⟩ : IssuanceRevealed.Publics G)
      ⟨x0, x1, x0t, m * x1⟩ := by
  simp only [Spec.IssuanceRevealed, Scalar.smul_def, Scalar.val_add, Scalar.val_mul]
  refine ⟨?_, trivial, trivial⟩
  module

/-- For every matching issuer, attribute, RNG, entropy and hash: issuing succeeds, the issued tag is a
valid MAC on the attribute, and a user with the same parameters accepts and stores it. -/
theorem C33_honest_accepted {R : Type} [RngCore R] (O : Oracle) {i : Issuer G}
    (hi : Spec.KeypairMatches i) (m : Scalar) (rng : R) (entropy : Bytes) (u : User G)
    (hsp : u.systemParameters = i.systemParameters)
    (hip : u.issuerParameters = i.getIssuerParameters) :
    ∃ c, (i.issue O ⟨[m]⟩ rng entropy).1 = .ok c ∧ c.credential.attributes = [m] ∧
      Spec.MacValid i.keypair.secretKey c.credential.mac [m] ∧
      u.obtainFinish O (some c) = (.ok (), { u with credential := some c.credential }) := by
  obtain ⟨x0, x1, hi'⟩ := matches_form hi
  have h1 := issue_one O (sp := i.systemParameters) (X1 := x1.val • i.systemParameters.h) (Xs := [])
    (x0 := x0) (x1 := x1) m rng entropy
  rw [← hi'] at h1
  refine ⟨_, h1, rfl, (C25_issue_valid h1).2, ?_⟩
  have hX : u.issuerParameters.Xn = [x1.val • i.systemParameters.h] := by
    rw [hip, Issuer.getIssuerParameters, hi']
  simp only [User.obtainFinish, hX, List.getElem?_cons_zero, hsp]
  rw [if_pos]
  exact IssuanceRevealed.C29_complete O _ entropy (issuanceData_relation _ _ _ _ _ _)

example : Spec.KeypairMatches (Issuer.create (⟨1, 2⟩ : SystemParameters F) (⟨0⟩ : ToyRng)).1 :=
  (C33_created_matches _ _).1

/-! ## C34 all or nothing -/

/-- Either everything except the credential is unchanged and the credential is the issuance's, or
nothing changes and an error of a fixed list is returned; never a panic. -/
theorem C34_all_or_nothing (O : Oracle) (u : User G) (iss : Option (CredentialIssuance G)) :
    (∃ c, iss = some c ∧
      u.obtainFinish O iss = (.ok (), { u with credential := some c.credential })) ∨
    u.obtainFinish O iss = (.err .credentialIssuance, u) ∨
    u.obtainFinish O iss = (.err .noIssuerParameters, u) := by
  cases iss with
  | none => exact .inr (.inl rfl)
  | some c =>
    simp only [User.obtainFinish]
    split
    · exact .inr (.inr rfl)
    · split
      · exact .inl ⟨c, rfl, rfl⟩
      · exact .inr (.inl rfl)

/-- Exactly when each outcome happens. -/
theorem C34_outcomes (O : Oracle) (u : User G) (iss : Option (CredentialIssuance G)) :
    ((u.obtainFinish O iss).1 = .ok () ↔ ∃ c X, iss = some c ∧ u.issuerParameters.Xn[0]? = some X ∧
      IssuanceRevealed.verify O [.init "AEONFLUX ISSUANCE"] c.proof
        ⟨c.credential.mac.nonce, c.credential.mac.mac, c.secretKeyCommitment, u.systemParameters.g,
          u.systemParameters.h, X⟩ = true) ∧
    ((u.obtainFinish O iss).1 = .err .noIssuerParameters ↔
      iss ≠ none ∧ u.issuerParameters.Xn = []) := by
  cases iss with
  | none => exact ⟨⟨nofun, fun ⟨_, _, h, _⟩ => nomatch h⟩, ⟨nofun, fun h => absurd rfl h.1⟩⟩
  | some c =>
    simp only [User.obtainFinish]
    split
    · rename_i h
      refine ⟨⟨nofun, fun ⟨c', X, _, h2, _⟩ => by simp [h] at h2⟩, ⟨fun _ => ⟨nofun, ?_⟩, fun _ => rfl⟩⟩
      simpa using h
    · rename_i X h
      split
      · rename_i h2
        refine ⟨⟨fun _ => ⟨c, X, rfl, h, h2⟩, fun _ => rfl⟩, ⟨nofun, fun h3 => ?_⟩⟩
        simp [h3.2] at h
      · rename_i h2
        refine ⟨⟨nofun, ?_⟩, ⟨nofun, fun h3 => by simp [h3.2] at h⟩⟩
        rintro ⟨c', X', h3, h4, h5⟩
        rw [h] at h4
        cases h3
        cases h4
        exact absurd h5 h2

/-- `SignalUser::obtain_finish` does the same and keeps the phone number. -/
theorem C34_signal (O : Oracle) (u : SignalUser G) (iss : Option (CredentialIssuance G)) :
    (u.obtainFinish O iss).1 = (u.user.obtainFinish O iss).1 ∧
      (u.obtainFinish O iss).2 = ⟨u.phoneNumber, (u.user.obtainFinish O iss).2⟩ := ⟨rfl, rfl⟩

/-! ## C35 what an accepted issuance guarantees -/

/-- The attributes in the issuance are not checked: any others give the same result. -/
theorem C35_attributes_unchecked (O : Oracle) (u : User G) (c : CredentialIssuance G)
    (as : List Scalar) :
    (u.obtainFinish O (some { c with credential := { c.credential with attributes := as } })).1 =
      (u.obtainFinish O (some c)).1 := by
  simp only [User.obtainFinish]
  split
  · rfl
  · split <;> rfl

/-- The claim of C35 is false: from any honest issuance, changing the attribute gives an accepted
issuance whose credential is not a valid MAC on its attribute. -/
theorem C35_invalid_accepted {R : Type} [RngCore R] (O : Oracle) {i : Issuer G}
    (hi : Spec.KeypairMatches i) {m m' : Scalar} (hm : m.val ≠ m'.val) (rng : R) (entropy : Bytes)
    (u : User G) (hsp : u.systemParameters = i.systemParameters)
    (hip : u.issuerParameters = i.getIssuerParameters)
    (hx : ∀ x ∈ i.keypair.secretKey.xn, x.val ≠ 0)
    (hb : (issueDraws O rng).1.val ≠ 0) :
    ∃ c, (u.obtainFinish O (some c)).1 = .ok () ∧ c.credential.attributes = [m'] ∧
      ¬ Spec.MacValid i.keypair.secretKey c.credential.mac [m'] := by
  obtain ⟨c, h1, h2, h3, h4⟩ := C33_honest_accepted O hi m rng entropy u hsp hip
  refine ⟨{ c with credential := { c.credential with attributes := [m'] } }, ?_, rfl, ?_⟩
  · rw [C35_attributes_unchecked, h4]
  · intro h5
    have hP : c.credential.mac.nonce ≠ 0 := by
      obtain ⟨x0, x1, hi'⟩ := matches_form hi
      have h6 := issue_one O (sp := i.systemParameters) (X1 := x1.val • i.systemParameters.h)
        (Xs := []) (x0 := x0) (x1 := x1) m rng entropy
      rw [← hi', h1] at h6
      rw [Res.ok.inj h6]
      simp only [issuanceData, Scalar.smul_def]
      exact smul_ne_zero hb Ristretto.base_ne
    obtain ⟨x1, h7, _⟩ := hi
    rw [Spec.MacValid] at h3 h5
    rw [h3, smul_right_inj' hP, h7] at h5
    simp only [Spec.macFactor, List.map_cons, List.map_nil] at h5
    exact hm (mul_left_cancel₀ (hx x1 (by rw [h7]; simp)) (add_right_cancel h5))

/-- The hypotheses are met by a concrete issuer, so the claim is refuted. -/
theorem C35_false : ∃ (O : Oracle) (i : Issuer F) (u : User F) (c : CredentialIssuance F),
    u.issuerParameters = i.getIssuerParameters ∧ u.systemParameters = i.systemParameters ∧
    (u.obtainFinish O (some c)).1 = .ok () ∧
    ¬ Spec.MacValid i.keypair.secretKey c.credential.mac c.credential.attributes := by
  let i : Issuer F := (Issuer.create (⟨1, 2⟩ : SystemParameters F) (⟨0⟩ : ToyRng)).1
  obtain ⟨c, h1, h2, h3⟩ := C35_invalid_accepted toyOracle (i := i) (C33_created_matches _ _).1
    (m := ⟨5, by decide⟩) (m' := ⟨6, by decide⟩) (by decide +kernel) (⟨0⟩ : ToyRng) []
    (User.new i.systemParameters i.getIssuerParameters none) rfl rfl (by decide +kernel)
    (by decide +kernel)
  exact ⟨toyOracle, i, _, c, rfl, rfl, h1, by rw [h2]; exact h3⟩

/-- What remains of C35, by extraction from two accepted issuances of the same tag that asked the
same hash query: from the two proofs one computes a key `x0, x1` with `X1 = x1·h` and `Cx0 = x0·g + …`,
and a number `m1x1` such that `Q = (x0 + m1x1)·P`. Missing: `m1x1 = x1·m`, which is false in general
(`C35_invalid_accepted`). -/
theorem C35_extract_partial {O₁ O₂ : Oracle} {u : User G} {X : G} {Xs : List G}
    {c₁ c₂ : CredentialIssuance G} (hX : u.issuerParameters.Xn = X :: Xs)
    (htag : c₂.credential.mac = c₁.credential.mac)
    (hcom : c₂.secretKeyCommitment = c₁.secretKeyCommitment)
    (h₁ : (u.obtainFinish O₁ (some c₁)).1 = .ok ()) (h₂ : (u.obtainFinish O₂ (some c₂)).1 = .ok ())
    (p : IssuanceRevealed.Publics G)
    (hp : p = ⟨c₁.credential.mac.nonce, c₁.credential.mac.mac, c₁.secretKeyCommitment,
      u.systemParameters.g, u.systemParameters.h, X⟩) (q : Transcript)
    (hq₁ : IssuanceRevealed.verifyTranscript [.init "AEONFLUX ISSUANCE"] p
      (IssuanceRevealed.recommit p c₁.proof) = q)
    (hq₂ : IssuanceRevealed.verifyTranscript [.init "AEONFLUX ISSUANCE"] p
      (IssuanceRevealed.recommit p c₂.proof) = q)
    (hc : (leVal (O₁.chal q "chal" 64) : F) ≠ leVal (O₂.chal q "chal" 64)) :
    let s := IssuanceRevealed.extract c₁.proof c₂.proof
    X = s.x1.val • u.systemParameters.h ∧
      c₁.secretKeyCommitment = s.x0.val • u.systemParameters.g + s.x0_tilde.val • u.systemParameters.h ∧
      c₁.credential.mac.mac = (s.x0.val + s.m1x1.val) • c₁.credential.mac.nonce := by
  have g₁ := (C34_outcomes O₁ u (some c₁)).1.1 h₁
  have g₂ := (C34_outcomes O₂ u (some c₂)).1.1 h₂
  obtain ⟨_, X', e₁, hX', v₁⟩ := g₁
  obtain ⟨_, X'', e₂, hX'', v₂⟩ := g₂
  cases e₁
  cases e₂
  rw [hX] at hX' hX''
  cases hX'
  cases hX''
  rw [htag, hcom, ← hp] at v₂
  rw [← hp] at v₁
  subst hq₁
  have := IssuanceRevealed.C30_special_sound v₁ v₂ hq₂.symm hc
  obtain ⟨s1, s2, s3⟩ := this
  subst hp
  exact ⟨s3, s2, by rw [add_smul]; exact s1⟩

/-! ## C36 one key per issuer -/

/-- The claim of C36 is false: two issuers that differ only in the unpublished `x0` have the same
published parameters, the same user accepts issuances from both, and each tag is valid under its own
key but not the other. -/
theorem C36_tagging {R : Type} [RngCore R] (O : Oracle) (sp : SystemParameters G) {x0 x0' : Scalar}
    (x1 m : Scalar) (hx : x0.val ≠ x0'.val) (rng : R) (entropy : Bytes)
    (hb : (issueDraws O rng).1.val ≠ 0) (u : User G)
    (hu : u.systemParameters = sp) (hu' : u.issuerParameters = ⟨[x1.val • sp.h]⟩) :
    ∃ c c', (Issuer.issue O ⟨sp, ⟨⟨[x1.val • sp.h]⟩, ⟨x0, [x1]⟩⟩⟩ ⟨[m]⟩ rng entropy).1 = .ok c ∧
      (Issuer.issue O ⟨sp, ⟨⟨[x1.val • sp.h]⟩, ⟨x0', [x1]⟩⟩⟩ ⟨[m]⟩ rng entropy).1 = .ok c' ∧
      (u.obtainFinish O (some c)).1 = .ok () ∧ (u.obtainFinish O (some c')).1 = .ok () ∧
      Spec.MacValid ⟨x0, [x1]⟩ c.credential.mac [m] ∧
      Spec.MacValid ⟨x0', [x1]⟩ c'.credential.mac [m] ∧
      ¬ Spec.MacValid ⟨x0, [x1]⟩ c'.credential.mac [m] := by
  obtain ⟨c, h1, _, h3, h4⟩ := C33_honest_accepted O
    (i := ⟨sp, ⟨⟨[x1.val • sp.h]⟩, ⟨x0, [x1]⟩⟩⟩) ⟨x1, rfl, rfl⟩ m rng entropy u hu hu'
  obtain ⟨c', h1', _, h3', h4'⟩ := C33_honest_accepted O
    (i := ⟨sp, ⟨⟨[x1.val • sp.h]⟩, ⟨x0', [x1]⟩⟩⟩) ⟨x1, rfl, rfl⟩ m rng entropy u hu hu'
  refine ⟨c, c', h1, h1', by rw [h4], by rw [h4'], h3, h3', ?_⟩
  intro h5
  have hP : c'.credential.mac.nonce ≠ 0 := by
    have h6 := issue_one O (sp := sp) (X1 := x1.val • sp.h) (Xs := []) (x0 := x0') (x1 := x1) m rng
      entropy
    rw [h1'] at h6
    rw [Res.ok.inj h6]
    simp only [issuanceData, Scalar.smul_def]
    exact smul_ne_zero hb Ristretto.base_ne
  rw [Spec.MacValid] at h3' h5
  rw [h3', smul_right_inj' hP] at h5
  simp only [Spec.macFactor, List.map_cons, List.map_nil] at h5
  exact hx (add_left_cancel h5).symm

example : (⟨3, by decide⟩ : Scalar).val ≠ (⟨4, by decide⟩ : Scalar).val ∧
    (issueDraws toyOracle (⟨0⟩ : ToyRng)).1.val ≠ 0 := ⟨by decide +kernel, by decide +kernel⟩

omit [Ristretto G] in
/-- What remains of C36: the attribute key `x1` is determined by the published parameters (for a
non-identity `h`). Missing: `x0` (`C36_tagging`). -/
theorem C36_x1_determined_partial {h X : G} (hh : h ≠ 0) {x1 x1' : F} (h1 : X = x1 • h)
    (h2 : X = x1' • h) : x1 = x1' :=
  (smul_right_inj' hh).1 (h1.symm.trans h2)

example : ∃ (h X : F) (x1 : F), h ≠ 0 ∧ X = x1 • h := ⟨2, 10, 5, by decide +kernel, by decide +kernel⟩

/-! ## C46 issue: outcomes -/

/-- The complete outcome table of `Issuer::issue`. -/
theorem C46_outcomes {R : Type} [RngCore R] (O : Oracle) (i : Issuer G) (rq : CredentialRequest)
    (rng : R) (entropy : Bytes) :
    (i.keypair.publicKey.Xn = [] →
      (i.issue O rq rng entropy).1 = .err .noIssuerParameters) ∧
    (i.keypair.publicKey.Xn ≠ [] → i.keypair.secretKey.xn = [] →
      (i.issue O rq rng entropy).1 = .err .noIssuerKey) ∧
    (i.keypair.publicKey.Xn ≠ [] → i.keypair.secretKey.xn ≠ [] →
      i.keypair.secretKey.xn.length ≠ rq.attributesRevealed.length →
      (i.issue O rq rng entropy).1 = .err .macCreation) ∧
    (i.keypair.publicKey.Xn ≠ [] → i.keypair.secretKey.xn ≠ [] →
      i.keypair.secretKey.xn.length = rq.attributesRevealed.length →
      ∃ c, (i.issue O rq rng entropy).1 = .ok c) := by
  obtain ⟨sp, ⟨⟨Xn⟩, ⟨x0, xn⟩⟩⟩ := i
  obtain ⟨as⟩ := rq
  refine ⟨?_, ?_, ?_, ?_⟩
  · rintro rfl
    rfl
  · intro h1 h2
    dsimp only at h1 h2
    subst h2
    cases Xn with
    | nil => exact absurd rfl h1
    | cons X Xs => rfl
  · intro h1 h2 h3
    dsimp only at h1 h2 h3
    cases Xn with
    | nil => exact absurd rfl h1
    | cons X Xs =>
      cases xn with
      | nil => exact absurd rfl h2
      | cons x xs =>
        simp only [Issuer.issue, List.getElem?_cons_zero, SecretKey.mac, if_pos h3, Res.mapErr_err,
          Res.err_bind]
  · intro h1 h2 h3
    dsimp only at h1 h2 h3
    cases Xn with
    | nil => exact absurd rfl h1
    | cons X Xs =>
      cases xn with
      | nil => exact absurd rfl h2
      | cons x xs =>
        cases as with
        | nil => simp at h3
        | cons a as =>
          simp only [Issuer.issue, List.getElem?_cons_zero, SecretKey.mac,
            if_neg (not_not.2 h3), Res.mapErr_ok, Res.ok_bind]
          exact ⟨_, rfl⟩

theorem C46_no_panic {R : Type} [RngCore R] (O : Oracle) (i : Issuer G) (rq : CredentialRequest)
    (rng : R) (entropy : Bytes) : (i.issue O rq rng entropy).1 ≠ .panic := by
  obtain ⟨h1, h2, h3, h4⟩ := C46_outcomes O i rq rng entropy
  by_cases a : i.keypair.publicKey.Xn = []
  · rw [h1 a]; nofun
  · by_cases b : i.keypair.secretKey.xn = []
    · rw [h2 a b]; nofun
    · by_cases c : i.keypair.secretKey.xn.length = rq.attributesRevealed.length
      · obtain ⟨x, hx⟩ := h4 a b c
        rw [hx]; nofun
      · rw [h3 a b c]; nofun

/-- `SignalIssuer::issue`: over-long numbers are `MissingData`, numbers of up to 27 bytes behave as
`Issuer::issue` with that one attribute. -/
theorem C46_signal {R : Type} [RngCore R] (O : Oracle) (i : SignalIssuer G) (b : Bytes) (rng : R)
    (entropy : Bytes) :
    (33 ≤ b.length → (i.issue O b rng entropy).1 = .err .missingData) ∧
    (b.length ≤ 27 → ∃ number, PhoneNumber.tryFromBytes b = .ok number ∧
      i.issue O b rng entropy = i.issuer.issue O ⟨[number]⟩ rng entropy) ∧
    ((i.issue O b rng entropy).1 = .panic ↔ 28 ≤ b.length ∧ b.length ≤ 32) := by
  refine ⟨fun h => ?_, fun h => ?_, ?_⟩
  · rw [SignalIssuer.issue, (C16_bytes_err_iff b _).2 ⟨h, rfl⟩]
    rfl
  · refine ⟨_, PhoneNumber.encodeWith_ok _ _ h, ?_⟩
    rw [SignalIssuer.issue, PhoneNumber.tryFromBytes, PhoneNumber.encodeWith_ok _ _ h]
    rfl
  · by_cases h27 : b.length ≤ 27
    · have e : i.issue O b rng entropy = i.issuer.issue O
          ⟨[Scalar.fromBytesModOrder (PhoneNumber.layout (b.map id))]⟩ rng entropy := by
        rw [SignalIssuer.issue, PhoneNumber.tryFromBytes, PhoneNumber.encodeWith_ok _ _ h27]
        rfl
      rw [e]
      exact ⟨fun h => absurd h (C46_no_panic _ _ _ _ _), fun h => by omega⟩
    · by_cases h32 : b.length ≤ 32
      · rw [SignalIssuer.issue, (C16_bytes_panic_iff b).2 ⟨by omega, h32⟩]
        exact ⟨fun _ => ⟨by omega, h32⟩, fun _ => rfl⟩
      · rw [SignalIssuer.issue, (C16_bytes_err_iff b _).2 ⟨by omega, rfl⟩]
        exact ⟨nofun, fun h => by omega⟩

example : (List.replicate 27 (1 : UInt8)).length ≤ 27 := by decide

end Verif
