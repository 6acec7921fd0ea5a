import Verif.Model.Tests
import Verif.Props.Show
import Verif.Props.Draws
import Verif.Props.Params
import Verif.Props.Unforge
import Verif.Props.Commit
import Verif.Props.Phone
import Verif.Vectors.Data

/-!
# C98: the repository's tests pass, whatever they draw

For each test, exactly for which random numbers it passes.
-/

set_option maxRecDepth 100000

namespace Verif

open Amacs Tests Pedersen

variable {G : Type} [AddCommGroup G] [Module F G] [Ristretto G] [DecidableEq G]
variable {R : Type} [RngCore R]

/-- The number that 64 bytes from the generator stand for. -/
def Spec.draw64 (r : R) : F := (leVal (RngCore.fill r 64).1 : F)

namespace Tests

theorem drawn_eq (r : R) : (Scalar.random r).1.val = Spec.draw64 r := Scalar.val_ofF _

@[simp] theorem unwrap_ok {ε α : Type} (a : α) : unwrap (.ok a : Res ε α) = .ok a := rfl

@[simp] theorem assertOk_ok {ε α : Type} (a : α) : assertOk (.ok a : Res ε α) = .ok () := rfl

theorem assertErr_iff (k : SecretKey) (t : Tag G) (m : List Scalar) :
    assertErr (k.verify t m) = .ok () ↔ k.verify t m ≠ .ok () := by
  have h := C22_verify_total k t m
  cases hv : k.verify t m <;> simp_all [assertErr]

theorem assert_iff {p : Prop} [Decidable p] : (Res.assert p : Res Empty Unit) = .ok () ↔ p := by
  simp only [Res.assert]
  split <;> simp [*]

theorem assertOk_iff {ε : Type} {x : Res ε Unit} : assertOk x = .ok () ↔ x = .ok () := by
  cases x <;> simp [assertOk]

theorem seq_iff {α : Type} {x : Res Empty Unit} {y : Res Empty α} {a : α} :
    (x >>= fun _ => y) = .ok a ↔ x = .ok () ∧ y = .ok a := by
  cases x <;> simp

omit [DecidableEq G] in
theorem array_ok {debug : Bool} {H : Bytes} {P : G} (hH : H = enc P) (hd : debug = true → P ≠ basepoint G) :
    SystemParameters.ofArray debug H = .ok (⟨basepoint G, P⟩ : SystemParameters G) := by
  subst hH
  rw [SystemParameters.ofArray, Res.assert, if_pos fun h e => hd h (enc_inj e), Res.ok_bind, dec_enc]
  rfl

omit [Ristretto G] [DecidableEq G] in
theorem created (sp : SystemParameters G) (r : R) : ∃ x0 x1 : Scalar,
    (Issuer.create sp r).1 = ⟨sp, ⟨⟨[x1.val • sp.h]⟩, ⟨x0, [x1]⟩⟩⟩ := ⟨_, _, rfl⟩

omit [DecidableEq G] in
/-- A credential of the issuer, from `issue` to `obtain_finish`. -/
theorem obtained (O : Oracle) (sp : SystemParameters G) (x0 x1 m : Scalar) (rng : R) (e : Bytes) :
    ∃ (c : CredentialIssuance G) (tag : Tag G),
      (Issuer.issue O ⟨sp, ⟨⟨[x1.val • sp.h]⟩, ⟨x0, [x1]⟩⟩⟩ ⟨[m]⟩ rng e).1 = .ok c ∧
      tag.mac = (x0.val + x1.val * m.val) • tag.nonce ∧
      User.obtainFinish O (User.new sp ⟨[x1.val • sp.h]⟩ none) (some c) =
        (.ok (), ⟨sp, ⟨[x1.val • sp.h]⟩, none, some ⟨tag, [m]⟩⟩) := by
  obtain ⟨c, h1, h2, h3, h4⟩ := C33_honest_accepted O (i := ⟨sp, ⟨⟨[x1.val • sp.h]⟩, ⟨x0, [x1]⟩⟩⟩) ⟨x1, rfl, rfl⟩ m rng e
    (User.new sp ⟨[x1.val • sp.h]⟩ none) rfl rfl
  obtain ⟨pf, ⟨tag, as⟩, sk⟩ := c
  dsimp only at h2 h3 h4
  subst h2
  refine ⟨_, tag, h1, ?_, h4⟩
  rw [Spec.MacValid] at h3
  rw [h3]
  simp only [Spec.macFactor, List.map_cons, List.map_nil]
  rw [add_comm]

theorem presentation_ok (O : Oracle) {debug : Bool} {H : Bytes} {P : G} (hH : H = enc P)
    (hd : debug = true → P ≠ basepoint G) (r : ℕ → R) (e : ℕ → Bytes) :
    ∃ (i : Issuer G) (p : CredentialPresentation G) (Cm : G), presentation G O debug H r e = .ok (i, p) ∧
      i.verify O p = .ok ⟨p⟩ ∧ Spec.PresentationOK p Cm := by
  obtain ⟨sp, hsp⟩ : ∃ sp : SystemParameters G, sp = ⟨basepoint G, P⟩ := ⟨_, rfl⟩
  obtain ⟨x0, x1, hi⟩ := created sp (r 0)
  obtain ⟨c, tag, h1, h2, h3⟩ := obtained O sp x0 x1 (Scalar.random (r 1)).1 (r 2) (e 0)
  obtain ⟨p, hp, hv⟩ := C38_honest_accepted O (i := ⟨sp, ⟨⟨[x1.val • sp.h]⟩, ⟨x0, [x1]⟩⟩⟩) ⟨x1, rfl, rfl⟩
    (u := ⟨sp, ⟨[x1.val • sp.h]⟩, none, some ⟨tag, [(Scalar.random (r 1)).1]⟩⟩) rfl rfl rfl
    (by
      simp only [Spec.MacValid, Spec.macFactor, List.map_cons, List.map_nil]
      rw [h2, add_comm])
    (Scalar.random (r 3)).1 (r 4) (e 1)
  refine ⟨_, p, (Scalar.random (r 1)).1 • (showDraws O (r 4)).1 • tag.nonce + (Scalar.random (r 3)).1 • sp.h, ?_, hv, ?_⟩
  · rw [presentation, array_ok hH hd, Res.ok_bind, ← hsp]
    simp only [hi, Issuer.getIssuerParameters, User.obtain, h1, unwrap_ok, Res.ok_bind, h3]
    change (unwrap (User.show O _ [(Scalar.random (r 3)).1] (r 4) (e 1)).1 >>= _) = _
    rw [hp]
    rfl
  · rw [show_one] at hp
    cases hp
    exact ⟨rfl, rfl, Scalar.reduced_fromWide _, Scalar.reduced_add _ _, Scalar.reduced_add _ _, Scalar.reduced_add _ _⟩

omit [DecidableEq G] in
/-- A credential of the signal issuer, and a presentation of it. -/
theorem signal_obtained (O : Oracle) (sp : SystemParameters G) (x0 x1 : Scalar) {b : Bytes} {m : Scalar}
    (hn : PhoneNumber.tryFromBytes b = .ok m) (rng : R) (e : Bytes) :
    SignalUser.new sp ⟨[x1.val • sp.h]⟩ none b = .ok ⟨m, User.new sp ⟨[x1.val • sp.h]⟩ none⟩ ∧
      ∃ (c : CredentialIssuance G) (tag : Tag G),
        (SignalIssuer.issue O ⟨⟨sp, ⟨⟨[x1.val • sp.h]⟩, ⟨x0, [x1]⟩⟩⟩⟩ b rng e).1 = .ok c ∧
        SignalUser.obtainFinish O ⟨m, User.new sp ⟨[x1.val • sp.h]⟩ none⟩ (some c) =
          (.ok (), ⟨m, ⟨sp, ⟨[x1.val • sp.h]⟩, none, some ⟨tag, [m]⟩⟩⟩) ∧
        ∀ (rng₂ rng₃ : R) (e₂ e₃ : Bytes) (ros : RosterEntryCommitment G),
          ros = ⟨m • sp.h + (Scalar.random rng₂).1 • sp.g, (Scalar.random rng₂).1⟩ →
          ∃ (p : SignalCredentialPresentation G) (Cm : G),
            (SignalUser.show O ⟨m, ⟨sp, ⟨[x1.val • sp.h]⟩, none, some ⟨tag, [m]⟩⟩⟩ rng₃ ros e₂ e₃).1 = .ok p ∧
            SignalIssuer.verify O ⟨⟨sp, ⟨⟨[x1.val • sp.h]⟩, ⟨x0, [x1]⟩⟩⟩⟩ p = .ok ⟨p⟩ ∧
            SignalIssuer.verifyRosterMembership O ⟨⟨sp, ⟨⟨[x1.val • sp.h]⟩, ⟨x0, [x1]⟩⟩⟩⟩ ⟨p⟩ = .ok ros.commitment ∧
            Spec.SignalPresentationOK p Cm := by
  refine ⟨by simp only [SignalUser.new, hn, Res.mapErr_ok, Res.ok_bind], ?_⟩
  obtain ⟨c, tag, h1, h2, h3⟩ := obtained O sp x0 x1 m rng e
  refine ⟨c, tag, ?_, ?_, ?_⟩
  · rw [← h1]
    simp only [SignalIssuer.issue, hn, Res.mapErr_ok]
  · rw [SignalUser.obtainFinish]
    simp only [h3]
  · rintro rng₂ rng₃ e₂ e₃ ros rfl
    have h4 : tag.mac = (x1.val * m.val + x0.val) • tag.nonce := by rw [h2, add_comm]
    obtain ⟨h5, h6⟩ := signal_presentation_verifies O (sp := sp) h4 (signalShowDraws O rng₃).1
      (signalShowDraws O rng₃).2.1 (signalShowDraws O rng₃).2.2
      (ros := ⟨m • sp.h + (Scalar.random rng₂).1 • sp.g, (Scalar.random rng₂).1⟩) rfl e₂ e₃ _ rfl
    exact ⟨_, _, signal_show_one O m m rng₃ _ e₂ e₃, h5, h6,
      ⟨rfl, rfl, Scalar.reduced_fromWide _, Scalar.reduced_add _ _, Scalar.reduced_add _ _,
        Scalar.reduced_add _ _⟩, Scalar.reduced_fromWide _, Scalar.reduced_add _ _,
        Scalar.reduced_add _ _, Scalar.reduced_add _ _⟩

omit [Ristretto G] [DecidableEq G] in
theorem signal_created (sp : SystemParameters G) (r : R) : ∃ x0 x1 : Scalar,
    (SignalIssuer.create sp r).1 = ⟨⟨sp, ⟨⟨[x1.val • sp.h]⟩, ⟨x0, [x1]⟩⟩⟩⟩ := ⟨_, _, rfl⟩

theorem mac_test {x0 x1 x2 s1 s2 s3 : Scalar} {t : Tag G} {b : F} (h2 : Spec.MacValid ⟨x0, [x1, x2]⟩ t [s1, s2])
    (h3 : t.nonce = b • basepoint G) :
    (SecretKey.verify ⟨x0, [x1, x2]⟩ t [s1, s2] = .ok () ∧ SecretKey.verify ⟨x0, [x1, x2]⟩ t [s1, s3] ≠ .ok ()) ↔
      (b ≠ 0 ∧ b ≠ 1) ∧ x2.val ≠ 0 ∧ s2.val ≠ s3.val := by
  have hb : basepoint G = (1 : F) • basepoint G := (one_smul _ _).symm
  have e1 : t.nonce ≠ basepoint G ↔ b ≠ 1 := by
    rw [h3, not_iff_not]
    conv_lhs => rhs; rw [hb]
    exact smul_base_inj
  rw [Ne, C22_verify_iff, C22_verify_iff, and_iff_left h2, e1]
  rw [Spec.MacValid] at h2 ⊢
  rw [h2, h3, smul_smul, smul_smul, smul_base_inj]
  simp only [Spec.macFactor, List.map_cons, List.map_nil]
  have e2 : (x1.val * s1.val + (x2.val * s2.val + x0.val)) * b = (x1.val * s1.val + (x2.val * s3.val + x0.val)) * b ↔
      b = 0 ∨ x2.val = 0 ∨ s2.val = s3.val := by
    rw [← sub_eq_zero, ← sub_eq_zero (a := s2.val), ← mul_eq_zero, ← mul_eq_zero]
    constructor <;> intro h <;> linear_combination h
  rw [e2]
  tauto

end Tests

/-- **C98**: `test_mac_authentication` passes exactly if the MAC's nonce is neither the identity nor the base point, the
last key element is not zero, and the last attributes of the two messages differ. -/
theorem C98_mac (r : ℕ → R) : macAuthentication G r = .ok () ↔
    (Spec.draw64 (r 4) ≠ 0 ∧ Spec.draw64 (r 4) ≠ 1) ∧ Spec.draw64 (Spec.reads [64, 64] (r 0)).2 ≠ 0 ∧
      Spec.draw64 (r 2) ≠ Spec.draw64 (r 3) := by
  obtain ⟨x0, x1, x2, hx, hk⟩ : ∃ x0 x1 x2 : Scalar, x2.val = Spec.draw64 (Spec.reads [64, 64] (r 0)).2 ∧
      (SecretKey.new 2 (r 0)).1 = ⟨x0, [x1, x2]⟩ := ⟨_, _, _, drawn_eq _, rfl⟩
  obtain ⟨t, h1, h2, h3⟩ := C21_mac_valid (G := G) ⟨x0, [x1, x2]⟩ [(Scalar.random (r 1)).1, (Scalar.random (r 2)).1] (r 4) rfl
  rw [macAuthentication, hk, h1, unwrap_ok, Res.ok_bind, seq_iff, assertOk_iff, assertErr_iff, mac_test h2 h3, hx,
    drawn_eq, drawn_eq]
  rfl

example : macAuthentication F (fun n => (⟨n⟩ : ToyRng)) = .ok () := by decide +kernel

/-- It fails if the generator always gives the same bytes. -/
example : macAuthentication F (fun _ => (⟨7⟩ : ToyRng)) ≠ .ok () := by decide +kernel

/-- **C98**: the same for `test_rerandomised_mac_authentication`, with the rerandomised nonce. -/
theorem C98_rerandomised (r : ℕ → R) : rerandomisedMacAuthentication G r = .ok () ↔
    (Spec.draw64 (r 5) * Spec.draw64 (r 4) ≠ 0 ∧ Spec.draw64 (r 5) * Spec.draw64 (r 4) ≠ 1) ∧
      Spec.draw64 (Spec.reads [64, 64] (r 0)).2 ≠ 0 ∧ Spec.draw64 (r 2) ≠ Spec.draw64 (r 3) := by
  obtain ⟨x0, x1, x2, hx, hk⟩ : ∃ x0 x1 x2 : Scalar, x2.val = Spec.draw64 (Spec.reads [64, 64] (r 0)).2 ∧
      (SecretKey.new 2 (r 0)).1 = ⟨x0, [x1, x2]⟩ := ⟨_, _, _, drawn_eq _, rfl⟩
  obtain ⟨t, h1, h2, h3⟩ := C21_mac_valid (G := G) ⟨x0, [x1, x2]⟩ [(Scalar.random (r 1)).1, (Scalar.random (r 2)).1] (r 4) rfl
  have h4 : (applyToTag (Rerandomization.new (r 5)).1 t).nonce = (Spec.draw64 (r 5) * Spec.draw64 (r 4)) • basepoint G := by
    rw [applyToTag, h3, mul_smul, Scalar.smul_def, ← drawn_eq]
    rfl
  have h5 : Spec.MacValid ⟨x0, [x1, x2]⟩ (applyToTag (Rerandomization.new (r 5)).1 t)
      [(Scalar.random (r 1)).1, (Scalar.random (r 2)).1] := by
    rw [Spec.MacValid] at h2 ⊢
    rw [applyToTag, h2, Scalar.smul_def, Scalar.smul_def, smul_comm]
  rw [rerandomisedMacAuthentication, hk, h1, unwrap_ok, Res.ok_bind, seq_iff, assertOk_iff, assertErr_iff, mac_test h5 h4,
    hx, drawn_eq, drawn_eq]

example : rerandomisedMacAuthentication F (fun n => (⟨n⟩ : ToyRng)) = .ok () := by decide +kernel

example : rerandomisedMacAuthentication F (fun _ => (⟨7⟩ : ToyRng)) ≠ .ok () := by decide +kernel

/-- **C98**: `roundtrip` of elgamal.rs always passes. -/
theorem C98_elgamal (r : ℕ → R) : elgamalRoundtrip G r = .ok () := by
  rw [elgamalRoundtrip, assert_iff]
  simp only [Elgamal.SecretKey.decrypt, Elgamal.PublicKey.encrypt, Elgamal.Keypair.generate, Elgamal.publicOfSecret,
    Scalar.smul_def]
  rw [smul_comm]
  abel

/-- **C98**: `good_commitment` always passes, `bad_commitment` if the two values differ. -/
theorem C98_commitment {H : Bytes} {P : G} (hH : H = enc P) (r : ℕ → R) :
    goodCommitment G H r = .ok () ∧ (badCommitment G H r = .ok () ↔ Spec.draw64 (r 1) ≠ Spec.draw64 (r 2)) := by
  subst hH
  rw [goodCommitment, badCommitment, dec_enc, Res.unwrap_some, Res.ok_bind, Res.ok_bind, assert_iff, assert_iff]
  refine ⟨C26_commit_opens _ _ _, ?_⟩
  rw [← Bool.not_eq_true, C26_open_iff, Pedersen.commit, Scalar.smul_def _ P, add_left_inj, Scalar.smul_def,
    Scalar.smul_def, smul_base_inj, drawn_eq, drawn_eq]

example : badCommitment F (enc (5 : F)) (fun _ => (⟨7⟩ : ToyRng)) ≠ .ok () := by decide +kernel

/-- **C98**: the tests of parameters.rs pass: the first two for the encoding of any element but the base point, and for any
64 bytes that are not two encodings; the third as soon as `hunt_and_peck` returns (C48, C73). -/
theorem C98_parameters (debug : Bool) (H b : Bytes) (fuel : ℕ) (r : ℕ → R) :
    (parametersRoundtrip G debug H = .ok () ↔ ∃ P : G, H = enc P ∧ (debug = true → P ≠ basepoint G)) ∧
      (parametersFromBytes G b = .ok () ↔ ∀ P Q : G, b ≠ enc P ++ enc Q) ∧
      (huntAndPeck G fuel r = some (.ok ()) ↔ (SystemParameters.huntAndPeck fuel (r 0) : Option (SystemParameters G × R)) ≠ none) := by
  refine ⟨⟨fun h => ?_, ?_⟩, ?_, ?_⟩
  · have h1 := (C48_from debug (basepoint G) H).2
    by_contra hc
    rw [parametersRoundtrip, h1.2, Res.panic_bind] at h
    · cases h
    · by_cases h2 : ∃ P : G, H = enc P
      · obtain ⟨P, rfl⟩ := h2
        refine .inl ?_
        by_contra h3
        exact hc ⟨P, rfl, fun hd hP => h3 ⟨hd, hP ▸ rfl⟩⟩
      · exact .inr fun P hP => h2 ⟨P, hP⟩
  · rintro ⟨P, rfl, hd⟩
    rw [parametersRoundtrip, array_ok rfl hd]
    have hl : (SystemParameters.toBytes (⟨basepoint G, P⟩ : SystemParameters G)).length = 64 := by
      simp [SystemParameters.toBytes, enc_length]
    have hs : (slice (SystemParameters.toBytes (⟨basepoint G, P⟩ : SystemParameters G)) 32 64 : Res Empty Bytes) =
        .ok (enc P) := by
      rw [slice_ok (by decide) hl.ge, SystemParameters.toBytes, List.drop_append_of_le_length (enc_length _).ge,
        List.drop_of_length_le (enc_length _).le, List.nil_append, List.take_of_length_le (enc_length _).le]
    simp only [Res.ok_bind, C01_roundtrip, unwrap_ok, Res.assert, if_true, hs]
  · rw [parametersFromBytes]
    constructor
    · rintro h P Q rfl
      rw [(C01_ok_iff _ ⟨P, Q⟩).2 rfl] at h
      cases h
    · intro h
      by_cases hl : b.length = 64
      · rw [C01_bad_point hl h]
        rfl
      · rw [C01_wrong_length hl]
        rfl
  · rw [Tests.huntAndPeck]
    cases (SystemParameters.huntAndPeck fuel (r 0) : Option (SystemParameters G × R)) <;> simp

example : parametersRoundtrip F true (enc (basepoint F)) = .panic := by decide +kernel

/-- **C98**: the tests of aeonflux/src/issuer.rs and credential.rs pass whatever they draw and whatever the hash function
is, for every `H` that encodes an element other than the base point. -/
theorem C98_presentation (O : Oracle) (debug : Bool) {H : Bytes} {P : G} (hH : H = enc P)
    (hd : debug = true → P ≠ basepoint G) (r : ℕ → R) (e : ℕ → Bytes) :
    issuanceAndPresentation G O debug H r e = .ok () ∧ presentationRoundtrip G O debug H r e = .ok () ∧
      verifiedRoundtrip G O debug H r e = .ok () := by
  obtain ⟨i, p, Cm, h1, h2, h3⟩ := presentation_ok O hH hd r e
  rw [issuanceAndPresentation, presentationRoundtrip, verifiedRoundtrip, h1]
  have h4 : VerifiedCredential.fromBytes (VerifiedCredential.toBytes ⟨p⟩) = .ok (⟨p⟩ : VerifiedCredential G) := by
    rw [(C09_verified _).1, (C09_verified (G := G) []).2, (C09_roundtrip p Cm h3).1]
    rfl
  simp only [Res.ok_bind, h2, unwrap_ok, (C09_roundtrip p Cm h3).1, assertOk_ok, h4, Res.assert, if_true, and_self]

example : ∃ P : F, enc (5 : F) = enc P ∧ (true = true → P ≠ basepoint F) := ⟨5, rfl, fun _ => by decide +kernel⟩

/-- **C98**: the two serialisation tests of signal-credential pass, whatever they draw. -/
theorem C98_signal (O : Oracle) (sp : SystemParameters G) (debug : Bool) {H : Bytes} {P : G} (hH : H = enc P)
    (hd : debug = true → P ≠ basepoint G) (r : ℕ → R) (e : ℕ → Bytes) :
    signalVerifiedRoundtrip O sp r e = .ok () ∧ signalUserRoundtrip G debug H r = .ok () := by
  have hn : PhoneNumber.tryFromBytes aliceNumber = .ok _ := PhoneNumber.encodeWith_ok id _ (by decide)
  generalize Scalar.fromBytesModOrder _ = m at hn
  constructor
  · obtain ⟨x0, x1, hi⟩ := signal_created sp (r 0)
    obtain ⟨h1, c, tag, h2, h3, h4⟩ := signal_obtained O sp x0 x1 hn (r 1) (e 0)
    obtain ⟨p, Cm, h5, h6, h7, h8⟩ := h4 (r 2) (r 3) (e 1) (e 2) _ rfl
    rw [signalVerifiedRoundtrip]
    simp only [hi, SignalIssuer.getIssuerParameters, Issuer.getIssuerParameters, h1, unwrap_ok, Res.ok_bind, h2, h3,
      roster_create _ sp (r 2) hn, h5, h6, (C10_roundtrip p Cm h8).2.1, assertOk_ok, Res.assert, if_true]
  · rw [signalUserRoundtrip, array_ok hH hd, Res.ok_bind]
    obtain ⟨x0, x1, hi⟩ := signal_created (⟨basepoint G, P⟩ : SystemParameters G) (r 0)
    have h1 := (signal_obtained O (⟨basepoint G, P⟩ : SystemParameters G) x0 x1 hn (r 1) (e 0)).1
    have h2 := (C11_signal_roundtrip_iff (⟨m, User.new ⟨basepoint G, P⟩ ⟨[x1.val • P]⟩ none⟩ : SignalUser G)).2
      ((C11_roundtrip_iff _).2 ⟨rfl, nofun, nofun⟩)
    simp only [hi, h1, unwrap_ok, Res.ok_bind, h2, Res.assert, if_true]

/-- What the two numbers of the full protocol's test differ by. -/
def Spec.difference : F :=
  leVal (Spec.phoneBytes [1, 4, 1, 5, 5, 5, 5, 1, 2, 3, 4]) - leVal (Spec.phoneBytes [1, 4, 1, 5, 5, 5, 5, 6, 6, 6, 6])

/-- **C98**: the test of the full protocol passes exactly if Alice's and Bob's commitments differ; all steps succeed in any
case, and Alice's commitment is the one found in the roster. -/
theorem C98_full (O : Oracle) (sp : SystemParameters G) (r : ℕ → R) (e : ℕ → Bytes) :
    fullProtocol O sp r e = .ok () ↔
      Spec.difference • sp.h ≠ (Spec.draw64 (r 3) - Spec.draw64 (r 4)) • sp.g := by
  have hv : ∀ {b : Bytes} {s : Scalar}, PhoneNumber.tryFromBytes b = .ok s → s.val = leVal (Spec.phoneBytes b) := by
    intro b s h
    rw [Scalar.val, ((C16_bytes_ok_iff b s).1 h).2, ZMod.natCast_mod]
  have hn : PhoneNumber.tryFromBytes aliceNumber = .ok _ := PhoneNumber.encodeWith_ok id _ (by decide)
  generalize Scalar.fromBytesModOrder _ = m at hn
  have hn' : PhoneNumber.tryFromBytes bobNumber = .ok _ := PhoneNumber.encodeWith_ok id _ (by decide)
  generalize Scalar.fromBytesModOrder _ = m' at hn'
  have hm : Spec.difference = m.val - m'.val := by
    rw [hv hn, hv hn']
    rfl
  obtain ⟨x0, x1, hi⟩ := signal_created sp (r 0)
  obtain ⟨h1, c, tag, h2, h3, h4⟩ := signal_obtained O sp x0 x1 hn (r 1) (e 0)
  obtain ⟨h1', c', tag', h2', h3', h4'⟩ := signal_obtained O sp x0 x1 hn' (r 2) (e 1)
  obtain ⟨p, Cm, h5, h6, h7, h8⟩ := h4 (r 4) (r 5) (e 2) (e 3) _ rfl
  rw [fullProtocol]
  simp only [hi, h1, h1', unwrap_ok, Res.ok_bind, h2, h2', h3, h3', roster_create _ sp (r 3) hn',
    roster_create _ sp (r 4) hn, h5, h6, h7, assertOk_ok]
  rw [seq_iff, assert_iff, assert_iff]
  simp only [List.mem_singleton, and_true]
  rw [not_iff_not, hm, Scalar.smul_def, Scalar.smul_def, Scalar.smul_def, Scalar.smul_def, drawn_eq, drawn_eq, sub_smul,
    sub_smul, sub_eq_sub_iff_add_eq_add, add_comm (Spec.draw64 (r 3) • sp.g)]

/-- It fails if `h` is the base point and Alice's draw cancels the difference of the numbers. -/
example : ∃ x y : F, ¬ (Spec.difference • basepoint F ≠ (x - y) • basepoint F) := ⟨Spec.difference, 0, by simp⟩

/-- **C98**: with parameters other than the identity, exactly one value of Alice's draw makes that test fail, whatever else
is drawn. -/
theorem C98_full_unique (O : Oracle) {sp : SystemParameters G} (hg : sp.g ≠ 0) :
    ∃ y : F → F, ∀ (r : ℕ → R) (e : ℕ → Bytes),
      fullProtocol O sp r e ≠ .ok () ↔ Spec.draw64 (r 4) = y (Spec.draw64 (r 3)) := by
  obtain ⟨g, hg'⟩ := Ristretto.gen sp.g
  obtain ⟨h, hh'⟩ := Ristretto.gen sp.h
  have hg0 : g ≠ 0 := by
    rintro rfl
    exact hg (by rw [hg', zero_smul])
  refine ⟨fun x => x - Spec.difference * h / g, fun r e => ?_⟩
  rw [Ne, C98_full, not_not, hg', hh', smul_smul, smul_smul, smul_base_inj]
  constructor
  · intro h1
    field_simp
    linear_combination h1
  · intro h1
    rw [h1]
    field_simp
    ring

example : (⟨1, 2⟩ : SystemParameters F).g ≠ 0 := by decide +kernel

/-- **C98**: with parameters from `hunt_and_peck`, the tests return as soon as it does. -/
theorem C98_with_parameters (O : Oracle) (fuel : ℕ) (r₀ : R) (r : ℕ → R) (e : ℕ → Bytes) {sp : SystemParameters G} {r' : R}
    (h : SystemParameters.huntAndPeck fuel r₀ = some (sp, r')) :
    withParameters fuel r₀ (fun sp : SystemParameters G => signalVerifiedRoundtrip O sp r e) = some (.ok ()) ∧
      (withParameters fuel r₀ (fun sp : SystemParameters G => fullProtocol O sp r e) = some (.ok ()) ↔
        Spec.difference • sp.h ≠ (Spec.draw64 (r 3) - Spec.draw64 (r 4)) • basepoint G) := by
  have hg := (C48_params_partial h).1
  rw [withParameters, withParameters, h]
  refine ⟨congrArg some (C98_signal O sp false rfl (P := (0 : G)) (fun h => by cases h) r e).1, ?_⟩
  change some (fullProtocol O sp r e) = _ ↔ _
  rw [Option.some_inj, C98_full, hg]


example : ∃ x, SystemParameters.huntAndPeck (G := F) 1 (⟨4⟩ : ToyRng) = some x := Option.isSome_iff_exists.1 (by decide +kernel)

/-- **C98**: the tests of phone_number.rs and the example in its documentation pass. -/
theorem C98_phone : phoneRoundtrip = .ok () ∧ phoneLeadingZeroes = .ok () ∧ phoneExample = .ok () := by
  decide +kernel

omit [DecidableEq G] in
/-- **C98**: the test of build-test/maths passes exactly if neither the nonce nor the exponent is zero. -/
theorem C98_maths (r : ℕ → R) : mathsTest G r = .ok () ↔
    Spec.draw64 (r 1) ≠ 0 ∧ 1 + Spec.draw64 (r 0) * 4155551234 ≠ 0 := by
  rw [mathsTest, assert_iff, BuildTest.maths, Ne, enc_inj_iff, Scalar.smul_def, Scalar.smul_def, smul_smul, smul_base_eq_zero,
    mul_eq_zero, not_or, and_comm, Scalar.val_add, Scalar.val_mul, Scalar.val_one, Scalar.val_ofF, drawn_eq, drawn_eq]

example : mathsTest F (fun n => (⟨n⟩ : ToyRng)) = .ok () := by decide +kernel

/-- **C98**: `test_mac_authentication` depends on four drawn values: nonce, last key element, and the last attributes of the
two messages. Of the `ℓ⁴` quadruples exactly `(ℓ - 2)(ℓ - 1)(ℓ² - ℓ)` make it pass. -/
theorem C98_count : ∃ S : Finset (F × F × F × F), S.card = (ell - 2) * ((ell - 1) * (ell * ell - ell)) ∧
    ∀ r : ℕ → R, macAuthentication G r = .ok () ↔ (Spec.draw64 (r 4), Spec.draw64 (Spec.reads [64, 64] (r 0)).2,
      Spec.draw64 (r 2), Spec.draw64 (r 3)) ∈ S := by
  refine ⟨(({0, 1} : Finset F)ᶜ) ×ˢ (({0} : Finset F)ᶜ) ×ˢ (Finset.univ : Finset F).offDiag, ?_, fun r => ?_⟩
  · rw [Finset.card_product, Finset.card_product, Finset.card_compl, Finset.card_compl, Finset.card_pair zero_ne_one,
      Finset.card_singleton, Finset.offDiag_card, Finset.card_univ, ZMod.card]
  · rw [C98_mac]
    simp only [Finset.mem_product, Finset.mem_compl, Finset.mem_insert, Finset.mem_singleton, Finset.mem_offDiag,
      Finset.mem_univ, true_and, not_or, Ne]

/-! The bytes in the tests are encodings, respectively are not. -/

/-- `H` (aeonflux/src/issuer.rs:244-247, credential.rs:388-391). -/
def testH : Bytes := [154, 189, 169, 176, 131, 12, 78, 199, 127, 4, 178, 70, 212, 141, 119, 112,
  153, 154, 135, 11, 227, 132, 247, 47, 68, 192, 72, 200, 23, 88, 51, 82]

/-- `H` (aeonflux/src/parameters.rs:181-184, signal-credential/src/user.rs:265-268). -/
def testH2 : Bytes := [184, 238, 220, 64, 5, 247, 91, 135, 93, 125, 218, 60, 36, 165, 166, 178,
  118, 188, 77, 27, 133, 146, 193, 133, 234, 95, 69, 227, 213, 197, 84, 98]

/-- `H` (aeonflux/src/pedersen.rs:121-125). -/
def testH3 : Bytes := [76, 178, 52, 156, 167, 219, 63, 134, 191, 228, 77, 182, 140, 65, 148, 163,
  247, 169, 129, 154, 54, 20, 36, 75, 89, 50, 60, 243, 104, 44, 214, 50]

/-- The bytes of `system_parameters_from_bytes` (parameters.rs:199-206). -/
def testBytes : Bytes := "system_parameters_length is 64\nsome shit was missing\n".toUTF8.toList ++
  [146, 193, 133, 234, 95, 69, 227, 213, 197, 84, 98]

namespace Tests

theorem literals : (dec testH : Option Curve.Pt).isSome ∧ (dec testH2 : Option Curve.Pt).isSome ∧
    (dec testH3 : Option Curve.Pt).isSome ∧ (dec (testBytes.take 32) : Option Curve.Pt) = none ∧
    enc (basepoint Curve.Pt) ∉ [testH, testH2, testH3] := by
  decide +kernel

theorem literal {H : Bytes} (h : H ∈ [testH, testH2, testH3]) : ∃ P : Curve.Pt, H = enc P ∧ P ≠ basepoint Curve.Pt := by
  obtain ⟨h1, h2, h3, -, h5⟩ := literals
  have h6 : (dec H : Option Curve.Pt).isSome := by
    simp only [List.mem_cons, List.not_mem_nil, or_false] at h
    rcases h with rfl | rfl | rfl
    exacts [h1, h2, h3]
  obtain ⟨P, hP⟩ := Option.isSome_iff_exists.1 h6
  have h7 := Ristretto.enc_of_dec _ _ hP
  refine ⟨P, h7.symm, fun hb => h5 ?_⟩
  rw [← hb, h7]
  exact h

end Tests

/-- **C98**: with the bytes that stand in the tests, in the group of the code (C85), in a debug build as in a release
build. -/
theorem C98_code (O : Oracle) (debug : Bool) (r : ℕ → R) (e : ℕ → Bytes) :
    issuanceAndPresentation Curve.Pt O debug testH r e = .ok () ∧
      presentationRoundtrip Curve.Pt O debug testH r e = .ok () ∧
      verifiedRoundtrip Curve.Pt O debug testH r e = .ok () ∧
      parametersRoundtrip Curve.Pt debug testH2 = .ok () ∧
      parametersFromBytes Curve.Pt testBytes = .ok () ∧
      signalUserRoundtrip Curve.Pt debug testH2 r = .ok () ∧
      goodCommitment Curve.Pt testH3 r = .ok () ∧
      (badCommitment Curve.Pt testH3 r = .ok () ↔ Spec.draw64 (r 1) ≠ Spec.draw64 (r 2)) := by
  obtain ⟨P, hP, hb⟩ := literal (H := testH) (by simp)
  obtain ⟨Q, hQ, hc⟩ := literal (H := testH2) (by simp)
  obtain ⟨S, hS, -⟩ := literal (H := testH3) (by simp)
  obtain ⟨h1, h2, h3⟩ := C98_presentation O debug hP (fun _ => hb) r e
  refine ⟨h1, h2, h3, ((C98_parameters debug testH2 [] 0 r).1).2 ⟨Q, hQ, fun _ => hc⟩,
    ((C98_parameters debug testH2 testBytes 0 r).2.1).2 fun A B h => ?_,
    (C98_signal O ⟨0, 0⟩ debug hQ (fun _ => hc) r e).2, C98_commitment hS r⟩
  have h4 := literals.2.2.2.1
  rw [h, List.take_append_of_le_length (enc_length A).ge, List.take_of_length_le (enc_length A).le, dec_enc] at h4
  cases h4

end Verif
