import Verif.Props.CodecComposite

/-!
# C14, C15: panics and malleability of every decoder
-/

namespace Verif

open Amacs

variable {G : Type} [AddCommGroup G] [Module F G] [Ristretto G]

/-- Every type with a `from_bytes`. The flag of the key types is "overflow checks on". -/
inductive Decoder where
  | systemParameters | tag | issuerParameters | secretKey | keypair (checks : Bool)
  | issuer (checks : Bool) | signalIssuer (checks : Bool)
  | request | credential | issuance | presentation | verifiedCredential
  | user | signalUser | signalPresentation | verifiedSignal
  | commitment | phoneNumber | committedPhoneNumber | rosterEntry
  | elgamalPublic | elgamalSecret | elgamalKeypair

/-- The decoder panics on `b`. -/
def Decoder.Panics (G : Type) [AddCommGroup G] [Module F G] [Ristretto G] (b : Bytes) :
    Decoder → Prop
  | .systemParameters => (SystemParameters.fromBytes b : Res _ (SystemParameters G)) = .panic
  | .tag => (Tag.fromBytes b : Res _ (Tag G)) = .panic
  | .issuerParameters => (PublicKey.fromBytes b : Res _ (PublicKey G)) = .panic
  | .secretKey => (SecretKey.fromBytes b : Res _ SecretKey) = .panic
  | .keypair checks => (Keypair.fromBytes checks b : Res _ (Keypair G)) = .panic
  | .issuer checks => (Issuer.fromBytes checks b : Res _ (Issuer G)) = .panic
  | .signalIssuer checks => (SignalIssuer.fromBytes checks b : Res _ (SignalIssuer G)) = .panic
  | .request => (CredentialRequest.fromBytes b : Res _ CredentialRequest) = .panic
  | .credential => (Credential.fromBytes b : Res _ (Credential G)) = .panic
  | .issuance => (CredentialIssuance.fromBytes b : Res _ (CredentialIssuance G)) = .panic
  | .presentation => (CredentialPresentation.fromBytes b : Res _ (CredentialPresentation G)) = .panic
  | .verifiedCredential => (VerifiedCredential.fromBytes b : Res _ (VerifiedCredential G)) = .panic
  | .user => (User.fromBytes b : Res _ (User G)) = .panic
  | .signalUser => (SignalUser.fromBytes b : Res _ (SignalUser G)) = .panic
  | .signalPresentation => (SignalCredentialPresentation.fromBytes b : Res _ (SignalCredentialPresentation G)) = .panic
  | .verifiedSignal => (VerifiedSignalCredential.fromBytes b : Res _ (VerifiedSignalCredential G)) = .panic
  | .commitment => (Pedersen.fromBytes b : Res _ G) = .panic
  | .phoneNumber => (PhoneNumber.fromBytes b : Res _ Scalar) = .panic
  | .committedPhoneNumber => (CommittedPhoneNumber.fromBytes b : Res _ G) = .panic
  | .rosterEntry => (RosterEntryCommitment.fromBytes b : Res _ (RosterEntryCommitment G)) = .panic
  | .elgamalPublic => (Elgamal.PublicKey.fromBytes b : Res _ G) = .panic
  | .elgamalSecret => (Elgamal.SecretKey.fromBytes b : Res _ Scalar) = .panic
  | .elgamalKeypair => (Elgamal.Keypair.fromBytes b : Res _ (Elgamal.Keypair G)) = .panic

/-- The decoder accepts both inputs, with the same result. -/
def Decoder.Same (G : Type) [AddCommGroup G] [Module F G] [Ristretto G] (b b' : Bytes) :
    Decoder → Prop
  | .systemParameters => ∃ x : SystemParameters G, SystemParameters.fromBytes b = .ok x ∧ SystemParameters.fromBytes b' = .ok x
  | .tag => ∃ x : Tag G, Tag.fromBytes b = .ok x ∧ Tag.fromBytes b' = .ok x
  | .issuerParameters => ∃ x : PublicKey G, PublicKey.fromBytes b = .ok x ∧ PublicKey.fromBytes b' = .ok x
  | .secretKey => ∃ x : SecretKey, SecretKey.fromBytes b = .ok x ∧ SecretKey.fromBytes b' = .ok x
  | .keypair checks => ∃ x : Keypair G, Keypair.fromBytes checks b = .ok x ∧ Keypair.fromBytes checks b' = .ok x
  | .issuer checks => ∃ x : Issuer G, Issuer.fromBytes checks b = .ok x ∧ Issuer.fromBytes checks b' = .ok x
  | .signalIssuer checks => ∃ x : SignalIssuer G, SignalIssuer.fromBytes checks b = .ok x ∧ SignalIssuer.fromBytes checks b' = .ok x
  | .request => ∃ x : CredentialRequest, CredentialRequest.fromBytes b = .ok x ∧ CredentialRequest.fromBytes b' = .ok x
  | .credential => ∃ x : Credential G, Credential.fromBytes b = .ok x ∧ Credential.fromBytes b' = .ok x
  | .issuance => ∃ x : CredentialIssuance G, CredentialIssuance.fromBytes b = .ok x ∧ CredentialIssuance.fromBytes b' = .ok x
  | .presentation => ∃ x : CredentialPresentation G, CredentialPresentation.fromBytes b = .ok x ∧
      CredentialPresentation.fromBytes b' = .ok x
  | .verifiedCredential => ∃ x : VerifiedCredential G, VerifiedCredential.fromBytes b = .ok x ∧ VerifiedCredential.fromBytes b' = .ok x
  | .user => ∃ x : User G, User.fromBytes b = .ok x ∧ User.fromBytes b' = .ok x
  | .signalUser => ∃ x : SignalUser G, SignalUser.fromBytes b = .ok x ∧ SignalUser.fromBytes b' = .ok x
  | .signalPresentation => ∃ x : SignalCredentialPresentation G,
      SignalCredentialPresentation.fromBytes b = .ok x ∧
      SignalCredentialPresentation.fromBytes b' = .ok x
  | .verifiedSignal => ∃ x : VerifiedSignalCredential G, VerifiedSignalCredential.fromBytes b = .ok x ∧
      VerifiedSignalCredential.fromBytes b' = .ok x
  | .commitment => ∃ x : G, Pedersen.fromBytes b = .ok x ∧ Pedersen.fromBytes b' = .ok x
  | .phoneNumber => ∃ x : Scalar, PhoneNumber.fromBytes b = .ok x ∧ PhoneNumber.fromBytes b' = .ok x
  | .committedPhoneNumber => ∃ x : G, CommittedPhoneNumber.fromBytes b = .ok x ∧ CommittedPhoneNumber.fromBytes b' = .ok x
  | .rosterEntry => ∃ x : RosterEntryCommitment G, RosterEntryCommitment.fromBytes b = .ok x ∧ RosterEntryCommitment.fromBytes b' = .ok x
  | .elgamalPublic => ∃ x : G, Elgamal.PublicKey.fromBytes b = .ok x ∧ Elgamal.PublicKey.fromBytes b' = .ok x
  | .elgamalSecret => ∃ x : Scalar, Elgamal.SecretKey.fromBytes b = .ok x ∧ Elgamal.SecretKey.fromBytes b' = .ok x
  | .elgamalKeypair => ∃ x : Elgamal.Keypair G, Elgamal.Keypair.fromBytes b = .ok x ∧ Elgamal.Keypair.fromBytes b' = .ok x

/-- The panic table: the inputs on which each decoder panics, in terms of lengths and prefixes. -/
def Spec.PanicTable (G : Type) [AddCommGroup G] [Module F G] [Ristretto G] (b : Bytes) :
    Decoder → Prop
  | .secretKey => b = []
  | .keypair checks => checks = true ∧ b.length < 32
  | .issuance => b.length < 32 ∨ (b.length < 128 ∧ ∃ C : G, b.take 32 = enc C)
  | .presentation => b = [] ∨ (∃ C : G, b = enc C) ∨ ∃ C P : G, b = enc C ++ enc P
  | .verifiedCredential => b = [] ∨ (∃ C : G, b = enc C) ∨ ∃ C P : G, b = enc C ++ enc P
  | .signalUser => b.length < 32
  | .commitment => b.length < 32
  | .committedPhoneNumber => b.length < 32
  | .rosterEntry => b.length < 32 ∨ (b.length ≠ 64 ∧ ∃ c : G, b.take 32 = enc c)
  | .elgamalPublic => b.length ≠ 32
  | .elgamalSecret => b.length ≠ 32
  | .elgamalKeypair => b.length ≠ 64
  | _ => False

theorem phoneNumber_fromBytes (b : Bytes) :
    PhoneNumber.fromBytes b =
      if b.length = 32 then .ok (Scalar.fromBits b) else .err .lengthExceeded := by
  rw [PhoneNumber.fromBytes]
  by_cases h : b.length = 32
  · rw [if_neg (by simp [h]), if_pos h, slice_all h]
    simp [copyFromSlice, h]
  · rw [if_pos h, if_neg h]

/-- The complete panic table. -/
theorem C14_table (d : Decoder) (b : Bytes) :
    d.Panics G b ↔ Spec.PanicTable G b d := by
  cases d <;> simp only [Decoder.Panics, Spec.PanicTable, iff_false]
  case systemParameters => exact C01_no_panic b
  case tag => exact C02_no_panic b
  case issuerParameters => exact C03_no_panic b
  case secretKey =>
    refine ⟨fun h => ?_, fun h => h ▸ C04_empty_panics⟩
    by_contra hb
    exact C04_no_panic_partial hb h
  case keypair checks =>
    constructor
    · intro h
      by_contra hc
      apply C05_no_panic_partial checks b ?_ h
      cases checks
      · exact Or.inl rfl
      · right
        by_contra hl
        exact hc ⟨rfl, by omega⟩
    · rintro ⟨rfl, h⟩
      exact C05_short_panics h
  case issuer checks => exact C06_no_panic checks b
  case signalIssuer checks =>
    rw [(C06_signal checks b).1, Res.map_eq_panic]
    exact C06_no_panic checks b
  case request => exact C07_request_no_panic b
  case credential => exact C07_credential_no_panic b
  case issuance => exact C08_panic_iff b
  case presentation => exact C09_panic_iff b
  case verifiedCredential =>
    rw [(C09_verified b).1, Res.map_eq_panic]
    exact C09_panic_iff b
  case user => exact C11_no_panic b
  case signalUser => exact C11_signal_panic_iff b
  case signalPresentation => exact C10_no_panic b
  case verifiedSignal =>
    rw [C10_verified b, Res.map_eq_panic]
    exact C10_no_panic b
  case commitment => exact C12_commitment_panic_iff b
  case phoneNumber =>
    rw [phoneNumber_fromBytes]
    split <;> simp
  case committedPhoneNumber => exact (C12_committed_number b (0 : G)).2.1
  case rosterEntry => exact C12_roster_panic_iff b
  case elgamalPublic => exact (C13_panic_iff (G := G) b).1
  case elgamalSecret => exact (C13_panic_iff (G := G) b).2.1
  case elgamalKeypair => exact (C13_panic_iff (G := G) b).2.2

/-- The claim of C14 is false: twelve decoders panic on some input (shown here on one each). -/
theorem C14_false :
    ∀ d ∈ [Decoder.secretKey, .keypair true, .issuance, .presentation, .verifiedCredential,
      .signalUser, .commitment, .committedPhoneNumber, .rosterEntry, .elgamalPublic, .elgamalSecret,
      .elgamalKeypair], d.Panics G [] := by
  intro d hd
  rw [C14_table]
  simp only [List.mem_cons, List.not_mem_nil, or_false] at hd
  rcases hd with rfl | rfl | rfl | rfl | rfl | rfl | rfl | rfl | rfl | rfl | rfl | rfl <;>
    simp [Spec.PanicTable]

/-- Full claim: `∀ d b, ¬ d.Panics G b`. Missing: the decoders of `C14_false`. -/
theorem C14_total_partial (b : Bytes) (checks : Bool) :
    ∀ d ∈ [Decoder.systemParameters, .tag, .issuerParameters, .keypair false, .issuer checks,
      .signalIssuer checks, .request, .credential, .user, .signalPresentation, .verifiedSignal,
      .phoneNumber], ¬ d.Panics G b := by
  intro d hd
  rw [C14_table]
  simp only [List.mem_cons, List.not_mem_nil, or_false] at hd
  rcases hd with rfl | rfl | rfl | rfl | rfl | rfl | rfl | rfl | rfl | rfl | rfl | rfl <;>
    simp [Spec.PanicTable]

/-! ## C15 -/

/-- The decoders for which an object has only one encoding. -/
def Spec.Canonical : Decoder → Prop
  | .issuance | .presentation | .verifiedCredential | .signalPresentation | .verifiedSignal
  | .commitment | .committedPhoneNumber | .phoneNumber | .rosterEntry | .signalUser => False
  | _ => True

/-- Full claim: for every decoder, equal objects come from equal bytes. Missing: the ten decoders
outside `Canonical`, where it is false (`C15_malleable`). -/
theorem C15_injective_partial (d : Decoder) (hd : Spec.Canonical d) (b1 b2 : Bytes)
    (h : d.Same G b1 b2) : b1 = b2 := by
  cases d <;> simp only [Spec.Canonical] at hd <;> obtain ⟨x, h1, h2⟩ := h
  case systemParameters => rw [← C01_reserialise h1, C01_reserialise h2]
  case tag => rw [← C02_reserialise h1, C02_reserialise h2]
  case issuerParameters => rw [← C03_reserialise h1, C03_reserialise h2]
  case secretKey => rw [← C04_reserialise h1, C04_reserialise h2]
  case keypair => rw [← C05_reserialise h1, C05_reserialise h2]
  case issuer => rw [← C06_reserialise h1, C06_reserialise h2]
  case signalIssuer checks =>
    rw [(C06_signal _ _).1, Res.map_eq_ok] at h1 h2
    obtain ⟨i1, h1, rfl⟩ := h1
    obtain ⟨i2, h2, h3⟩ := h2
    cases h3
    rw [← C06_reserialise h1, C06_reserialise h2]
  case request =>
    rw [((C07_request_ok_iff _ _).1 h1).2, ((C07_request_ok_iff _ _).1 h2).2]
  case credential => rw [← C07_credential_reserialise h1, C07_credential_reserialise h2]
  case user =>
    have key : ∀ {b : Bytes}, User.fromBytes b = .ok x → b = x.toBytes := by
      intro b h
      obtain ⟨X, kb, cb, hX, hk, hc, rfl⟩ := (C11_ok_iff _ _).1 h
      have e1 : PublicKey.toBytes x.issuerParameters = enc X := by
        rw [PublicKey.toBytes, hX]; simp
      rw [User.toBytes, SystemParameters.toBytes, e1]
      refine congrArg₂ _ (congrArg₂ _ rfl ?_) ?_
      · cases hkk : x.key with
        | none => rw [hkk] at hk; exact hk
        | some k => rw [hkk] at hk; exact hk.2.1
      · cases hcc : x.credential with
        | none => rw [hcc] at hc; exact hc
        | some c =>
          rw [hcc] at hc
          obtain ⟨a, _, h2, h3, _⟩ := hc
          rw [h3]
          simp [Credential.toBytes, Tag.toBytes, h2]
    rw [key h1, key h2]
  case elgamalPublic =>
    rw [(C13_public_ok_iff _ _).1 h1, (C13_public_ok_iff _ _).1 h2]
  case elgamalSecret =>
    rw [((C13_secret_ok_iff _ _).1 h1).2, ((C13_secret_ok_iff _ _).1 h2).2]
  case elgamalKeypair =>
    rw [((C13_keypair_ok_iff _ _).1 h1).2, ((C13_keypair_ok_iff _ _).1 h2).2]

/-- The claim of C15 is false for each of the ten other decoders. -/
theorem C15_malleable (d : Decoder) (hd : ¬ Spec.Canonical d) :
    ∃ b1 b2 : Bytes, b1 ≠ b2 ∧ d.Same G b1 b2 := by
  have hp : ∀ b rest : Bytes, b.length = 32 → b ≠ b ++ (0 :: rest) := by
    intro b rest _ h
    have := congrArg List.length h
    simp at this
  let pr : CredentialPresentation G := ⟨0, 0, [], [0], ⟨0, ⟨0, 0, 0⟩⟩⟩
  have hpr : Spec.PresentationOK pr 0 := ⟨rfl, rfl, by simp [pr], by simp [pr], by simp [pr], by simp [pr]⟩
  let sp : SignalCredentialPresentation G := ⟨0, pr, ⟨0, ⟨0, 0, 0⟩⟩⟩
  have hsp : Spec.SignalPresentationOK sp 0 :=
    ⟨hpr, by simp [sp], by simp [sp], by simp [sp], by simp [sp]⟩
  let is : CredentialIssuance G := ⟨0, ⟨⟨0, 0⟩, [0]⟩, ⟨0, ⟨0, 0, 0, 0⟩⟩⟩
  have his : Spec.IssuanceOK is 0 :=
    ⟨rfl, by simp, by simp [is], by simp [is], by simp [is], by simp [is], by simp [is]⟩
  -- the same scalar with and without the top bit
  let top : Bytes := List.replicate 31 0 ++ [128]
  have htop : Scalar.fromBits top = Scalar.fromBits (List.replicate 32 0) := by
    apply Scalar.ext
    show leVal top % 2 ^ 255 = leVal (List.replicate 32 0) % 2 ^ 255
    decide +kernel
  have hne : top ≠ List.replicate 32 0 := by decide
  have hl1 : top.length = 32 := rfl
  have hl2 : (List.replicate 32 (0 : UInt8)).length = 32 := rfl
  cases d <;> simp only [Spec.Canonical, not_true_eq_false] at hd <;>
    simp only [Decoder.Same]
  case issuance =>
    refine ⟨is.toBytes, is.toBytes ++ [0], by simp, is, (C08_roundtrip is 0 his).1,
      (C08_ok_iff _ _).2 ⟨0, [0], his, ?_⟩⟩
    rw [C08_toBytes is 0 his]
  case presentation =>
    refine ⟨pr.toBytes, pr.toBytes ++ List.replicate 32 0, by simp, pr, (C09_roundtrip pr 0 hpr).1,
      (C09_ok_iff _ _).2 ⟨?_, 0, List.replicate 32 0, hpr, ?_⟩⟩
    · rw [List.length_append, (C09_roundtrip pr 0 hpr).2]; simp
    · rw [C09_toBytes pr 0 hpr]
  case verifiedCredential =>
    simp only [(C09_verified _).1, Res.map_eq_ok]
    refine ⟨pr.toBytes, pr.toBytes ++ List.replicate 32 0, by simp, ⟨pr⟩,
      ⟨pr, (C09_roundtrip pr 0 hpr).1, rfl⟩,
      ⟨pr, (C09_ok_iff _ _).2 ⟨?_, 0, List.replicate 32 0, hpr, ?_⟩, rfl⟩⟩
    · rw [List.length_append, (C09_roundtrip pr 0 hpr).2]; simp
    · rw [C09_toBytes pr 0 hpr]
  case signalUser =>
    let u : User G := ⟨⟨0, 0⟩, ⟨[0]⟩, none, none⟩
    have hu : User.fromBytes u.toBytes = .ok u :=
      (C11_roundtrip_iff u).2 ⟨rfl, nofun, nofun⟩
    have key : ∀ n : Bytes, n.length = 32 →
        SignalUser.fromBytes (n ++ u.toBytes) = .ok ⟨Scalar.fromBits n, u⟩ := by
      intro n hn
      rw [SignalUser.fromBytes, slice_left hn, sliceFrom_right hn]
      simp only [Res.ok_bind, phoneNumber_fromBytes, if_pos hn, Res.mapErr_ok, hu]
    refine ⟨_, _, ?_, _, key top rfl, (key (List.replicate 32 0) rfl).trans ?_⟩
    · rw [Ne, append_eq_iff (hl1.trans hl2.symm)]
      exact fun h => hne h.1
    · rw [htop]
  case signalPresentation =>
    refine ⟨sp.toBytes, sp.toBytes ++ [0], by simp, sp, (C10_roundtrip sp 0 hsp).1,
      (C10_ok_iff _ _).2 ⟨0, [0], hsp, ?_⟩⟩
    rw [C10_toBytes sp 0 hsp]
  case verifiedSignal =>
    simp only [C10_verified, Res.map_eq_ok]
    refine ⟨sp.toBytes, sp.toBytes ++ [0], by simp, ⟨sp⟩, ⟨sp, (C10_roundtrip sp 0 hsp).1, rfl⟩,
      ⟨sp, (C10_ok_iff _ _).2 ⟨0, [0], hsp, ?_⟩, rfl⟩⟩
    rw [C10_toBytes sp 0 hsp]
  case commitment =>
    exact ⟨enc (0 : G), enc (0 : G) ++ [0], hp _ _ (enc_length _), (0 : G),
      (C12_commitment_ok_iff _ _).2 ⟨[], by simp⟩, (C12_commitment_ok_iff _ _).2 ⟨[0], rfl⟩⟩
  case committedPhoneNumber =>
    exact ⟨enc (0 : G), enc (0 : G) ++ [0], hp _ _ (enc_length _), (0 : G),
      (C12_committed_number _ _).1.2 ⟨[], by simp⟩, (C12_committed_number _ _).1.2 ⟨[0], rfl⟩⟩
  case phoneNumber =>
    refine ⟨top, List.replicate 32 0, hne, Scalar.fromBits top, ?_, ?_⟩
    · rw [phoneNumber_fromBytes, if_pos hl1]
    · rw [phoneNumber_fromBytes, if_pos hl2, htop]
  case rosterEntry =>
    refine ⟨enc (0 : G) ++ top, enc (0 : G) ++ List.replicate 32 0, ?_, ⟨0, Scalar.fromBits top⟩,
      (C12_roster_ok_iff _ _).2 ⟨top, rfl, rfl, rfl⟩,
      (C12_roster_ok_iff _ _).2 ⟨List.replicate 32 0, rfl, rfl, ?_⟩⟩
    · rw [Ne, append_eq_iff rfl]
      exact fun h => hne h.2
    · rw [htop]; rfl

example : Spec.Canonical .credential ∧ Decoder.credential.Same F
    (enc (3 : F) ++ enc (7 : F) ++ (1 : Scalar).toBytes)
    (enc (3 : F) ++ enc (7 : F) ++ (1 : Scalar).toBytes) :=
  ⟨trivial, ⟨⟨3, 7⟩, [1]⟩, (C07_credential_ok_iff _ _).2 ⟨1, by decide, rfl, rfl⟩,
    (C07_credential_ok_iff _ _).2 ⟨1, by decide, rfl, rfl⟩⟩

example : ¬ Spec.Canonical .rosterEntry := id

end Verif
