import Verif.Props.Show

/-!
# Error conversions (C60)
-/

set_option maxRecDepth 100000

namespace Verif

open Amacs

variable {G : Type} [AddCommGroup G] [Module F G] [Ristretto G]

/-- Errors of `Keypair::from_bytes` on inputs of at least 32 bytes, by the first thing wrong: the
length, then the points, then the scalars. -/
theorem keypair_errors (checks : Bool) {b : Bytes} (h32 : 32 ≤ b.length) :
    ((b.length - 32) % 64 ≠ 0 → (Keypair.fromBytes checks b : Res _ (Keypair G)) =
      .err .keypairDeserialisation) ∧
    ((b.length - 32) % 64 = 0 →
      (∀ Xs : List G, b.take ((b.length - 32) / 2) ≠ (Xs.map enc).flatten) →
      (Keypair.fromBytes checks b : Res _ (Keypair G)) = .err .pointDecompressionError) ∧
    ((b.length - 32) % 64 = 0 →
      (∃ Xs : List G, b.take ((b.length - 32) / 2) = (Xs.map enc).flatten) →
      (∀ xs : List Scalar, (∀ x ∈ xs, x.Reduced) →
        b.drop ((b.length - 32) / 2) ≠ (xs.map Scalar.toBytes).flatten) →
      (Keypair.fromBytes checks b : Res _ (Keypair G)) = .err .scalarFormatError) := by
  rw [Keypair.fromBytes, usizeSub, if_pos h32]
  simp only [Res.ok_bind]
  rw [usizeSub, if_pos (by omega)]
  simp only [Res.ok_bind]
  obtain ⟨x, y, rfl, hx⟩ := exists_split (b := b) (n := (b.length - 32) / 2) (by omega)
  rw [slice_left hx, sliceFrom_right hx]
  rw [← hx, take_left rfl, drop_left rfl]
  rw [List.length_append] at hx h32 ⊢
  refine ⟨fun h => ?_, fun h hbad => ?_, fun h hok hbad => ?_⟩
  · rw [if_pos (by omega)]
  · rw [if_neg (by omega)]
    simp only [Res.ok_bind]
    rw [C03_bad_point (by omega) hbad]
    rfl
  · rw [if_neg (by omega)]
    obtain ⟨Xs, rfl⟩ := hok
    simp only [Res.ok_bind]
    rw [(C03_ok_iff _ ⟨Xs⟩).2 rfl, Res.ok_bind, C04_bad_scalar (by rintro rfl; simp at hx h32; omega) (by omega) hbad]
    rfl

/-- The complete error table of `Issuer::from_bytes` (and `SignalIssuer::from_bytes`, C06_signal): the
first thing wrong decides. -/
theorem C60_issuer_partial (checks : Bool) (b : Bytes) :
    (b.length < 160 → (Issuer.fromBytes checks b : Res _ (Issuer G)) = .err .missingData) ∧
    (160 ≤ b.length → (∀ p q : G, b.take 64 ≠ enc p ++ enc q) →
      (Issuer.fromBytes checks b : Res _ (Issuer G)) = .err .pointDecompressionError) ∧
    (160 ≤ b.length → (∃ p q : G, b.take 64 = enc p ++ enc q) →
      let k := b.drop 64
      let n := (k.length - 32) / 2
      ((k.length - 32) % 64 ≠ 0 →
        (Issuer.fromBytes checks b : Res _ (Issuer G)) = .err .noIssuerKey) ∧
      ((k.length - 32) % 64 = 0 → (∀ Xs : List G, k.take n ≠ (Xs.map enc).flatten) →
        (Issuer.fromBytes checks b : Res _ (Issuer G)) = .err .noIssuerParameters) ∧
      ((k.length - 32) % 64 = 0 → (∃ Xs : List G, k.take n = (Xs.map enc).flatten) →
        (∀ xs : List Scalar, (∀ x ∈ xs, x.Reduced) →
          k.drop n ≠ (xs.map Scalar.toBytes).flatten) →
        (Issuer.fromBytes checks b : Res _ (Issuer G)) = .err .scalarFormatError)) := by
  refine ⟨fun h => ?_, fun hl hbad => ?_, fun hl hok => ?_⟩
  · rw [Issuer.fromBytes, if_pos (by simpa using h)]
  · obtain ⟨x, y, rfl, hx⟩ := exists_split (b := b) (n := 64) (by omega)
    rw [take_left hx] at hbad
    rw [Issuer.fromBytes, if_neg (by simpa using hl), slice_left hx, sliceFrom_right hx]
    simp only [Res.ok_bind]
    rw [C01_bad_point hx hbad]
    rfl
  · obtain ⟨x, y, rfl, hx⟩ := exists_split (b := b) (n := 64) (by omega)
    rw [take_left hx] at hok
    obtain ⟨p, q, rfl⟩ := hok
    have hy : 32 ≤ y.length := by rw [List.length_append] at hl; omega
    obtain ⟨h1, h2, h3⟩ := keypair_errors (G := G) checks hy
    rw [drop_left hx]
    intro k n
    rw [Issuer.fromBytes, if_neg (by simpa using hl), slice_left hx, sliceFrom_right hx]
    simp only [Res.ok_bind]
    rw [(C01_ok_iff _ ⟨p, q⟩).2 rfl, Res.ok_bind]
    refine ⟨fun h => ?_, fun h g => ?_, fun h g g' => ?_⟩
    · rw [h1 h]; rfl
    · rw [h2 h g]; rfl
    · rw [h3 h g g']; rfl

/-- "Keypair failures surface as NoIssuerKey" is false: an undecodable public key point surfaces as
NoIssuerParameters, and a non-canonical secret scalar as ScalarFormatError. -/
theorem C60_keypair_false :
    (Issuer.fromBytes true (enc (1 : F) ++ enc (5 : F) ++ List.replicate 32 255 ++
      Scalar.toBytes 1 ++ Scalar.toBytes 1) : Res _ (Issuer F)) = .err .noIssuerParameters ∧
    (Issuer.fromBytes true (enc (1 : F) ++ enc (5 : F) ++ enc (5 : F) ++
      List.replicate 32 255 ++ Scalar.toBytes 1) : Res _ (Issuer F)) = .err .scalarFormatError ∧
    (Issuer.fromBytes true (enc (1 : F) ++ enc (5 : F) ++ enc (5 : F) ++
      Scalar.toBytes 1 ++ Scalar.toBytes 1 ++ [0]) : Res _ (Issuer F)) = .err .noIssuerKey := by
  refine ⟨?_, ?_, ?_⟩ <;> decide +kernel

/-- The complete error table of `User::from_bytes`: the first thing wrong decides. `MissingData` means
the length or the ElGamal key; `NoIssuerParameters` means the issuer point or the credential's tag. -/
theorem C60_user (b : Bytes) :
    (b.length ≠ 256 → (User.fromBytes b : Res _ (User G)) = .err .missingData) ∧
    (b.length = 256 → (∀ p q : G, b.take 64 ≠ enc p ++ enc q) →
      (User.fromBytes b : Res _ (User G)) = .err .pointDecompressionError) ∧
    (b.length = 256 → (∃ p q : G, b.take 64 = enc p ++ enc q) →
      ((∀ X : G, (b.drop 64).take 32 ≠ enc X) →
        (User.fromBytes b : Res _ (User G)) = .err .noIssuerParameters) ∧
      ((∃ X : G, (b.drop 64).take 32 = enc X) →
        ((b.drop 96).take 64 ≠ List.replicate 64 0 →
          (∀ (s : Scalar) (K : G), s.Reduced → (b.drop 96).take 64 ≠ s.toBytes ++ enc K) →
          (User.fromBytes b : Res _ (User G)) = .err .missingData) ∧
        ((b.drop 96).take 64 = List.replicate 64 0 ∨
          (∃ (s : Scalar) (K : G), s.Reduced ∧ (b.drop 96).take 64 = s.toBytes ++ enc K) →
          ((∀ p q : G, (b.drop 160).take 64 ≠ enc p ++ enc q) →
            (User.fromBytes b : Res _ (User G)) = .err .noIssuerParameters) ∧
          ((∃ p q : G, (b.drop 160).take 64 = enc p ++ enc q) →
            (∀ a : Scalar, a.Reduced → b.drop 224 ≠ a.toBytes) →
            (User.fromBytes b : Res _ (User G)) = .err .scalarFormatError)))) := by
  refine ⟨fun h => by rw [User.fromBytes, if_pos h], ?_⟩
  by_cases hl : b.length = 256
  swap
  · exact ⟨fun h => absurd h hl, fun h => absurd h hl⟩
  obtain ⟨x1, b1, rfl, h1⟩ := exists_split (b := b) (n := 64) (by omega)
  have l1 : b1.length = 192 := by rw [List.length_append] at hl; omega
  obtain ⟨x2, b2, rfl, h2⟩ := exists_split (b := b1) (n := 32) (by omega)
  have l2 : b2.length = 160 := by rw [List.length_append] at l1; omega
  obtain ⟨x3, b3, rfl, h3⟩ := exists_split (b := b2) (n := 64) (by omega)
  have l3 : b3.length = 96 := by rw [List.length_append] at l2; omega
  have d2 : (x1 ++ (x2 ++ (x3 ++ b3))).drop 96 = x3 ++ b3 := by
    rw [← List.append_assoc]
    exact drop_left (by rw [List.length_append]; omega)
  have d3 : (x1 ++ (x2 ++ (x3 ++ b3))).drop 160 = b3 := by
    rw [← List.append_assoc, ← List.append_assoc]
    exact drop_left (by simp only [List.length_append]; omega)
  have d4 : (x1 ++ (x2 ++ (x3 ++ b3))).drop 224 = b3.drop 64 := by
    conv_rhs => rw [← d3]
    rw [List.drop_drop]
  have s1 : slice (x1 ++ (x2 ++ (x3 ++ b3))) 0 64 = (.ok x1 : Res CredentialError _) := slice_left h1
  have s2 : slice (x1 ++ (x2 ++ (x3 ++ b3))) 64 96 = (.ok x2 : Res CredentialError _) := by
    rw [slice_ok (by omega) (by omega), drop_left h1, take_left h2]
  have s3 : slice (x1 ++ (x2 ++ (x3 ++ b3))) 96 160 = (.ok x3 : Res CredentialError _) := by
    rw [slice_ok (by omega) (by omega), d2, take_left h3]
  have s4 : slice (x1 ++ (x2 ++ (x3 ++ b3))) 160 256 = (.ok b3 : Res CredentialError _) := by
    rw [slice_ok (by omega) (by omega), d3, List.take_of_length_le (by omega)]
  have s5 : sliceFrom (x1 ++ (x2 ++ (x3 ++ b3))) 160 = (.ok b3 : Res CredentialError _) := by
    rw [sliceFrom_ok (by omega), d3]
  rw [take_left h1, drop_left h1, take_left h2, d2, take_left h3, d3, d4, User.fromBytes,
    if_neg (by simpa using hl), s1, s2, s3, s4, s5]
  simp only [Res.ok_bind]
  refine ⟨fun _ hbad => by rw [C01_bad_point h1 hbad]; rfl, fun _ hok => ?_⟩
  obtain ⟨p, q, rfl⟩ := hok
  rw [(C01_ok_iff _ ⟨p, q⟩).2 rfl, Res.ok_bind]
  refine ⟨fun hbad => ?_, fun hok => ?_⟩
  · rw [C03_bad_point (by omega)]
    · rfl
    · intro Xs hXs
      have hn : Xs.length = 1 := by
        have := congrArg List.length hXs
        rw [flatten_map_length (fun a => enc_length a) Xs] at this
        omega
      obtain ⟨X, rfl⟩ := List.length_eq_one_iff.1 hn
      exact hbad X (by rw [hXs]; simp)
  obtain ⟨X, rfl⟩ := hok
  rw [(C03_ok_iff _ ⟨[X]⟩).2 (by simp), Res.mapErr_ok, Res.ok_bind]
  have hkey : ∀ k : Elgamal.Keypair G, Elgamal.Keypair.fromBytes x3 = .ok k →
      ∃ (s : Scalar) (K : G), s.Reduced ∧ x3 = s.toBytes ++ enc K := by
    intro k hk
    obtain ⟨e1, e2⟩ := (C13_keypair_ok_iff _ _).1 hk
    exact ⟨_, _, e1, e2⟩
  refine ⟨fun hz hbad => ?_, fun hok => ?_⟩
  · rw [User.decodeKey, if_neg hz]
    cases hk : (Elgamal.Keypair.fromBytes x3 : Res _ (Elgamal.Keypair G)) with
    | ok k =>
      obtain ⟨s, K, e1, e2⟩ := hkey k hk
      exact absurd e2 (hbad s K e1)
    | panic => rw [(C13_panic_iff (G := G) _).2.2] at hk; exact absurd h3 hk
    | err e =>
      have : e = .missingData := by
        rw [Elgamal.Keypair.fromBytes, slice_ok (by omega) (by omega),
          slice_ok (by omega) (by omega)] at hk
        simp only [Res.assert, h3, if_true, Res.ok_bind] at hk
        rw [Res.bind_eq_err] at hk
        rcases hk with hk | ⟨s, _, hk⟩
        · exact ((C13_err (G := G) _ e).2.1 hk).1
        · rw [Res.bind_eq_err] at hk
          rcases hk with hk | ⟨s, _, hk⟩
          · exact ((C13_err _ e).1.1 hk).1
          · cases hk
      rw [this]; rfl
  · have hk : ∃ k, (User.decodeKey x3 : Res _ (Option (Elgamal.Keypair G))) = .ok k := by
      rcases hok with h | ⟨s, K, e1, e2⟩
      · exact ⟨none, by rw [User.decodeKey, if_pos h]⟩
      · by_cases hz : x3 = List.replicate 64 0
        · exact ⟨none, by rw [User.decodeKey, if_pos hz]⟩
        · refine ⟨some ⟨s, K⟩, ?_⟩
          rw [User.decodeKey, if_neg hz, (C13_keypair_ok_iff _ ⟨s, K⟩).2 ⟨e1, e2⟩]
          rfl
    obtain ⟨k, hk⟩ := hk
    rw [hk, Res.ok_bind]
    obtain ⟨c1, c2⟩ := C07_credential_bad (G := G) l3
    refine ⟨fun hbad => ?_, fun hok hbad => ?_⟩
    · rw [User.decodeCredential, if_neg, c1 hbad]
      · rfl
      · rintro rfl
        refine hbad 0 0 ?_
        rw [Ristretto.enc_zero]
        rfl
    · rw [User.decodeCredential, if_neg, c2 hok hbad]
      · rfl
      · rintro rfl
        refine hbad 0 ?_ ?_
        · exact ell_pos
        · rw [toBytes_eq_zero.2 rfl]
          rfl

/-- Over-long numbers are `MissingData` wherever a number enters (28 to 32 bytes panic). -/
theorem C60_phone {R : Type} [RngCore R] (O : Oracle) (i : SignalIssuer G) (sp : SystemParameters G)
    (ip : PublicKey G) (k : Option (Elgamal.Keypair G)) (b : Bytes) (hb : 33 ≤ b.length) (rng : R)
    (entropy : Bytes) :
    (i.issue O b rng entropy).1 = .err .missingData ∧
    SignalUser.new sp ip k b = .err .missingData ∧
    (RosterEntryCommitment.create b sp rng).1 = .err .lengthExceeded := by
  have h := (C16_bytes_err_iff b _).2 ⟨hb, rfl⟩
  refine ⟨(C46_signal O i b rng entropy).1 hb, ?_, ?_⟩
  · rw [SignalUser.new, h]; rfl
  · simp only [RosterEntryCommitment.create, h]; rfl

/-- A user whose issuer point is bad, and one whose tag is bad. -/
example :
    (User.fromBytes (enc (1 : F) ++ enc (5 : F) ++ List.replicate 32 255 ++ List.replicate 160 0) :
      Res _ (User F)) = .err .noIssuerParameters ∧
    (User.fromBytes (enc (1 : F) ++ enc (5 : F) ++ enc (5 : F) ++ List.replicate 64 0 ++
      List.replicate 96 255) : Res _ (User F)) = .err .noIssuerParameters := by
  constructor <;> decide +kernel

example : 33 ≤ (List.replicate 40 (1 : UInt8)).length := by decide

/-- C60: bytes that should be a roster entry and are not a point are an invalid phone number, on
their own or with an opening, and missing data in a presentation. -/
theorem C60_commitment {b : Bytes} (hb : 32 ≤ b.length) (h : ∀ P : G, b.take 32 ≠ enc P) :
    (CommittedPhoneNumber.fromBytes b : Res _ G) = .err .invalidPhoneNumber ∧
    (RosterEntryCommitment.fromBytes b : Res _ (RosterEntryCommitment G)) = .err .invalidPhoneNumber ∧
    (SignalCredentialPresentation.fromBytes b : Res _ (SignalCredentialPresentation G)) =
      .err .missingData := by
  obtain ⟨x, y, rfl, hx⟩ := exists_split (b := b) (n := 32) hb
  have ht : (x ++ y).take 32 = x := by rw [← hx, List.take_left]
  rw [ht] at h
  have hd : (dec x : Option G) = none := by
    cases hd : (dec x : Option G) with
    | none => rfl
    | some P => exact absurd (dec_eq_some.1 hd).symm (h P)
  have hc : (CommittedPhoneNumber.fromBytes x : Res _ G) = .err .invalidPhoneNumber := by
    rw [committed_of_length hx, hd]; rfl
  refine ⟨?_, ?_, ?_⟩
  · rw [CommittedPhoneNumber.fromBytes, Pedersen.fromBytes, slice_left hx]
    simp only [Res.ok_bind, copyFromSlice_ok hx, hd]
    rfl
  · rw [RosterEntryCommitment.fromBytes, slice_left hx]
    simp only [Res.ok_bind, hc]
    rfl
  · rw [SignalCredentialPresentation.fromBytes]
    split
    · rfl
    · rw [slice_left hx]
      simp only [Res.ok_bind, hc]
      rfl

example : ∀ P : F, (List.replicate 64 (255 : UInt8)).take 32 ≠ enc P := by
  intro P h
  have h1 : (dec (enc P) : Option F) = none := by rw [← h]; decide +kernel
  rw [dec_enc] at h1
  cases h1

end Verif
