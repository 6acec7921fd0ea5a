import Verif.Model.Serde
import Verif.Props.CodecComposite
import Verif.Props.FfiPanic

/-!
# Values through serde and bincode (C69)
-/

set_option maxRecDepth 100000

namespace Verif

open Amacs

/-- The stored form of a value with byte form `body`: a 64-bit little-endian length, then the bytes. -/
def Spec.Framed (b body rest : Bytes) : Prop :=
  ∃ len : Bytes, len.length = 8 ∧ leVal len = body.length ∧ b = len ++ body ++ rest

theorem Spec.Framed.take {b body rest : Bytes} (h : Spec.Framed b body rest) :
    ¬ b.length < 8 ∧ leVal (b.take 8) = body.length ∧ ¬ (b.drop 8).length < leVal (b.take 8) ∧
      (b.drop 8).take (leVal (b.take 8)) = body ∧ (b.drop 8).drop (leVal (b.take 8)) = rest := by
  obtain ⟨len, h8, hv, rfl⟩ := h
  have h1 : (len ++ body ++ rest).take 8 = len := by
    rw [List.append_assoc, List.take_append_of_le_length (by omega), List.take_of_length_le (by omega)]
  have h2 : (len ++ body ++ rest).drop 8 = body ++ rest := by
    rw [List.append_assoc, List.drop_append_of_le_length (by omega), List.drop_of_length_le (by omega),
      List.nil_append]
  rw [h1, h2, hv]
  refine ⟨by simp; omega, rfl, by simp, by simp, by simp⟩

theorem Spec.framed_of {b : Bytes} (h1 : ¬ b.length < 8) (h2 : ¬ (b.drop 8).length < leVal (b.take 8)) :
    Spec.Framed b ((b.drop 8).take (leVal (b.take 8))) ((b.drop 8).drop (leVal (b.take 8))) := by
  refine ⟨b.take 8, by simp; omega, ?_, ?_⟩
  · rw [List.length_take]
    omega
  · rw [List.append_assoc, List.take_append_drop, List.take_append_drop]

section Generic
variable {ε α : Type} (fromBytes : Bytes → Res ε α)

/-- Reading succeeds exactly on framed byte forms that `from_bytes` accepts, and consumes the frame. -/
theorem C69_ok_iff (b rest : Bytes) (x : α) :
    Serde.deserialize fromBytes b = .ok (x, rest) ↔
      ∃ body, Spec.Framed b body rest ∧ fromBytes body = .ok x := by
  constructor
  · intro h
    rw [Serde.deserialize] at h
    split at h
    · cases h
    · rename_i h1
      simp only at h
      split at h
      · cases h
      · rename_i h2
        obtain ⟨y, hy, h⟩ := Res.bind_eq_ok.mp h
        simp only [Res.ok.injEq, Prod.mk.injEq] at h
        obtain ⟨rfl, rfl⟩ := h
        exact ⟨_, Spec.framed_of h1 h2, Res.mapErr_eq_ok.mp hy⟩
  · rintro ⟨body, hf, hx⟩
    obtain ⟨h1, -, h3, h4, h5⟩ := hf.take
    rw [Serde.deserialize, if_neg h1]
    simp only [if_neg h3, h4, h5, hx]
    rfl

/-- Reading panics exactly on framed byte forms on which `from_bytes` panics. -/
theorem C69_panic_iff (b : Bytes) :
    Serde.deserialize fromBytes b = .panic ↔
      ∃ body rest, Spec.Framed b body rest ∧ fromBytes body = .panic := by
  constructor
  · intro h
    rw [Serde.deserialize] at h
    split at h
    · cases h
    · rename_i h1
      simp only at h
      split at h
      · cases h
      · rename_i h2
        rcases Res.bind_eq_panic.mp h with h | ⟨y, -, h⟩
        · exact ⟨_, _, Spec.framed_of h1 h2, Res.mapErr_eq_panic.mp h⟩
        · cases h
  · rintro ⟨body, rest, hf, hx⟩
    obtain ⟨h1, -, h3, h4, h5⟩ := hf.take
    rw [Serde.deserialize, if_neg h1]
    simp only [if_neg h3, h4, hx]
    rfl

/-- What `serialize` writes, followed by anything, is framed; bodies of 2^64 bytes do not exist. -/
theorem framed_serialize {body : Bytes} (h : body.length < 2 ^ 64) (rest : Bytes) :
    Spec.Framed (Serde.serialize body ++ rest) body rest :=
  ⟨leBytes 8 body.length, leBytes_length _ _, leVal_leBytes_of_lt (by norm_num; omega), rfl⟩

/-- A value that survives `to_bytes` and `from_bytes` survives serde, in the middle of a stream. -/
theorem C69_roundtrip {body : Bytes} {x : α} (hlen : body.length < 2 ^ 64)
    (h : fromBytes body = .ok x) (rest : Bytes) :
    Serde.deserialize fromBytes (Serde.serialize body ++ rest) = .ok (x, rest) :=
  (C69_ok_iff fromBytes _ _ _).mpr ⟨body, framed_serialize hlen rest, h⟩

/-- Conversely serde never repairs a value: what is read back is what `from_bytes` makes of the
bytes. -/
theorem C69_roundtrip_iff {body : Bytes} (hlen : body.length < 2 ^ 64) (x : α) (rest : Bytes) :
    Serde.deserialize fromBytes (Serde.serialize body ++ rest) = .ok (x, rest) ↔
      fromBytes body = .ok x := by
  refine ⟨fun h => ?_, fun h => C69_roundtrip fromBytes hlen h rest⟩
  obtain ⟨body', hf, hx⟩ := (C69_ok_iff fromBytes _ _ _).mp h
  have e := (framed_serialize hlen rest).take.2.2.2.1
  rw [hf.take.2.2.2.1] at e
  rw [← e, hx]

example : ∃ (f : Bytes → Res Unit Bool) (body : Bytes), body.length < 2 ^ 64 ∧ f body = .ok true :=
  ⟨fun b => if b = [1, 2] then .ok true else .err (), [1, 2], by norm_num, if_pos rfl⟩

end Generic

variable {G : Type} [AddCommGroup G] [Module F G] [Ristretto G]

/-- Fixed-size types: every value of the protocol survives. -/
theorem C69_types (rest : Bytes) :
    (∀ p : SystemParameters G,
      Serde.deserialize SystemParameters.fromBytes (Serde.serialize p.toBytes ++ rest) = .ok (p, rest)) ∧
    (∀ t : Tag G, Serde.deserialize Tag.fromBytes (Serde.serialize t.toBytes ++ rest) = .ok (t, rest)) ∧
    (∀ (i : CredentialIssuance G) (a : Scalar), Spec.IssuanceOK i a →
      Serde.deserialize CredentialIssuance.fromBytes (Serde.serialize i.toBytes ++ rest) =
        .ok (i, rest)) ∧
    (∀ (p : CredentialPresentation G) (Cm : G), Spec.PresentationOK p Cm →
      Serde.deserialize CredentialPresentation.fromBytes (Serde.serialize p.toBytes ++ rest) =
        .ok (p, rest)) ∧
    (∀ (p : SignalCredentialPresentation G) (Cm : G), Spec.SignalPresentationOK p Cm →
      Serde.deserialize SignalCredentialPresentation.fromBytes (Serde.serialize p.toBytes ++ rest) =
        .ok (p, rest)) ∧
    (∀ c : G, Serde.deserialize Pedersen.fromBytes (Serde.serialize (Pedersen.toBytes c) ++ rest) =
      .ok (c, rest)) ∧
    (∀ r : RosterEntryCommitment G,
      Serde.deserialize RosterEntryCommitment.fromBytes (Serde.serialize r.toBytes ++ rest) =
        .ok (r, rest)) ∧
    (∀ k : Elgamal.Keypair G, k.secretKey.Reduced →
      Serde.deserialize Elgamal.Keypair.fromBytes (Serde.serialize k.toBytes ++ rest) =
        .ok (k, rest)) := by
  refine ⟨fun p => C69_roundtrip _ ?_ (C01_roundtrip p) rest,
    fun t => C69_roundtrip _ ?_ (C02_roundtrip t) rest,
    fun i a h => C69_roundtrip _ ?_ (C08_roundtrip i a h).1 rest,
    fun p Cm h => C69_roundtrip _ ?_ (C09_roundtrip p Cm h).1 rest,
    fun p Cm h => C69_roundtrip _ ?_ (C10_roundtrip p Cm h).1 rest,
    fun c => C69_roundtrip _ ?_ (C12_commitment_roundtrip c) rest,
    fun r => C69_roundtrip _ ?_ (C12_roster_roundtrip r) rest,
    fun k h => C69_roundtrip _ ?_ (C13_roundtrip k h).2.2 rest⟩
  · simp [SystemParameters.toBytes]
  · simp [Tag.toBytes]
  · rw [(C08_roundtrip i a h).2]; norm_num
  · rw [(C09_roundtrip p Cm h).2]; norm_num
  · rw [(C10_roundtrip p Cm h).2.2]; norm_num
  · simp [Pedersen.toBytes]
  · simp [RosterEntryCommitment.toBytes, CommittedPhoneNumber.toBytes, Pedersen.toBytes, Ephemeral.toBytes]
  · simp [Elgamal.Keypair.toBytes, Elgamal.PublicKey.toBytes, Elgamal.SecretKey.toBytes]

example : Spec.IssuanceOK (⟨3, ⟨⟨4, 5⟩, [1]⟩, ⟨1, ⟨1, 0, 1, 0⟩⟩⟩ : CredentialIssuance F) 1 ∧
    Spec.PresentationOK (⟨3, 4, [], [5], ⟨1, ⟨1, 0, 1⟩⟩⟩ : CredentialPresentation F) 5 ∧
    (⟨1, 1⟩ : Elgamal.Keypair F).secretKey.Reduced := by
  refine ⟨?_, ?_, by decide +kernel⟩
  · exact ⟨rfl, by decide, by decide, by decide, by decide, by decide, by decide⟩
  · exact ⟨rfl, rfl, by decide, by decide, by decide, by decide⟩

/-- Issuers of the protocol survive. -/
theorem C69_issuer (checks : Bool) (i : SignalIssuer G) (x1 : Scalar) (X1 : G)
    (hX : i.issuer.keypair.publicKey.Xn = [X1]) (hx : i.issuer.keypair.secretKey.xn = [x1])
    (h0 : i.issuer.keypair.secretKey.x0.Reduced) (h1 : x1.Reduced) (rest : Bytes) :
    Serde.deserialize (SignalIssuer.fromBytes checks) (Serde.serialize i.toBytes ++ rest) =
      .ok (i, rest) := by
  refine C69_roundtrip _ ?_ (C06_signal_roundtrip checks i (by rw [hX, hx]; rfl) (by rw [hX]; simp) h0
    (by rw [hx]; simpa using h1)) rest
  simp [SignalIssuer.toBytes, Issuer.toBytes, SystemParameters.toBytes, Keypair.toBytes,
    PublicKey.toBytes, SecretKey.toBytes, hX, hx]

example : ∃ (i : SignalIssuer F) (x1 : Scalar) (X1 : F), i.issuer.keypair.publicKey.Xn = [X1] ∧
    i.issuer.keypair.secretKey.xn = [x1] ∧ i.issuer.keypair.secretKey.x0.Reduced ∧ x1.Reduced :=
  ⟨⟨⟨⟨1, 2⟩, ⟨⟨[10]⟩, ⟨⟨3, by decide⟩, [⟨5, by decide⟩]⟩⟩⟩⟩, _, _, rfl, rfl, by decide +kernel,
    by decide +kernel⟩

/-- Users survive exactly when C11 says their bytes do. -/
theorem C69_user_iff (u : SignalUser G) (hlen : u.toBytes.length < 2 ^ 64) (rest : Bytes) :
    Serde.deserialize SignalUser.fromBytes (Serde.serialize u.toBytes ++ rest) = .ok (u, rest) ↔
      u.user.issuerParameters.Xn.length = 1 ∧ (∀ k, u.user.key = some k → Spec.KeySaves k) ∧
        (∀ c, u.user.credential = some c → Spec.CredentialSaves c) := by
  rw [C69_roundtrip_iff _ hlen, C11_signal_roundtrip_iff, C11_roundtrip_iff]

/-- A user with a credential, who survives. -/
example : ∃ (u : SignalUser F) (c : Credential F), u.toBytes.length < 2 ^ 64 ∧
    u.user.issuerParameters.Xn.length = 1 ∧ u.user.key = none ∧ u.user.credential = some c ∧
    Spec.CredentialSaves c :=
  ⟨⟨⟨7, by decide⟩, ⟨⟨1, 2⟩, ⟨[10]⟩, none, some ⟨⟨2, 76⟩, [⟨7, by decide⟩]⟩⟩⟩, _, by decide +kernel, rfl,
    rfl, rfl, _, rfl, by decide +kernel, by decide +kernel⟩

/-- Deserialising stored data can panic: the eight zero bytes that frame an empty value already do, for
each of these types. -/
theorem C69_false :
    Serde.deserialize SecretKey.fromBytes (List.replicate 8 0) = .panic ∧
    (Serde.deserialize (Keypair.fromBytes true) (List.replicate 8 0) : Res _ (Keypair G × _)) =
      .panic ∧
    (Serde.deserialize CredentialIssuance.fromBytes (List.replicate 8 0) :
      Res _ (CredentialIssuance G × _)) = .panic ∧
    (Serde.deserialize CredentialPresentation.fromBytes (List.replicate 8 0) :
      Res _ (CredentialPresentation G × _)) = .panic ∧
    (Serde.deserialize RosterEntryCommitment.fromBytes (List.replicate 8 0) :
      Res _ (RosterEntryCommitment G × _)) = .panic ∧
    (Serde.deserialize SignalUser.fromBytes (List.replicate 8 0) : Res _ (SignalUser G × _)) = .panic := by
  have hf : Spec.Framed (List.replicate 8 0) [] [] := ⟨List.replicate 8 0, rfl, rfl, rfl⟩
  refine ⟨?_, ?_, ?_, ?_, ?_, ?_⟩ <;> rw [C69_panic_iff] <;> refine ⟨[], [], hf, ?_⟩
  · exact C04_empty_panics
  · exact C05_short_panics (by simp)
  · exact C08_short_panics
  · exact C09_short_panics
  · exact (C12_roster_panic_iff _).mpr (.inl (by simp))
  · exact (C11_signal_panic_iff _).mpr (by simp)

/-- The other types never panic through serde. -/
theorem C69_no_panic_partial (checks : Bool) (b : Bytes) :
    (Serde.deserialize SystemParameters.fromBytes b : Res _ (SystemParameters G × _)) ≠ .panic ∧
    (Serde.deserialize Tag.fromBytes b : Res _ (Tag G × _)) ≠ .panic ∧
    (Serde.deserialize PublicKey.fromBytes b : Res _ (PublicKey G × _)) ≠ .panic ∧
    (Serde.deserialize (Issuer.fromBytes checks) b : Res _ (Issuer G × _)) ≠ .panic ∧
    (Serde.deserialize (SignalIssuer.fromBytes checks) b : Res _ (SignalIssuer G × _)) ≠ .panic ∧
    Serde.deserialize CredentialRequest.fromBytes b ≠ .panic ∧
    (Serde.deserialize Credential.fromBytes b : Res _ (Credential G × _)) ≠ .panic ∧
    (Serde.deserialize SignalCredentialPresentation.fromBytes b :
      Res _ (SignalCredentialPresentation G × _)) ≠ .panic ∧
    (Serde.deserialize VerifiedSignalCredential.fromBytes b :
      Res _ (VerifiedSignalCredential G × _)) ≠ .panic ∧
    (Serde.deserialize User.fromBytes b : Res _ (User G × _)) ≠ .panic := by
  refine ⟨?_, ?_, ?_, ?_, ?_, ?_, ?_, ?_, ?_, ?_⟩ <;> rw [Ne, C69_panic_iff] <;>
    rintro ⟨body, rest, -, h⟩
  · exact C01_no_panic _ h
  · exact C02_no_panic _ h
  · exact C03_no_panic _ h
  · exact C06_no_panic _ _ h
  · exact signalIssuer_ne_panic h
  · exact C07_request_no_panic _ h
  · exact C07_credential_no_panic _ h
  · exact C10_no_panic _ h
  · exact verifiedSignal_ne_panic h
  · exact C11_no_panic _ h

end Verif
