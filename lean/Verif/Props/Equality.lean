import Verif.Props.CodecComposite

/-!
# C101: equal encodings and equal values

The types of the library derive `PartialEq` (for example amacs.rs:118, 158, credential.rs:67, 156, 202, 248,
parameters.rs:45, user.rs:46, signal credential.rs:51): `==` compares field by field, scalars by their 32
bytes and points as group elements, which is equality of the values of the model. Whether comparing
`to_bytes()` gives the same answer is what this file is about.
-/

namespace Verif

open Amacs

variable {G : Type} [AddCommGroup G] [Module F G] [Ristretto G]

/-- Two scalars a serialiser that reduces modulo the group order cannot tell apart. -/
def Spec.SameMod (s t : Scalar) : Prop := leVal s.toBytes % ell = leVal t.toBytes % ell

/-- One 32-byte block per scalar. -/
def Spec.scalarBlocks (ss : List Scalar) : List Bytes := ss.map Scalar.toBytes

/-- One 32-byte block per point. -/
def Spec.pointBlocks (Ps : List G) : List Bytes := Ps.map enc

theorem flatten_blocks_inj {xs ys : List Bytes} (hx : ∀ x ∈ xs, x.length = 32)
    (hy : ∀ y ∈ ys, y.length = 32) (h : xs.flatten = ys.flatten) : xs = ys := by
  induction xs generalizing ys with
  | nil =>
    cases ys with
    | nil => rfl
    | cons y ys =>
      have := congrArg List.length h
      simp [hy y (by simp)] at this
      omega
  | cons x xs ih =>
    cases ys with
    | nil =>
      have := congrArg List.length h
      simp [hx x (by simp)] at this
    | cons y ys =>
      rw [List.flatten_cons, List.flatten_cons,
        append_eq_iff (by rw [hx x (by simp), hy y (by simp)])] at h
      rw [h.1, ih (fun a ha => hx a (by simp [ha])) (fun a ha => hy a (by simp [ha])) h.2]

theorem pointBlocks_length {Ps : List G} : ∀ x ∈ Spec.pointBlocks Ps, x.length = 32 := by
  intro x hx
  obtain ⟨P, _, rfl⟩ := List.mem_map.1 hx
  simp

theorem scalarBlocks_length {ss : List Scalar} : ∀ x ∈ Spec.scalarBlocks ss, x.length = 32 := by
  intro x hx
  obtain ⟨P, _, rfl⟩ := List.mem_map.1 hx
  simp

theorem scalarBlocks_inj {ss ts : List Scalar} (h : Spec.scalarBlocks ss = Spec.scalarBlocks ts) :
    ss = ts := List.map_injective_iff.2 (fun _ _ h => Scalar.toBytes_inj h) h

theorem pointBlocks_inj {Ps Qs : List G} (h : Spec.pointBlocks Ps = Spec.pointBlocks Qs) : Ps = Qs :=
  List.map_injective_iff.2 (fun _ _ h => enc_inj h) h

theorem scalars_flatten_inj {ss ts : List Scalar}
    (h : (ss.map Scalar.toBytes).flatten = (ts.map Scalar.toBytes).flatten) : ss = ts :=
  scalarBlocks_inj (flatten_blocks_inj scalarBlocks_length scalarBlocks_length h)

theorem points_flatten_inj {Ps Qs : List G} (h : (Ps.map enc).flatten = (Qs.map enc).flatten) :
    Ps = Qs := pointBlocks_inj (flatten_blocks_inj pointBlocks_length pointBlocks_length h)

theorem sameMod_iff {s t : Scalar} : Spec.SameMod s t ↔ s.val = t.val := by
  rw [Spec.SameMod, Scalar.leVal_toBytes, Scalar.leVal_toBytes, Scalar.val, Scalar.val,
    ZMod.natCast_eq_natCast_iff']

theorem encScalar_eq_iff {s t : Scalar} :
    Bincode.encScalar s = Bincode.encScalar t ↔ Spec.SameMod s t := by
  rw [sameMod_iff, Bincode.encScalar, Bincode.encScalar, append_eq_iff rfl]
  constructor
  · rintro ⟨_, h⟩
    exact Scalar.ofF_inj (Scalar.toBytes_inj h)
  · intro h
    rw [h]
    exact ⟨rfl, rfl⟩

theorem encScalars_eq_iff {ss ts : List Scalar} (hl : ss.length = ts.length) :
    Bincode.encScalars ss = Bincode.encScalars ts ↔ List.Forall₂ Spec.SameMod ss ts := by
  induction ss generalizing ts with
  | nil =>
    cases ts with
    | nil => simp
    | cons => simp at hl
  | cons s ss ih =>
    cases ts with
    | nil => simp at hl
    | cons t ts =>
      have e : ∀ (a : Scalar) (l : List Scalar), Bincode.encScalars (a :: l) =
        Bincode.encScalar a ++ Bincode.encScalars l := fun _ _ => rfl
      rw [e, e, append_eq_iff (by simp [Bincode.encScalar]), encScalar_eq_iff,
        ih (by simpa using hl), List.forall₂_cons]

/-- Proofs whose scalars agree modulo the group order. -/
def Spec.SameIssuanceProof (p q : IssuanceRevealed.Proof) : Prop :=
  Spec.SameMod p.challenge q.challenge ∧ Spec.SameMod p.responses.x0 q.responses.x0 ∧
    Spec.SameMod p.responses.x1 q.responses.x1 ∧
    Spec.SameMod p.responses.x0_tilde q.responses.x0_tilde ∧
    Spec.SameMod p.responses.m1x1 q.responses.m1x1

def Spec.SameCredentialProof (p q : ValidCredential.Proof) : Prop :=
  Spec.SameMod p.challenge q.challenge ∧ Spec.SameMod p.responses.m0 q.responses.m0 ∧
    Spec.SameMod p.responses.z0 q.responses.z0 ∧
    Spec.SameMod p.responses.minus_zQ q.responses.minus_zQ

def Spec.SameRosterProof (p q : CommittedValuesEqual.Proof) : Prop :=
  Spec.SameMod p.challenge q.challenge ∧ Spec.SameMod p.responses.m0 q.responses.m0 ∧
    Spec.SameMod p.responses.z0 q.responses.z0 ∧ Spec.SameMod p.responses.z1 q.responses.z1

theorem issuanceProof_eq_iff {p q : IssuanceRevealed.Proof} :
    p.serialize = q.serialize ↔ Spec.SameIssuanceProof p q := by
  rw [IssuanceRevealed.Proof.serialize, IssuanceRevealed.Proof.serialize, encScalars_eq_iff (by simp)]
  simp [Spec.SameIssuanceProof]

theorem credentialProof_eq_iff {p q : ValidCredential.Proof} :
    p.serialize = q.serialize ↔ Spec.SameCredentialProof p q := by
  rw [ValidCredential.Proof.serialize, ValidCredential.Proof.serialize, encScalars_eq_iff (by simp)]
  simp [Spec.SameCredentialProof]

theorem rosterProof_eq_iff {p q : CommittedValuesEqual.Proof} :
    p.serialize = q.serialize ↔ Spec.SameRosterProof p q := by
  rw [CommittedValuesEqual.Proof.serialize, CommittedValuesEqual.Proof.serialize, encScalars_eq_iff (by simp)]
  simp [Spec.SameRosterProof]

theorem append_eq_iff_right {x y x' y' : Bytes} (h : y.length = y'.length) :
    x ++ y = x' ++ y' ↔ x = x' ∧ y = y' :=
  ⟨fun he => List.append_inj' he h, fun ⟨h1, h2⟩ => by rw [h1, h2]⟩

/-! ## Types for which equal bytes are equal values -/

/-- Whatever the values are, equal encodings mean equal values. -/
theorem C101_injective :
    Function.Injective (SystemParameters.toBytes (G := G)) ∧
    Function.Injective (Tag.toBytes (G := G)) ∧
    Function.Injective (PublicKey.toBytes (G := G)) ∧
    Function.Injective SecretKey.toBytes ∧
    Function.Injective CredentialRequest.toBytes ∧
    Function.Injective (Credential.toBytes (G := G)) ∧
    Function.Injective (Pedersen.toBytes (G := G)) ∧
    Function.Injective Ephemeral.toBytes ∧
    Function.Injective (Elgamal.PublicKey.toBytes (G := G)) ∧
    Function.Injective Elgamal.SecretKey.toBytes ∧
    Function.Injective (Elgamal.Keypair.toBytes (G := G)) ∧
    Function.Injective PhoneNumber.toBytes ∧
    Function.Injective (CommittedPhoneNumber.toBytes (G := G)) ∧
    Function.Injective (RosterEntryCommitment.toBytes (G := G)) := by
  refine ⟨?_, ?_, ?_, ?_, ?_, ?_, fun _ _ h => enc_inj h, fun _ _ h => Scalar.toBytes_inj h,
    fun _ _ h => enc_inj h, fun _ _ h => Scalar.toBytes_inj h, ?_, fun _ _ h => Scalar.toBytes_inj h,
    fun _ _ h => enc_inj h, ?_⟩
  · intro a b h
    simp only [SystemParameters.toBytes] at h
    rw [append_eq_iff (by simp)] at h
    exact SystemParameters.ext (enc_inj h.1) (enc_inj h.2)
  · intro a b h
    simp only [Tag.toBytes] at h
    rw [append_eq_iff (by simp)] at h
    exact Tag.ext (enc_inj h.1) (enc_inj h.2)
  · intro a b h
    exact PublicKey.ext (points_flatten_inj h)
  · intro a b h
    simp only [SecretKey.toBytes] at h
    rw [append_eq_iff (by simp)] at h
    exact SecretKey.ext (Scalar.toBytes_inj h.1) (scalars_flatten_inj h.2)
  · intro a b h
    exact CredentialRequest.ext (scalars_flatten_inj h)
  · intro a b h
    simp only [Credential.toBytes, Tag.toBytes] at h
    rw [append_eq_iff (by simp), append_eq_iff (by simp)] at h
    exact Credential.ext (Tag.ext (enc_inj h.1.1) (enc_inj h.1.2)) (scalars_flatten_inj h.2)
  · intro a b h
    simp only [Elgamal.Keypair.toBytes, Elgamal.SecretKey.toBytes, Elgamal.PublicKey.toBytes] at h
    rw [append_eq_iff (by simp)] at h
    exact Elgamal.Keypair.ext (Scalar.toBytes_inj h.1) (enc_inj h.2)
  · intro a b h
    simp only [RosterEntryCommitment.toBytes, CommittedPhoneNumber.toBytes, Pedersen.toBytes,
      Ephemeral.toBytes] at h
    rw [append_eq_iff (by simp)] at h
    exact RosterEntryCommitment.ext (enc_inj h.1) (Scalar.toBytes_inj h.2)

/-- Two different numbers, kept apart although they agree modulo the group order. -/
example : PhoneNumber.toBytes 1 ≠ PhoneNumber.toBytes ⟨1 + ell, by norm_num [ell]⟩ := by
  intro h
  have := C101_injective (G := F).2.2.2.2.2.2.2.2.2.2.2.1 h
  simp only [Scalar.ext_iff] at this
  revert this
  decide

/-- Exactly which pairs of issuances have the same encoding: the proofs may differ by multiples of the
group order in their scalars, nothing else may differ. -/
theorem C101_issuance_iff (i j : CredentialIssuance G) :
    i.toBytes = j.toBytes ↔ i.secretKeyCommitment = j.secretKeyCommitment ∧
      i.credential = j.credential ∧ Spec.SameIssuanceProof i.proof j.proof := by
  simp only [CredentialIssuance.toBytes, Pedersen.toBytes]
  rw [append_eq_iff_right (by simp [IssuanceRevealed.Proof.serialize, encScalars_length]),
    append_eq_iff (by simp), enc_inj_iff, issuanceProof_eq_iff,
    (C101_injective (G := G)).2.2.2.2.2.1.eq_iff, and_assoc]

/-- Exactly which pairs of presentations have the same encoding: apart from the proof scalars, the blocks of
the revealed attributes followed by those of the blinded ones have to agree, and where the one list ends and
the other begins is not recorded. -/
theorem C101_presentation_iff (p q : CredentialPresentation G) :
    p.toBytes = q.toBytes ↔ p.rerandomizedMacCommitment = q.rerandomizedMacCommitment ∧
      p.rerandomizedNonce = q.rerandomizedNonce ∧
      Spec.scalarBlocks p.attributesRevealed ++ Spec.pointBlocks p.attributesBlinded =
        Spec.scalarBlocks q.attributesRevealed ++ Spec.pointBlocks q.attributesBlinded ∧
      Spec.SameCredentialProof p.proof q.proof := by
  have e : ∀ r : CredentialPresentation G, r.toBytes = (enc r.rerandomizedMacCommitment ++
      (enc r.rerandomizedNonce ++ (Spec.scalarBlocks r.attributesRevealed ++
        Spec.pointBlocks r.attributesBlinded).flatten)) ++ r.proof.serialize := by
    intro r
    simp only [CredentialPresentation.toBytes, Spec.scalarBlocks, Spec.pointBlocks, List.flatten_append,
      List.append_assoc]
    rfl
  rw [e, e, append_eq_iff_right (by simp [ValidCredential.Proof.serialize, encScalars_length]),
    append_eq_iff (by simp), append_eq_iff (by simp), enc_inj_iff, enc_inj_iff, credentialProof_eq_iff,
    and_assoc, and_assoc]
  have hb : ∀ r : CredentialPresentation G, ∀ x ∈ Spec.scalarBlocks r.attributesRevealed ++
      Spec.pointBlocks r.attributesBlinded, x.length = 32 := by
    intro r x hx
    rcases List.mem_append.1 hx with h | h
    · exact scalarBlocks_length x h
    · exact pointBlocks_length x h
  have : (Spec.scalarBlocks p.attributesRevealed ++ Spec.pointBlocks p.attributesBlinded).flatten =
      (Spec.scalarBlocks q.attributesRevealed ++ Spec.pointBlocks q.attributesBlinded).flatten ↔
      Spec.scalarBlocks p.attributesRevealed ++ Spec.pointBlocks p.attributesBlinded =
        Spec.scalarBlocks q.attributesRevealed ++ Spec.pointBlocks q.attributesBlinded :=
    ⟨flatten_blocks_inj (hb p) (hb q), fun h => by rw [h]⟩
  rw [this]

/-- With equally many revealed attributes the boundary is fixed. -/
theorem C101_presentation_partial (p q : CredentialPresentation G)
    (hn : p.attributesRevealed.length = q.attributesRevealed.length) :
    p.toBytes = q.toBytes ↔ p.rerandomizedMacCommitment = q.rerandomizedMacCommitment ∧
      p.rerandomizedNonce = q.rerandomizedNonce ∧ p.attributesRevealed = q.attributesRevealed ∧
      p.attributesBlinded = q.attributesBlinded ∧ Spec.SameCredentialProof p.proof q.proof := by
  rw [C101_presentation_iff]
  constructor
  · rintro ⟨h1, h2, h3, h4⟩
    obtain ⟨h5, h6⟩ := List.append_inj h3 (by simpa [Spec.scalarBlocks] using hn)
    exact ⟨h1, h2, scalarBlocks_inj h5, pointBlocks_inj h6, h4⟩
  · rintro ⟨h1, h2, h3, h4, h5⟩
    exact ⟨h1, h2, by rw [h3, h4], h5⟩

example (proof : ValidCredential.Proof) : (⟨1, 2, [1], [3], proof⟩ : CredentialPresentation F).toBytes ≠
    (⟨1, 2, [0], [3], proof⟩ : CredentialPresentation F).toBytes := fun h => by
  have := ((C101_presentation_partial _ _ (by rfl)).1 h).2.2.1
  exact absurd (show ([1] : List Scalar) = [0] from this) (by decide)

/-- The same for the presentations of the phone-number system, which contain one of the generic ones. -/
theorem C101_signal_iff (p q : SignalCredentialPresentation G) :
    p.toBytes = q.toBytes ↔ p.rosterEntryCommitment = q.rosterEntryCommitment ∧
      p.presentation.toBytes = q.presentation.toBytes ∧
      Spec.SameRosterProof p.rosterMembershipProof q.rosterMembershipProof := by
  simp only [SignalCredentialPresentation.toBytes, CommittedPhoneNumber.toBytes, Pedersen.toBytes]
  rw [append_eq_iff_right (by simp [CommittedValuesEqual.Proof.serialize, encScalars_length]),
    append_eq_iff (by simp), enc_inj_iff, rosterProof_eq_iff, and_assoc]

/-- False for presentations: a revealed attribute 0 and a blinded attribute whose commitment is the identity
have the same bytes, whatever the rest of the presentation. -/
theorem C101_presentation_false (C Q : G) (proof : ValidCredential.Proof) :
    (⟨C, Q, [0], [], proof⟩ : CredentialPresentation G) ≠ ⟨C, Q, [], [0], proof⟩ ∧
    (⟨C, Q, [0], [], proof⟩ : CredentialPresentation G).toBytes =
      (⟨C, Q, [], [0], proof⟩ : CredentialPresentation G).toBytes := by
  refine ⟨fun h => by simp at h, ?_⟩
  rw [C101_presentation_iff]
  refine ⟨rfl, rfl, ?_, rfl, rfl, rfl, rfl⟩
  simp only [Spec.scalarBlocks, Spec.pointBlocks, List.map_cons, List.map_nil, List.append_nil,
    List.nil_append]
  rw [toBytes_eq_zero.2 rfl, enc_eq_zero.2 rfl]

/-- False for issuances and presentations also by their proofs: adding the group order to a small scalar of
the proof changes the value, not the bytes. -/
theorem C101_proof_false (C : G) (c : Credential G) (s : Scalar) (hs : s.n + ell < 2 ^ 255) :
    (⟨C, c, ⟨s, ⟨0, 0, 0, 0⟩⟩⟩ : CredentialIssuance G) ≠ ⟨C, c, ⟨⟨s.n + ell, hs⟩, ⟨0, 0, 0, 0⟩⟩⟩ ∧
    (⟨C, c, ⟨s, ⟨0, 0, 0, 0⟩⟩⟩ : CredentialIssuance G).toBytes =
      (⟨C, c, ⟨⟨s.n + ell, hs⟩, ⟨0, 0, 0, 0⟩⟩⟩ : CredentialIssuance G).toBytes := by
  constructor
  · intro h
    have := congrArg (fun i : CredentialIssuance G => i.proof.challenge.n) h
    simp [ell] at this
  · rw [C101_issuance_iff]
    refine ⟨rfl, rfl, ?_, rfl, rfl, rfl, rfl⟩
    rw [sameMod_iff]
    simp [Scalar.val]

example : (0 : Scalar).n + ell < 2 ^ 255 := by decide

/-! ## Key pairs and issuers -/

/-- Exactly which key pairs have the same encoding: the blocks of the public key followed by those of the
secret key have to agree; where the one ends and the other begins is not recorded. -/
theorem C101_keypair_iff (k l : Keypair G) :
    k.toBytes = l.toBytes ↔
      Spec.pointBlocks k.publicKey.Xn ++ Spec.scalarBlocks (k.secretKey.x0 :: k.secretKey.xn) =
        Spec.pointBlocks l.publicKey.Xn ++ Spec.scalarBlocks (l.secretKey.x0 :: l.secretKey.xn) := by
  have e : ∀ r : Keypair G, r.toBytes = (Spec.pointBlocks r.publicKey.Xn ++
      Spec.scalarBlocks (r.secretKey.x0 :: r.secretKey.xn)).flatten := by
    intro r
    simp [Keypair.toBytes, PublicKey.toBytes, SecretKey.toBytes, Spec.pointBlocks, Spec.scalarBlocks]
  have hb : ∀ r : Keypair G, ∀ x ∈ Spec.pointBlocks r.publicKey.Xn ++
      Spec.scalarBlocks (r.secretKey.x0 :: r.secretKey.xn), x.length = 32 := by
    intro r x hx
    rcases List.mem_append.1 hx with h | h
    · exact pointBlocks_length x h
    · exact scalarBlocks_length x h
  rw [e, e]
  exact ⟨flatten_blocks_inj (hb k) (hb l), fun h => by rw [h]⟩

/-- Key pairs with equally long public keys, in particular all key pairs of one number of attributes. -/
theorem C101_keypair_partial (k l : Keypair G) (hn : k.publicKey.Xn.length = l.publicKey.Xn.length)
    (h : k.toBytes = l.toBytes) : k = l := by
  rw [C101_keypair_iff] at h
  obtain ⟨h1, h2⟩ := List.append_inj h (by simpa [Spec.pointBlocks] using hn)
  have h3 := scalarBlocks_inj h2
  simp only [List.cons.injEq] at h3
  exact Keypair.ext (PublicKey.ext (pointBlocks_inj h1)) (SecretKey.ext h3.1 h3.2)

example : (⟨⟨[1]⟩, ⟨0, [1, 1]⟩⟩ : Keypair F).toBytes ≠ (⟨⟨[1]⟩, ⟨1, [1, 0]⟩⟩ : Keypair F).toBytes := fun h => by
  have := C101_keypair_partial _ _ (by rfl) h
  simp only [Keypair.mk.injEq, SecretKey.mk.injEq] at this
  exact absurd this.2.1 (by decide)

/-- Also when each is as long as its own secret key says: then the total length fixes the boundary. -/
theorem C101_keypair_matched_partial (k l : Keypair G)
    (hk : k.secretKey.xn.length = k.publicKey.Xn.length)
    (hl : l.secretKey.xn.length = l.publicKey.Xn.length) (h : k.toBytes = l.toBytes) : k = l := by
  refine C101_keypair_partial k l ?_ h
  have := congrArg List.length ((C101_keypair_iff k l).1 h)
  simp [Spec.pointBlocks, Spec.scalarBlocks] at this
  omega

/-- False for key pairs in general: a public key ending in the identity and a secret key beginning with 0. -/
theorem C101_keypair_false (X : G) (x : Scalar) :
    (⟨⟨[X]⟩, ⟨0, [x]⟩⟩ : Keypair G) ≠ ⟨⟨[X, 0]⟩, ⟨x, []⟩⟩ ∧
    (⟨⟨[X]⟩, ⟨0, [x]⟩⟩ : Keypair G).toBytes = (⟨⟨[X, 0]⟩, ⟨x, []⟩⟩ : Keypair G).toBytes := by
  refine ⟨fun h => by simp at h, ?_⟩
  rw [C101_keypair_iff]
  simp [Spec.pointBlocks, Spec.scalarBlocks, toBytes_eq_zero.2 rfl, enc_eq_zero.2 rfl]

/-- Two key pairs of the kind the library makes, told apart. -/
example : (⟨⟨[1]⟩, ⟨0, [1]⟩⟩ : Keypair F).toBytes ≠ (⟨⟨[1]⟩, ⟨1, [1]⟩⟩ : Keypair F).toBytes := fun h => by
  have := C101_keypair_matched_partial _ _ rfl rfl h
  simp only [Keypair.mk.injEq, SecretKey.mk.injEq] at this
  exact absurd this.2.1 (by decide)

/-- Issuers: the parameters and the key pair. -/
theorem C101_issuer_iff (i j : Issuer G) :
    (i.toBytes = j.toBytes ↔
      i.systemParameters = j.systemParameters ∧ i.keypair.toBytes = j.keypair.toBytes) ∧
    (SignalIssuer.toBytes ⟨i⟩ = SignalIssuer.toBytes ⟨j⟩ ↔ i.toBytes = j.toBytes) := by
  refine ⟨?_, Iff.rfl⟩
  simp only [Issuer.toBytes]
  rw [append_eq_iff (by simp [SystemParameters.toBytes]),
    (C101_injective (G := G)).1.eq_iff]

/-! ## Users -/

/-- A saved user cannot tell "no key" from the all-zero key. -/
def Spec.SameKey (k l : Option (Elgamal.Keypair G)) : Prop :=
  k = l ∨ ((k = none ∨ k = some ⟨0, 0⟩) ∧ (l = none ∨ l = some ⟨0, 0⟩))

/-- A saved user cannot tell "no credential" from the all-zero one. -/
def Spec.SameCredential (c d : Option (Credential G)) : Prop :=
  c = d ∨ ((c = none ∨ c = some ⟨⟨0, 0⟩, [0]⟩) ∧ (d = none ∨ d = some ⟨⟨0, 0⟩, [0]⟩))

def keyBlock (k : Option (Elgamal.Keypair G)) : Bytes :=
  match k with
  | none => List.replicate 64 0
  | some k => k.toBytes

def credentialBlock (c : Option (Credential G)) : Bytes :=
  match c with
  | none => List.replicate 96 0
  | some c => c.toBytes

theorem keyBlock_length (k : Option (Elgamal.Keypair G)) : (keyBlock k).length = 64 := by
  cases k with
  | none => simp [keyBlock]
  | some k =>
    simp [keyBlock, Elgamal.Keypair.toBytes, Elgamal.SecretKey.toBytes, Elgamal.PublicKey.toBytes]

theorem keyBlock_eq_zero (k : Elgamal.Keypair G) :
    k.toBytes = List.replicate 64 0 ↔ k = ⟨0, 0⟩ := by
  rw [Elgamal.Keypair.toBytes, Elgamal.SecretKey.toBytes, Elgamal.PublicKey.toBytes, keyBlock_zero,
    Elgamal.Keypair.ext_iff]

theorem keyBlock_eq_iff (k l : Option (Elgamal.Keypair G)) :
    keyBlock k = keyBlock l ↔ Spec.SameKey k l := by
  cases k with
  | none =>
    cases l with
    | none => simp [keyBlock, Spec.SameKey]
    | some l =>
      rw [eq_comm]
      simp only [keyBlock, keyBlock_eq_zero]; simp [Spec.SameKey]
  | some k =>
    cases l with
    | none => simp only [keyBlock, keyBlock_eq_zero]; simp [Spec.SameKey]
    | some l =>
      simp only [keyBlock, Spec.SameKey, Option.some.injEq, reduceCtorEq, false_or,
        (C101_injective (G := G)).2.2.2.2.2.2.2.2.2.2.1.eq_iff]
      constructor
      · exact Or.inl
      · rintro (h | ⟨rfl, rfl⟩)
        · exact h
        · rfl

theorem credentialBlock_eq_zero (c : Credential G) :
    c.toBytes = List.replicate 96 0 ↔ c = ⟨⟨0, 0⟩, [0]⟩ := by
  have e : (⟨⟨0, 0⟩, [0]⟩ : Credential G).toBytes = List.replicate 96 0 := by
    have := (credBlock_zero (P := (0 : G)) (Q := (0 : G)) (a := 0)).2 ⟨rfl, rfl, rfl⟩
    rw [← this]
    simp [Credential.toBytes, Tag.toBytes]
  rw [← e, (C101_injective (G := G)).2.2.2.2.2.1.eq_iff]

theorem credentialBlock_eq_iff (c d : Option (Credential G)) :
    credentialBlock c = credentialBlock d ↔ Spec.SameCredential c d := by
  cases c with
  | none =>
    cases d with
    | none => simp [credentialBlock, Spec.SameCredential]
    | some d =>
      rw [eq_comm]
      simp only [credentialBlock, credentialBlock_eq_zero]; simp [Spec.SameCredential]
  | some c =>
    cases d with
    | none => simp only [credentialBlock, credentialBlock_eq_zero]; simp [Spec.SameCredential]
    | some d =>
      simp only [credentialBlock, Spec.SameCredential, Option.some.injEq, reduceCtorEq, false_or,
        (C101_injective (G := G)).2.2.2.2.2.1.eq_iff]
      constructor
      · exact Or.inl
      · rintro (h | ⟨rfl, rfl⟩)
        · exact h
        · rfl

theorem User.toBytes_blocks (u : User G) :
    u.toBytes = u.systemParameters.toBytes ++ (u.issuerParameters.toBytes ++ (keyBlock u.key ++
      credentialBlock u.credential)) := by
  rw [User.toBytes, List.append_assoc, List.append_assoc]
  rfl

/-- Users with equally many public key elements: the encoding forgets the difference between no key and the
all-zero key, and between no credential and the all-zero credential, and nothing else. -/
theorem C101_user_iff_partial (u v : User G)
    (hn : u.issuerParameters.Xn.length = v.issuerParameters.Xn.length) :
    u.toBytes = v.toBytes ↔ u.systemParameters = v.systemParameters ∧
      u.issuerParameters = v.issuerParameters ∧ Spec.SameKey u.key v.key ∧
      Spec.SameCredential u.credential v.credential := by
  rw [User.toBytes_blocks, User.toBytes_blocks, append_eq_iff (by simp [SystemParameters.toBytes]),
    append_eq_iff (by
      rw [PublicKey.toBytes, PublicKey.toBytes, flatten_map_length (fun a => enc_length a),
        flatten_map_length (fun a => enc_length a), hn]),
    append_eq_iff (by rw [keyBlock_length, keyBlock_length]), keyBlock_eq_iff, credentialBlock_eq_iff,
    (C101_injective (G := G)).1.eq_iff, (C101_injective (G := G)).2.2.1.eq_iff]

example : (⟨⟨1, 2⟩, ⟨[3]⟩, none, none⟩ : User F).toBytes ≠ (⟨⟨1, 2⟩, ⟨[4]⟩, none, none⟩ : User F).toBytes := fun h => by
  have := ((C101_user_iff_partial _ _ (by rfl)).1 h).2.1
  simp only [PublicKey.mk.injEq, List.cons.injEq, and_true] at this
  exact absurd this (by decide +kernel)

/-- False for users: a user without a key and one with the all-zero key; also the boundary between the
issuer's public key and the user's own key is not recorded. -/
theorem C101_user_false (sp : SystemParameters G) (X : G) (c : Option (Credential G)) :
    ((⟨sp, ⟨[X]⟩, none, c⟩ : User G) ≠ ⟨sp, ⟨[X]⟩, some ⟨0, 0⟩, c⟩ ∧
      (⟨sp, ⟨[X]⟩, none, c⟩ : User G).toBytes = (⟨sp, ⟨[X]⟩, some ⟨0, 0⟩, c⟩ : User G).toBytes) ∧
    ((⟨sp, ⟨[X, 0, 0]⟩, none, none⟩ : User G) ≠ ⟨sp, ⟨[X]⟩, none, some ⟨⟨0, 0⟩, [0, 0, 0]⟩⟩ ∧
      (⟨sp, ⟨[X, 0, 0]⟩, none, none⟩ : User G).toBytes =
        (⟨sp, ⟨[X]⟩, none, some ⟨⟨0, 0⟩, [0, 0, 0]⟩⟩ : User G).toBytes) := by
  refine ⟨⟨fun h => by simp at h, ?_⟩, fun h => by simp at h, ?_⟩
  · refine (C101_user_iff_partial _ _ (by rfl)).2 ?_
    exact ⟨rfl, rfl, Or.inr ⟨Or.inl rfl, Or.inr rfl⟩, Or.inl rfl⟩
  · simp only [User.toBytes, PublicKey.toBytes, Credential.toBytes, Tag.toBytes, List.map_cons,
      List.map_nil, List.flatten_cons, List.flatten_nil, enc_eq_zero.2 (rfl : (0 : G) = 0),
      toBytes_eq_zero.2 (rfl : (0 : Scalar) = 0), List.append_assoc, List.append_nil,
      List.replicate_append_replicate]

/-- Phone-number users: the number is stored in full. -/
theorem C101_signal_user_iff (u v : SignalUser G) :
    u.toBytes = v.toBytes ↔ u.phoneNumber = v.phoneNumber ∧ u.user.toBytes = v.user.toBytes := by
  simp only [SignalUser.toBytes, PhoneNumber.toBytes]
  rw [append_eq_iff (by simp)]
  exact and_congr_left fun _ => ⟨fun h => Scalar.toBytes_inj h, fun h => by rw [h]⟩

/-! ## Values that were decoded -/

/-- A decoder all of whose results are told apart by their encodings. -/
def Spec.EqualByBytes {ε α : Type} (fromBytes : Bytes → Res ε α) (toBytes : α → Bytes) : Prop :=
  ∀ (b b' : Bytes) (x y : α), fromBytes b = .ok x → fromBytes b' = .ok y →
    (x = y ↔ toBytes x = toBytes y)

theorem equalByBytes_of_roundtrip {ε α : Type} {fromBytes : Bytes → Res ε α} {toBytes : α → Bytes}
    (h : ∀ b x, fromBytes b = .ok x → fromBytes (toBytes x) = .ok x) :
    Spec.EqualByBytes fromBytes toBytes := by
  intro b b' x y hx hy
  refine ⟨fun e => by rw [e], fun e => ?_⟩
  have h1 := h b x hx
  rw [e, h b' y hy] at h1
  exact (Res.ok.inj h1).symm

/-- For values that came out of a decoder, comparing re-encoded bytes is the same as comparing values, for
every type whose encoding is ambiguous in general. -/
theorem C101_decoded (checks : Bool) :
    Spec.EqualByBytes (Keypair.fromBytes (G := G) checks) Keypair.toBytes ∧
    Spec.EqualByBytes (Issuer.fromBytes (G := G) checks) Issuer.toBytes ∧
    Spec.EqualByBytes (SignalIssuer.fromBytes (G := G) checks) SignalIssuer.toBytes ∧
    Spec.EqualByBytes (CredentialIssuance.fromBytes (G := G)) CredentialIssuance.toBytes ∧
    Spec.EqualByBytes (CredentialPresentation.fromBytes (G := G)) CredentialPresentation.toBytes ∧
    Spec.EqualByBytes (VerifiedCredential.fromBytes (G := G)) VerifiedCredential.toBytes ∧
    Spec.EqualByBytes (SignalCredentialPresentation.fromBytes (G := G))
      SignalCredentialPresentation.toBytes ∧
    Spec.EqualByBytes (VerifiedSignalCredential.fromBytes (G := G)) VerifiedSignalCredential.toBytes ∧
    Spec.EqualByBytes (User.fromBytes (G := G)) User.toBytes ∧
    Spec.EqualByBytes (SignalUser.fromBytes (G := G)) SignalUser.toBytes := by
  have hk : ∀ b (x : Keypair G), Keypair.fromBytes checks b = .ok x →
      Keypair.fromBytes checks x.toBytes = .ok x := fun b x h => by rw [C05_reserialise h, h]
  have hi : ∀ b (x : Issuer G), Issuer.fromBytes checks b = .ok x →
      Issuer.fromBytes checks x.toBytes = .ok x := fun b x h => by rw [C06_reserialise h, h]
  have hp : ∀ b (x : CredentialPresentation G), CredentialPresentation.fromBytes b = .ok x →
      CredentialPresentation.fromBytes x.toBytes = .ok x := by
    intro b x h
    obtain ⟨_, Cm, _, hok, _⟩ := (C09_ok_iff _ _).1 h
    exact (C09_roundtrip x Cm hok).1
  have hs : ∀ b (x : SignalCredentialPresentation G), SignalCredentialPresentation.fromBytes b = .ok x →
      SignalCredentialPresentation.fromBytes x.toBytes = .ok x := by
    intro b x h
    obtain ⟨Cm, _, hok, _⟩ := (C10_ok_iff _ _).1 h
    exact (C10_roundtrip x Cm hok).1
  have hu : ∀ b (x : User G), User.fromBytes b = .ok x → User.fromBytes x.toBytes = .ok x := by
    intro b x h
    obtain ⟨X, kb, cb, hX, h1, h2, _⟩ := (C11_ok_iff _ _).1 h
    rw [C11_roundtrip_iff]
    refine ⟨by simp [hX], fun k hk => ?_, fun c hc => ?_⟩
    · rw [hk] at h1
      obtain ⟨h3, rfl, h4⟩ := h1
      exact ⟨h3, fun h => h4 (keyBlock_zero.2 h)⟩
    · rw [hc] at h2
      obtain ⟨a, h3, h4, rfl, h5⟩ := h2
      exact ⟨a, h4, h3, fun h => h5 (credBlock_zero.2 h)⟩
  refine ⟨equalByBytes_of_roundtrip hk, equalByBytes_of_roundtrip hi, equalByBytes_of_roundtrip ?_,
    equalByBytes_of_roundtrip ?_, equalByBytes_of_roundtrip hp, equalByBytes_of_roundtrip ?_,
    equalByBytes_of_roundtrip hs, equalByBytes_of_roundtrip ?_, equalByBytes_of_roundtrip hu,
    equalByBytes_of_roundtrip ?_⟩
  · rintro b ⟨x⟩ h
    simp only [SignalIssuer.fromBytes, Res.bind_eq_ok] at h
    obtain ⟨y, h1, h2⟩ := h
    cases h2
    rw [SignalIssuer.fromBytes, SignalIssuer.toBytes, hi b x h1]
    rfl
  · intro b x h
    obtain ⟨a, _, hok, _⟩ := (C08_ok_iff _ _).1 h
    exact (C08_roundtrip x a hok).1
  · rintro b ⟨x⟩ h
    simp only [VerifiedCredential.fromBytes, Res.bind_eq_ok] at h
    obtain ⟨y, h1, h2⟩ := h
    cases h2
    rw [VerifiedCredential.fromBytes, VerifiedCredential.toBytes, hp b x h1]
    rfl
  · rintro b ⟨x⟩ h
    simp only [VerifiedSignalCredential.fromBytes, Res.bind_eq_ok] at h
    obtain ⟨y, h1, h2⟩ := h
    cases h2
    rw [VerifiedSignalCredential.fromBytes, VerifiedSignalCredential.toBytes, hs b x h1]
    rfl
  · rintro b x h
    rw [C11_signal_roundtrip_iff]
    simp only [SignalUser.fromBytes, Res.bind_eq_ok, Res.mapErr_eq_ok] at h
    obtain ⟨s1, _, pn, _, s2, _, y, h1, h2⟩ := h
    cases h2
    exact hu _ _ h1

/-- Two byte strings that decode to issuers, so that the statement has something to say. -/
example : ∃ (b : Bytes) (i : Issuer F), Issuer.fromBytes true b = .ok i :=
  ⟨_, _, C06_roundtrip true ⟨⟨1, 2⟩, ⟨⟨[3]⟩, ⟨1, [0]⟩⟩⟩ rfl (by decide) (by decide) (by decide)⟩

end Verif
