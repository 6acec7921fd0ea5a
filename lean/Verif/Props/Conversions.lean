import Verif.Model.Conversions
import Verif.Props.Errors
import Verif.Props.Phone
import Verif.Props.Mac

/-!
# Error texts, and messages made from strings (C74, C75)
-/

set_option maxRecDepth 100000

namespace Verif

open Amacs

variable {G : Type} [AddCommGroup G] [Module F G] [Ristretto G]

/-! ## C74 error texts -/

/-- **C74.** Different errors of one type have different texts. -/
theorem C74_distinct :
    Function.Injective MacError.text ∧ Function.Injective CredentialError.text ∧
      Function.Injective PhoneNumberError.text := by
  refine ⟨?_, ?_, ?_⟩
  · intro a b h
    have key : ∀ l : ℕ, (MacError.messageLengthError l).text.toList =
        "Message must be ".toList ++ (Nat.toDigits 10 l ++ " bytes in length".toList) := by
      intro l
      rw [MacError.text, String.toList_append, String.toList_append, Nat.toList_repr,
        List.append_assoc]
    have ne : ∀ l : ℕ, ∀ e : MacError, (∀ k, e ≠ .messageLengthError k) →
        (MacError.messageLengthError l).text ≠ e.text := by
      intro l e he heq
      have h1 := congrArg (fun s => String.toList s |>.take 16) heq
      simp only [key] at h1
      rw [List.take_left' (by decide)] at h1
      revert h1
      cases e <;> first | exact absurd rfl (he _) | decide
    by_cases ha : ∃ k, a = .messageLengthError k
    · obtain ⟨k, rfl⟩ := ha
      by_cases hb : ∃ l, b = .messageLengthError l
      · obtain ⟨l, rfl⟩ := hb
        have h1 := congrArg String.toList h
        rw [key, key, List.append_cancel_left_eq, List.append_cancel_right_eq] at h1
        rw [← Nat.ofDigitChars_toDigits (b := 10) (n := k) (by omega) (by omega), h1,
          Nat.ofDigitChars_toDigits (by omega) (by omega)]
      · push Not at hb
        exact absurd h (ne _ _ hb)
    · push Not at ha
      by_cases hb : ∃ l, b = .messageLengthError l
      · obtain ⟨l, rfl⟩ := hb
        exact absurd h.symm (ne _ _ ha)
      · push Not at hb
        cases a <;> cases b <;> first
          | rfl
          | exact absurd rfl (ha _)
          | exact absurd rfl (hb _)
          | (exfalso; revert h; decide)
  · intro a b h
    cases a <;> cases b <;> first | rfl | (exfalso; revert h; decide)
  · intro a b h
    cases a <;> cases b <;> first | rfl | (exfalso; revert h; decide)

/-- **C74.** Full claim: the length that an error text says is required is one that the function accepts.
It is false of every rejection of a wrong length by the key decoders: the length in the text is that of
the rejected input, and no input of that length is accepted. -/
theorem C74_length_false {b : Bytes} {n : ℕ} :
    ((PublicKey.fromBytes b : Res _ (PublicKey G)) = .err (.messageLengthError n) →
      n = b.length ∧ ∀ c : Bytes, c.length = n → ∀ k : PublicKey G, PublicKey.fromBytes c ≠ .ok k) ∧
    (SecretKey.fromBytes b = .err (.messageLengthError n) →
      n = b.length ∧ ∀ c : Bytes, c.length = n → ∀ k, SecretKey.fromBytes c ≠ .ok k) := by
  constructor
  · intro h
    by_cases hl : b.length % 32 = 0
    · exfalso
      by_cases hb : ∃ Xs : List G, b = (Xs.map enc).flatten
      · obtain ⟨Xs, hX⟩ := hb
        rw [(C03_ok_iff b ⟨Xs⟩).2 hX] at h
        cases h
      · push Not at hb
        rw [C03_bad_point hl hb] at h
        cases h
    · rw [C03_wrong_length hl] at h
      cases h
      refine ⟨rfl, fun c hc k hk => ?_⟩
      rw [C03_wrong_length (by rw [hc]; exact hl)] at hk
      cases hk
  · intro h
    by_cases hl : b.length % 32 = 0
    · exfalso
      by_cases he : b = []
      · subst he
        rw [C04_empty_panics] at h
        cases h
      · by_cases hb : ∃ xs : List Scalar, (∀ x ∈ xs, x.Reduced) ∧ b = (xs.map Scalar.toBytes).flatten
        · obtain ⟨xs, h1, h2⟩ := hb
          cases xs with
          | nil => exact he (by simpa using h2)
          | cons x xs =>
            rw [(C04_ok_iff b ⟨x, xs⟩).2 ⟨⟨h1 x (by simp), fun y hy => h1 y (by simp [hy])⟩, h2⟩] at h
            cases h
        · push Not at hb
          rw [C04_bad_scalar he hl hb] at h
          cases h
    · rw [C04_wrong_length hl] at h
      cases h
      refine ⟨rfl, fun c hc k hk => ?_⟩
      rw [C04_wrong_length (by rw [hc]; exact hl)] at hk
      cases hk

/-- 33 bytes are rejected with the text that 33 bytes are required. -/
example : (PublicKey.fromBytes (List.replicate 33 0) : Res _ (PublicKey F)) =
      .err (.messageLengthError 33) ∧
    (MacError.messageLengthError 33).text = "Message must be 33 bytes in length" :=
  ⟨C03_wrong_length (by decide), by decide⟩

/-- **C74.** What remains: `SecretKey::mac` names the right length. Missing: the decoders
(`C74_length_false`); and the number counts attributes, where the text says bytes. -/
theorem C74_mac_partial {R : Type} [RngCore R] (k : SecretKey) (m : List Scalar) (r : R) {n : ℕ}
    (h : (k.mac (G := G) m r).1 = .err (.messageLengthError n)) :
    m.length ≠ n ∧ ∀ m' : List Scalar, m'.length = n → ∃ t : Tag G, (k.mac m' r).1 = .ok t := by
  have hn : k.xn.length ≠ m.length ∧ n = k.xn.length := by
    rw [SecretKey.mac] at h
    split at h
    · rename_i hne
      simp only [Res.err.injEq, MacError.messageLengthError.injEq] at h
      exact ⟨hne, h.symm⟩
    · cases h
  refine ⟨by omega, fun m' hm' => ?_⟩
  obtain ⟨t, ht, -⟩ := C21_mac_valid (G := G) k m' r (by omega)
  exact ⟨t, ht⟩

example : (SecretKey.mac (G := F) ⟨1, [1 + 1, 1]⟩ [1] (⟨0⟩ : ToyRng)).1 =
    .err (.messageLengthError 2) := by decide +kernel

/-- **C74.** `LengthExceeded` says that a number "cannot be more than 32 bytes"; `PhoneNumber::from_bytes`
also returns it for every shorter input. -/
theorem C74_too_short (b : Bytes) (e : PhoneNumberError) :
    PhoneNumber.fromBytes b = .err e ↔ b.length ≠ 32 ∧ e = .lengthExceeded := by
  rw [PhoneNumber.fromBytes]
  split
  · rename_i h
    exact ⟨fun he => ⟨h, by cases he; rfl⟩, fun he => by rw [he.2]⟩
  · rename_i h
    push Not at h
    rw [slice_ok (by omega) (by omega)]
    simp only [Res.ok_bind]
    rw [copyFromSlice_ok (by simp [h])]
    simp [h]

/-- **C74.** `InvalidPhoneNumber` says that the "proof of roster membership could not be verified"; it is
what the decoder of commitments returns for bytes that are not a point. -/
theorem C74_roster_text {b : Bytes} (hb : b.length = 32) (h : ∀ P : G, b ≠ enc P) :
    (CommittedPhoneNumber.fromBytes b : Res _ G) = .err .invalidPhoneNumber ∧
      PhoneNumberError.invalidPhoneNumber.text =
        "The user's proof of roster membership could not be verified" := by
  refine ⟨?_, rfl⟩
  have hd : (dec b : Option G) = none := by
    cases hd : (dec b : Option G) with
    | none => rfl
    | some P => exact absurd (dec_eq_some.1 hd).symm (h P)
  rw [CommittedPhoneNumber.fromBytes, Pedersen.fromBytes, slice_ok (by omega) (by omega)]
  simp only [Res.ok_bind]
  have e : (b.drop 0).take (32 - 0) = b := by simp [hb]
  rw [e, copyFromSlice_ok hb]
  simp only [Res.ok_bind, hd]
  rfl

example : (CommittedPhoneNumber.fromBytes (List.replicate 32 255) : Res _ F) =
    .err .invalidPhoneNumber := by
  refine (C74_roster_text (by decide) fun P h => ?_).1
  have h1 := Ristretto.dec_enc P
  have h2 : dec (List.replicate 32 255) = (none : Option F) := by decide +kernel
  rw [← h, h2] at h1
  cases h1

/-! ## C75 messages and lengths -/

/-- **C75.** `len` counts the 32-byte blocks of the serialised key. -/
theorem C75_len (pk : PublicKey G) (sk : SecretKey) (kp : Keypair G) :
    pk.toBytes.length = 32 * pk.len ∧ sk.toBytes.length = 32 * sk.len ∧
      kp.toBytes.length = 32 * kp.len := by
  have h1 : ∀ pk : PublicKey G, pk.toBytes.length = 32 * pk.len := fun pk => by
    rw [PublicKey.toBytes, flatten_map_length (n := 32) (fun a => enc_length a), PublicKey.len, mul_comm]
  have h2 : ∀ sk : SecretKey, sk.toBytes.length = 32 * sk.len := fun sk => by
    rw [SecretKey.toBytes, List.length_append, Scalar.toBytes_length,
      flatten_map_length (n := 32) (fun a => Scalar.toBytes_length a), SecretKey.len]
    ring
  refine ⟨h1 pk, h2 sk, ?_⟩
  rw [Keypair.toBytes, List.length_append, h1, h2, Keypair.len]
  ring

/-- **C75.** Indexing gives the element, and panics exactly out of range. -/
theorem C75_index (m : List Scalar) (n : Scalar) (k : ℕ) :
    (∀ x, Message.index m k = .ok x ↔ m[k]? = some x) ∧
      (Message.index m k = .panic ↔ m.length ≤ k) ∧
      (∀ b, PhoneNumber.index n k = .ok b ↔ (leBytes 32 n.n)[k]? = some b) ∧
      (PhoneNumber.index n k = .panic ↔ 32 ≤ k) := by
  have key : ∀ {α : Type} (l : List α) (k : ℕ), (∀ x, (index l k : Res Empty α) = .ok x ↔ l[k]? = some x) ∧
      ((index l k : Res Empty α) = .panic ↔ l.length ≤ k) := by
    intro α l k
    unfold index
    cases h : l[k]? with
    | none =>
      rw [List.getElem?_eq_none_iff] at h
      exact ⟨fun x => by simp [Res.unwrap], by simp [Res.unwrap, h]⟩
    | some y =>
      have := (List.getElem?_eq_some_iff.1 h).1
      exact ⟨fun x => by simp [Res.unwrap], by simp [Res.unwrap, this]⟩
  have hn : n.toBytes.length = 32 := Scalar.toBytes_length n
  refine ⟨(key m k).1, (key m k).2, (key n.toBytes k).1, ?_⟩
  have := (key n.toBytes k).2
  rwa [hn] at this

/-- A tag on one scalar is accepted for another exactly if they are equal modulo the group order. -/
private theorem one_attribute [DecidableEq G] {R : Type} [RngCore R] {x0 x1 : Scalar} (hx : x1.val ≠ 0)
    (r : R) (hr : leVal (RngCore.fill r 64).1 % ell ≠ 0 ∧ leVal (RngCore.fill r 64).1 % ell ≠ 1)
    (m m' : Scalar) :
    ∃ t : Tag G, (SecretKey.mac ⟨x0, [x1]⟩ [m] r).1 = .ok t ∧
      (SecretKey.verify ⟨x0, [x1]⟩ t [m'] = .ok () ↔ m.val = m'.val) := by
  obtain ⟨t, ht, hv, hnonce⟩ := C21_mac_valid (G := G) ⟨x0, [x1]⟩ [m] r rfl
  have hne : (leVal (RngCore.fill r 64).1 : F) ≠ 0 := by
    intro h
    apply hr.1
    exact Nat.mod_eq_zero_of_dvd ((ZMod.natCast_eq_zero_iff _ _).1 h)
  have h1 : (leVal (RngCore.fill r 64).1 : F) ≠ 1 := by
    intro h
    apply hr.2
    have := (ZMod.natCast_eq_natCast_iff' (leVal (RngCore.fill r 64).1) 1 ell).1 (by simpa using h)
    rwa [Nat.mod_eq_of_lt ell_prime.one_lt] at this
  have hP : t.nonce ≠ 0 := by
    rw [hnonce]
    intro h
    rcases smul_eq_zero.1 h with h | h
    · exact hne h
    · exact Ristretto.base_ne h
  have hB : t.nonce ≠ basepoint G := by
    rw [hnonce]
    intro h
    exact h1 ((smul_right_inj' (Ristretto.base_ne (G := G))).1 (by rw [one_smul]; exact h))
  refine ⟨t, ht, ?_⟩
  rw [C22_verify_iff, and_iff_right hB]
  unfold Spec.MacValid at hv ⊢
  rw [hv, smul_right_inj' hP]
  simp only [Spec.macFactor, List.map_cons, List.map_nil]
  rw [add_left_inj, mul_right_inj' hx]

/-- **C75.** A tag made on a string is accepted for another string exactly if their hashes agree modulo
the group order (one attribute, `x1 ≠ 0`, and not one of the degenerate nonces). -/
theorem C75_string [DecidableEq G] {R : Type} [RngCore R] (sha512 : Bytes → Bytes) {x0 x1 : Scalar}
    (hx : x1.val ≠ 0) (r : R)
    (hr : leVal (RngCore.fill r 64).1 % ell ≠ 0 ∧ leVal (RngCore.fill r 64).1 % ell ≠ 1)
    (s s' : String) :
    ∃ t : Tag G, (SecretKey.mac ⟨x0, [x1]⟩ (Message.ofString sha512 s) r).1 = .ok t ∧
      (SecretKey.verify ⟨x0, [x1]⟩ t (Message.ofString sha512 s') = .ok () ↔
        leVal (sha512 s.toUTF8.toList) % ell = leVal (sha512 s'.toUTF8.toList) % ell) := by
  obtain ⟨t, ht, hv⟩ := one_attribute (G := G) (x0 := x0) hx r hr
    (Scalar.fromWide (sha512 s.toUTF8.toList)) (Scalar.fromWide (sha512 s'.toUTF8.toList))
  refine ⟨t, ht, hv.trans ?_⟩
  rw [Scalar.fromWide, Scalar.fromWide, Scalar.val_ofF, Scalar.val_ofF, ZMod.natCast_eq_natCast_iff']

/-- The key 1 and the numbers 6 of a counter. -/
example (sha512 : Bytes → Bytes) (s s' : String) : ∃ t : Tag F,
    (SecretKey.mac ⟨1, [1]⟩ (Message.ofString sha512 s) (⟨5⟩ : ToyRng)).1 = .ok t ∧
    (SecretKey.verify ⟨1, [1]⟩ t (Message.ofString sha512 s') = .ok () ↔
      leVal (sha512 s.toUTF8.toList) % ell = leVal (sha512 s'.toUTF8.toList) % ell) :=
  C75_string sha512 (by decide +kernel) _ (by decide +kernel) s s'

/-- **C75.** A tag made on a phone number is accepted for another exactly if the numbers are equal
modulo the group order. -/
theorem C75_phone [DecidableEq G] {R : Type} [RngCore R] {x0 x1 : Scalar} (hx : x1.val ≠ 0) (r : R)
    (hr : leVal (RngCore.fill r 64).1 % ell ≠ 0 ∧ leVal (RngCore.fill r 64).1 % ell ≠ 1)
    (n n' : Scalar) :
    ∃ t : Tag G, (SecretKey.mac ⟨x0, [x1]⟩ (PhoneNumber.toMessage n) r).1 = .ok t ∧
      (SecretKey.verify ⟨x0, [x1]⟩ t (PhoneNumber.toMessage n') = .ok () ↔ n.n % ell = n'.n % ell) := by
  obtain ⟨t, ht, hv⟩ := one_attribute (G := G) (x0 := x0) hx r hr n n'
  exact ⟨t, ht, hv.trans (ZMod.natCast_eq_natCast_iff' _ _ _)⟩

example (n n' : Scalar) : ∃ t : Tag F, (SecretKey.mac ⟨1, [1]⟩ (PhoneNumber.toMessage n) (⟨5⟩ : ToyRng)).1 = .ok t ∧
    (SecretKey.verify ⟨1, [1]⟩ t (PhoneNumber.toMessage n') = .ok () ↔ n.n % ell = n'.n % ell) :=
  C75_phone (by decide +kernel) _ (by decide +kernel) n n'

/-- **C75.** A string's message is rejected by a key for another number of attributes. -/
theorem C75_string_count {R : Type} [RngCore R] (sha512 : Bytes → Bytes) (k : SecretKey) (s : String)
    (r : R) (h : k.xn.length ≠ 1) :
    (k.mac (G := G) (Message.ofString sha512 s) r).1 = .err (.messageLengthError k.xn.length) := by
  rw [SecretKey.mac, if_pos (by simpa [Message.ofString] using h)]

example : (⟨1, [1, 0]⟩ : SecretKey).xn.length ≠ 1 := by decide

omit [Ristretto G] in
/-- **C75.** A negated nonce cancels the nonce. -/
theorem C75_neg (e : Scalar) (P : G) : Ephemeral.neg e • P + e • P = 0 := by
  change (Scalar.ofF (-e.val)).val • P + e.val • P = 0
  rw [Scalar.val_ofF, neg_smul, neg_add_cancel]

omit [Ristretto G] in
/-- **C75.** The operators on nonces and commitments are those of the group, whichever side the nonce or scalar is on. With
them a commitment opens: subtracting the nonce's part gives back the value. -/
theorem C75_operators (e : Scalar) (P v : G) (l : List Scalar) (k : ℕ) :
    Ephemeral.mulPoint e P = e.val • P ∧ Ephemeral.pointMul P e = e.val • P ∧ Ephemeral.mulTable e P = e.val • P ∧
      Ephemeral.tableMul P e = e.val • P ∧ Commitment.mulScalar P e = e.val • P ∧
      Commitment.scalarMul e P = e.val • P ∧
      Commitment.subAssign (Commitment.toPoint (Pedersen.commit v e P)) (Ephemeral.mulPoint e P) = v ∧
      (∀ x, Nonces.index l k = .ok x ↔ l[k]? = some x) ∧ (Nonces.index l k = .panic ↔ l.length ≤ k) ∧
      ∀ (α : Type) (c : α), EncryptedPhoneNumber.toAttributes c = [c] := by
  refine ⟨rfl, rfl, rfl, rfl, rfl, rfl, add_sub_cancel_right _ _, (C75_index l 0 k).1, (C75_index l 0 k).2.1, fun _ _ => rfl⟩

/-- **C75.** A tag times a rerandomisation is the rerandomised tag, on either side. Conversions lose nothing: a message
has the scalars it was made from, in order; a nonce the scalar. A generated ElGamal keypair consists of a generated secret
key and the point with that logarithm. `iter` yields as many nonces as were asked for. -/
theorem C75_wrappers {R : Type} [RngCore R] (r : R) (s : Scalar) (t : Tag G) (l : List Scalar) (n k : ℕ) :
    Rerandomization.tagMul t s = ⟨s.val • t.nonce, s.val • t.mac⟩ ∧
      Rerandomization.mulTag s t = ⟨s.val • t.nonce, s.val • t.mac⟩ ∧
      applyToTag s t = Rerandomization.tagMul t s ∧
      Message.toVec (Message.ofVec l) = l ∧ (∀ x, Message.index (Message.ofVec l) k = .ok x ↔ l[k]? = some x) ∧
      Ephemeral.toScalar (Ephemeral.ofScalar s) = s ∧
      (let kp : Elgamal.Keypair G × R := Elgamal.Keypair.generate r
       (kp.1.secretKey, kp.2) = Elgamal.SecretKey.generate r ∧
        Elgamal.PublicKey.toPoint kp.1.publicKey = (Elgamal.SecretKey.toScalar kp.1.secretKey).val • basepoint G) ∧
      (Nonces.iter (Nonces.new r n).1).length = n ∧
      ∀ x, Nonces.index (Nonces.new r n).1 k = .ok x ↔ (Nonces.iter (Nonces.new r n).1)[k]? = some x := by
  refine ⟨rfl, rfl, rfl, rfl, (C75_index l 0 k).1, rfl, ⟨rfl, rfl⟩, ?_, (C75_index _ 0 k).1⟩
  induction n generalizing r with
  | zero => rfl
  | succ n ih => exact congrArg (· + 1) (ih (Ephemeral.new r).2)

example : (1 : Scalar).val ≠ 0 ∧ leVal (RngCore.fill (⟨5⟩ : ToyRng) 64).1 % ell ≠ 0 ∧
    leVal (RngCore.fill (⟨5⟩ : ToyRng) 64).1 % ell ≠ 1 := by decide +kernel

end Verif
