import Verif.Lemmas.Uniform
import Verif.Props.Phone
import Verif.Toy

/-!
# Pedersen commitments and ElGamal (C26–C28)
-/

set_option maxRecDepth 100000

namespace Verif

variable {G : Type} [AddCommGroup G] [Module F G]

/-! ## C26 opening and binding -/

theorem C26_open_iff [DecidableEq G] (c v : G) (r : Scalar) (b : G) :
    Pedersen.open c v r b = true ↔ c = v + r.val • b := by
  rw [Pedersen.open, decide_eq_true_iff, Scalar.smul_def]
  constructor
  · intro h; rw [h]; abel
  · intro h; rw [h]; abel

theorem C26_commit_opens [DecidableEq G] (v : G) (r : Scalar) (b : G) :
    Pedersen.open (Pedersen.commit v r b) v r b = true :=
  (C26_open_iff _ _ _ _).2 rfl

/-- Given the nonce, the value is unique. -/
theorem C26_value_unique [DecidableEq G] {c v v' : G} {r : Scalar} {b : G}
    (h : Pedersen.open c v r b = true) (h' : Pedersen.open c v' r b = true) : v = v' := by
  rw [C26_open_iff] at h h'
  rw [h] at h'
  exact add_right_cancel h'

example : Pedersen.open (17 : F) 7 ⟨5, by decide⟩ 2 = true := by decide +kernel

/-- Binding: two openings of one commitment to different multiples of `H` give the discrete
logarithm of `H` to the base used. -/
theorem C26_binding [DecidableEq G] {c H b : G} {m m' r r' : Scalar} (hm : m.val ≠ m'.val)
    (h : Pedersen.open c (m • H) r b = true) (h' : Pedersen.open c (m' • H) r' b = true) :
    H = ((r'.val - r.val) / (m.val - m'.val)) • b := by
  rw [C26_open_iff, Scalar.smul_def] at h h'
  rw [h] at h'
  have hd : m.val - m'.val ≠ 0 := sub_ne_zero.2 hm
  have e : (m.val - m'.val) • H = (r'.val - r.val) • b := by
    rw [sub_smul, sub_smul, sub_eq_sub_iff_add_eq_add, h', add_comm]
  rw [div_eq_inv_mul, mul_smul, ← e, smul_smul, inv_mul_cancel₀ hd, one_smul]

/-- Two openings of one commitment, with base 1 and `H = 2`: the logarithm of `H` is 2. -/
example : Pedersen.open (7 : F) ((1 : Scalar) • (2 : F)) ⟨5, by decide +kernel⟩ 1 = true ∧
    Pedersen.open (7 : F) ((0 : Scalar) • (2 : F)) ⟨7, by decide +kernel⟩ 1 = true ∧ (1 : Scalar).val ≠ (0 : Scalar).val := by
  decide +kernel

/-- The same from arbitrary points as values. -/
theorem C26_binding_points [DecidableEq G] {c v v' b : G} {r r' : Scalar}
    (h : Pedersen.open c v r b = true) (h' : Pedersen.open c v' r' b = true) :
    v - v' = (r'.val - r.val) • b := by
  rw [C26_open_iff] at h h'
  rw [h] at h'
  rw [sub_smul, sub_eq_sub_iff_add_eq_add, h', add_comm]

/-- A commitment opened in two ways, as in the hypotheses. -/
example : ∃ (c H b : F) (m m' r r' : Scalar), m.val ≠ m'.val ∧
    Pedersen.open c (m • H) r b = true ∧ Pedersen.open c (m' • H) r' b = true :=
  ⟨17, 2, 1, ⟨5, by decide⟩, ⟨3, by decide⟩, ⟨7, by decide⟩, ⟨11, by decide⟩, by decide +kernel,
    by decide +kernel, by decide +kernel⟩

/-! ## C27 hiding -/

/-- Every group element is the commitment to every value under exactly one nonce. -/
theorem C27_exactly_one_nonce [Ristretto G] {b : G} (hb : b ≠ 0) (v c : G) :
    ∃ r : Scalar, r.Reduced ∧ Pedersen.commit v r b = c ∧
      ∀ s : Scalar, s.Reduced → Pedersen.commit v s b = c → s = r := by
  obtain ⟨x, hx⟩ := exists_smul_of_ne_zero hb (c - v)
  refine ⟨Scalar.ofF x, Scalar.reduced_ofF _, ?_, ?_⟩
  · rw [Pedersen.commit, Scalar.smul_def, Scalar.val_ofF, ← hx]; abel
  · intro s hs h
    rw [Pedersen.commit, Scalar.smul_def] at h
    have h1 : s.val • b = x • b := by rw [← hx, ← h]; abel
    have h2 := congrArg ZMod.val ((smul_right_inj' hb).1 h1)
    apply Scalar.ext
    rw [Scalar.val, ZMod.val_natCast, Nat.mod_eq_of_lt hs] at h2
    rw [h2]; rfl

example : ∃ r : Scalar, r.Reduced ∧ Pedersen.commit (3 : F) r 4 = 9 ∧
    ∀ s : Scalar, s.Reduced → Pedersen.commit (3 : F) s 4 = 9 → s = r :=
  C27_exactly_one_nonce (by decide +kernel) 3 9

/-- With a uniform nonce the commitment is distributed the same for all values. -/
theorem C27_hiding [Ristretto G] {b : G} (hb : b ≠ 0) (v v' : G) :
    (PMF.uniformOfFintype F).map (fun r => Pedersen.commit v (Scalar.ofF r) b) =
      (PMF.uniformOfFintype F).map (fun r => Pedersen.commit v' (Scalar.ofF r) b) := by
  obtain ⟨x, hx⟩ := exists_smul_of_ne_zero hb (v - v')
  apply uniform_map_eq (Equiv.addRight x)
  intro r
  simp only [Pedersen.commit, Scalar.smul_def, Scalar.val_ofF, Equiv.coe_addRight, add_smul, ← hx]
  abel

example : (PMF.uniformOfFintype F).map (fun r => Pedersen.commit (3 : F) (Scalar.ofF r) 4) =
    (PMF.uniformOfFintype F).map (fun r => Pedersen.commit (8 : F) (Scalar.ofF r) 4) :=
  C27_hiding (by decide +kernel) 3 8

/-- It is the uniform distribution on the group. -/
theorem C27_uniform [Ristretto G] [Fintype G] {b : G} (hb : b ≠ 0) (v : G) :
    (PMF.uniformOfFintype F).map (fun r => Pedersen.commit v (Scalar.ofF r) b) =
      PMF.uniformOfFintype G := by
  have hbij : Function.Bijective (fun r : F => v + r • b) := by
    constructor
    · intro r s h
      exact (smul_right_inj' hb).1 (add_left_cancel h)
    · intro c
      obtain ⟨x, hx⟩ := exists_smul_of_ne_zero hb (c - v)
      exact ⟨x, by dsimp only; rw [← hx]; abel⟩
  rw [← uniform_map_equiv (Equiv.ofBijective _ hbij)]
  congr 1
  funext r
  simp [Pedersen.commit, Scalar.smul_def]

example : (2 : F) ≠ 0 := by decide +kernel

/-- With the identity as base nothing is hidden, so the hypothesis is needed. -/
theorem C27_identity_base (v : G) (r : Scalar) : Pedersen.commit v r (0 : G) = v := by
  simp [Pedersen.commit, Scalar.smul_def]

/-! ## C28 ElGamal -/

section ElGamal
variable [Ristretto G]
open Elgamal

/-- Decryption is correct for every keypair whose halves match; `generate` makes such keypairs. -/
theorem C28_correct {R : Type} [RngCore R] (r : R) (m : G) (nonce : Scalar) :
    let k := (Elgamal.Keypair.generate (G := G) r).1
    SecretKey.decrypt k.secretKey (k.encrypt m nonce) = m := by
  dsimp only [Elgamal.Keypair.generate, Elgamal.Keypair.encrypt, PublicKey.encrypt, publicOfSecret,
    SecretKey.decrypt, Scalar.smul_def]
  rw [smul_comm]; abel

/-- For an arbitrary (for instance decoded) keypair decryption is correct for some non-zero nonce
exactly when the halves match. -/
theorem C28_correct_iff (k : Elgamal.Keypair G) (m : G) {nonce : Scalar} (hn : nonce.val ≠ 0) :
    SecretKey.decrypt k.secretKey (k.encrypt m nonce) = m ↔
      k.publicKey = k.secretKey.val • basepoint G := by
  simp only [Elgamal.Keypair.encrypt, PublicKey.encrypt, SecretKey.decrypt, Scalar.smul_def]
  rw [smul_comm k.secretKey.val, add_sub_assoc, ← smul_sub, add_eq_left, smul_eq_zero_iff_right hn,
    sub_eq_zero]

example : (⟨9, by decide⟩ : Scalar).val ≠ 0 := by decide +kernel

omit [Ristretto G] in
/-- Adding ciphertexts adds what they decrypt to, whatever they are. -/
theorem C28_decrypt_add (s : Scalar) (a b : Encryption G) :
    SecretKey.decrypt s (a.add b) = SecretKey.decrypt s a + SecretKey.decrypt s b := by
  simp only [SecretKey.decrypt, Encryption.add, Scalar.smul_def, smul_add]
  abel

/-- Adding encryptions is encrypting the sum under the sum of the nonces. -/
theorem C28_homomorphic (k m m' : G) (n n' : Scalar) :
    (PublicKey.encrypt k m n).add (PublicKey.encrypt k m' n') =
      PublicKey.encrypt k (m + m') (n + n') := by
  simp only [PublicKey.encrypt, Encryption.add, Scalar.smul_def, Scalar.val_add, add_smul]
  congr 1
  abel

/-- Encrypting accepted phone numbers: the decrypted point determines the number. -/
theorem C28_phone_number {R : Type} [RngCore R] (r : R) {b b' : Bytes} {p p' : Scalar}
    (n n' : Scalar) (h : PhoneNumber.tryFromBytes b = .ok p) (h' : PhoneNumber.tryFromBytes b' = .ok p') :
    let k := (Elgamal.Keypair.generate (G := G) r).1
    SecretKey.decrypt k.secretKey (PhoneNumber.encrypt p k n) =
      SecretKey.decrypt k.secretKey (PhoneNumber.encrypt p' k n') ↔ b = b' := by
  intro k
  rw [PhoneNumber.encrypt, PhoneNumber.encrypt, C28_correct, C28_correct, messageOfScalar,
    messageOfScalar, Scalar.smul_def, Scalar.smul_def, smul_right_inj' Ristretto.base_ne]
  constructor
  · exact C17_injective h h'
  · rintro rfl
    rw [h] at h'
    rw [Res.ok.inj h']

example : ∃ p, PhoneNumber.tryFromBytes [1, 2, 3] = .ok p :=
  ⟨_, PhoneNumber.encodeWith_ok _ _ (by decide)⟩

end ElGamal

end Verif
