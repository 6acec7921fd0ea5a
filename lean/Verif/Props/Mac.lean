import Verif.Model.Issuer
import Verif.Toy

/-!
# Algebraic MACs (C21–C25)
-/

set_option maxRecDepth 100000

namespace Verif

open Amacs

variable {G : Type} [AddCommGroup G] [Module F G] [Ristretto G] [DecidableEq G]

/-- `x0 + Σ xᵢ·mᵢ` in the scalar field, over the positions both lists have. -/
def Spec.macFactor (x0 : F) : List F → List F → F
  | x :: xs, m :: ms => x * m + Spec.macFactor x0 xs ms
  | _, _ => x0

/-- The MAC equation of Chase–Meiklejohn–Zaverucha: `Q = (x0 + Σ xᵢ·mᵢ)·P`. -/
def Spec.MacValid (k : SecretKey) (t : Tag G) (m : List Scalar) : Prop :=
  t.mac = Spec.macFactor k.x0.val (k.xn.map Scalar.val) (m.map Scalar.val) • t.nonce

private theorem foldl_val (f : Scalar → Scalar × Scalar → Scalar)
    (hf : ∀ e xm, (f e xm).val = e.val + xm.1.val * xm.2.val) :
    ∀ (xs ms : List Scalar) (e : Scalar), ((xs.zip ms).foldl f e).val =
      Spec.macFactor e.val (xs.map Scalar.val) (ms.map Scalar.val)
  | [], _, e => by simp [Spec.macFactor]
  | x :: xs, [], e => by simp [Spec.macFactor]
  | x :: xs, m :: ms, e => by
    have shift : ∀ (xs ms : List F) (e d : F), Spec.macFactor (e + d) xs ms =
        d + Spec.macFactor e xs ms := by
      intro xs
      induction xs with
      | nil => intro ms e d; simp [Spec.macFactor, add_comm]
      | cons x xs ih =>
        intro ms e d
        cases ms with
        | nil => simp [Spec.macFactor, add_comm]
        | cons m ms => simp only [Spec.macFactor, ih]; ring
    rw [List.zip_cons_cons, List.foldl_cons, foldl_val f hf xs ms, hf, List.map_cons, List.map_cons,
      Spec.macFactor, shift]

theorem macExponent_val (k : SecretKey) (m : List Scalar) :
    (k.macExponent m).val =
      Spec.macFactor k.x0.val (k.xn.map Scalar.val) (m.map Scalar.val) :=
  foldl_val _ (fun e xm => by simp) _ _ _

theorem verifyExponent_val (k : SecretKey) (m : List Scalar) :
    (k.verifyExponent m).val =
      Spec.macFactor k.x0.val (k.xn.map Scalar.val) (m.map Scalar.val) :=
  foldl_val _ (fun e xm => by simp [add_comm]) _ _ _

/-! ## C22 exact verification (used by C21) -/

/-- `verify` accepts exactly the solutions of the MAC equation whose nonce is not the basepoint. -/
theorem C22_verify_iff (k : SecretKey) (t : Tag G) (m : List Scalar) :
    k.verify t m = .ok () ↔ t.nonce ≠ basepoint G ∧ Spec.MacValid k t m := by
  rw [SecretKey.verify, Spec.MacValid, ← verifyExponent_val]
  split
  · rename_i h; simp [h]
  · rename_i h
    dsimp only
    split
    · rename_i h2; exact ⟨fun _ => ⟨h, h2⟩, fun _ => rfl⟩
    · rename_i h2; exact ⟨nofun, fun h3 => absurd h3.2 h2⟩

/-- "Ok exactly when the equation holds" is false: a solution with the basepoint as nonce is
rejected. -/
theorem C22_basepoint_rejected (k : SecretKey) (m : List Scalar) :
    ∃ t : Tag G, Spec.MacValid k t m ∧ k.verify t m = .err .authenticationError :=
  ⟨⟨basepoint G, Spec.macFactor k.x0.val (k.xn.map Scalar.val) (m.map Scalar.val) • basepoint G⟩,
    by rw [Spec.MacValid], by rw [SecretKey.verify, if_pos rfl]⟩

/-- For every other nonce the claim holds. Missing: the basepoint as nonce
(`C22_basepoint_rejected`). -/
theorem C22_verify_iff_partial (k : SecretKey) (t : Tag G) (m : List Scalar)
    (h : t.nonce ≠ basepoint G) : k.verify t m = .ok () ↔ Spec.MacValid k t m := by
  rw [C22_verify_iff]
  exact and_iff_right h

example : (2 : F) ≠ basepoint F := by decide +kernel

/-- The only error is `AuthenticationError`, and `verify` never panics. -/
theorem C22_verify_total (k : SecretKey) (t : Tag G) (m : List Scalar) :
    k.verify t m = .ok () ∨ k.verify t m = .err .authenticationError := by
  rw [SecretKey.verify]
  split
  · exact .inr rfl
  · dsimp only
    split
    · exact .inl rfl
    · exact .inr rfl

/-- One attribute, non-zero key, non-identity nonce: the tag determines the message modulo the group
order. -/
theorem C22_unique_message {x0 x1 m m' : Scalar} {t : Tag G} (hx : x1.val ≠ 0) (hP : t.nonce ≠ 0)
    (h : SecretKey.verify ⟨x0, [x1]⟩ t [m] = .ok ())
    (h' : SecretKey.verify ⟨x0, [x1]⟩ t [m'] = .ok ()) : m.val = m'.val := by
  have h := ((C22_verify_iff _ _ _).1 h).2
  have h' := ((C22_verify_iff _ _ _).1 h').2
  rw [Spec.MacValid] at h h'
  rw [h, smul_right_inj' hP] at h'
  simp only [Spec.macFactor, List.map_cons, List.map_nil] at h'
  exact mul_left_cancel₀ hx (add_right_cancel h')

example : ∃ (x0 x1 m : Scalar) (t : Tag F), x1.val ≠ 0 ∧ t.nonce ≠ 0 ∧
    SecretKey.verify ⟨x0, [x1]⟩ t [m] = .ok () :=
  ⟨⟨3, by decide⟩, ⟨5, by decide⟩, ⟨7, by decide⟩, ⟨2, 76⟩, by decide +kernel, by decide +kernel,
    by decide +kernel⟩

/-- With a zero key component the message is not bound at all. -/
theorem C22_zero_key (x0 m m' : Scalar) (t : Tag G) :
    SecretKey.verify ⟨x0, [0]⟩ t [m] = SecretKey.verify ⟨x0, [0]⟩ t [m'] := by
  have e : ∀ m : Scalar, (SecretKey.verifyExponent ⟨x0, [0]⟩ [m]) = Scalar.ofF x0.val := by
    intro m
    rw [SecretKey.verifyExponent]
    simp only [List.zip_cons_cons, List.zip_nil_left, List.foldl_cons, List.foldl_nil, Scalar.add_def,
      Scalar.val_mul, Scalar.val_zero, zero_mul, zero_add]
  simp only [SecretKey.verify, e]

/-- Aliases: `verify` cannot distinguish a message from the same value plus the group order. -/
theorem C22_mod_order (k : SecretKey) (t : Tag G) {m m' : List Scalar}
    (h : m.map Scalar.val = m'.map Scalar.val) : k.verify t m = k.verify t m' := by
  rcases C22_verify_total k t m with h1 | h1 <;> rcases C22_verify_total k t m' with h2 | h2
  · rw [h1, h2]
  · have := (C22_verify_iff k t m').2 (by
      have := (C22_verify_iff k t m).1 h1
      rwa [Spec.MacValid, h] at this)
    rw [this] at h2; cases h2
  · have := (C22_verify_iff k t m).2 (by
      have := (C22_verify_iff k t m').1 h2
      rwa [Spec.MacValid, ← h] at this)
    rw [this] at h1; cases h1
  · rw [h1, h2]

example : [(⟨5, by decide⟩ : Scalar)].map Scalar.val = [(⟨5 + ell, by decide⟩ : Scalar)].map Scalar.val := by
  decide +kernel

/-! ## C21 completeness -/

omit [DecidableEq G] in
/-- `mac` on a message of matching length returns a solution of the MAC equation whose nonce is the
drawn multiple of the basepoint. -/
theorem C21_mac_valid {R : Type} [RngCore R] (k : SecretKey) (m : List Scalar) (r : R)
    (h : k.xn.length = m.length) :
    ∃ t : Tag G, (k.mac m r).1 = .ok t ∧ Spec.MacValid k t m ∧
      t.nonce = (leVal (RngCore.fill r 64).1 : F) • basepoint G := by
  rw [SecretKey.mac, if_neg (by simpa using h)]
  refine ⟨_, rfl, ?_, ?_⟩
  · rw [Spec.MacValid, ← macExponent_val]; rfl
  · simp only [Scalar.random, Scalar.smul_def, Scalar.fromWide, Scalar.val_ofF]

/-- The tag is accepted unless the drawn nonce is 1 modulo the group order. Missing from the full
claim: that one nonce, for which it is false (`C21_nonce_one_rejected`). -/
theorem C21_complete_partial {R : Type} [RngCore R] (k : SecretKey) (m : List Scalar) (r : R)
    (h : k.xn.length = m.length) (h1 : leVal (RngCore.fill r 64).1 % ell ≠ 1) :
    ∃ t : Tag G, (k.mac m r).1 = .ok t ∧ k.verify t m = .ok () := by
  obtain ⟨t, h2, h3, h4⟩ := C21_mac_valid (G := G) k m r h
  refine ⟨t, h2, (C22_verify_iff _ _ _).2 ⟨?_, h3⟩⟩
  intro h5
  rw [h4] at h5
  have h6 := (smul_right_inj' (s := (leVal (RngCore.fill r 64).1 : F)) (t := 1)
    (Ristretto.base_ne (G := G))).1 (by rw [one_smul]; exact h5)
  apply h1
  have h7 := (ZMod.natCast_eq_natCast_iff' (leVal (RngCore.fill r 64).1) 1 ell).1 (by simpa using h6)
  rw [h7, Nat.mod_eq_of_lt ell_prime.one_lt]

example : let k : SecretKey := ⟨⟨3, by decide⟩, [⟨5, by decide⟩]⟩
    k.xn.length = [(⟨7, by decide⟩ : Scalar)].length ∧
      leVal (RngCore.fill (⟨1⟩ : ToyRng) 64).1 % ell ≠ 1 := ⟨rfl, by decide +kernel⟩

/-- An RNG whose bytes are 1 modulo the group order makes `mac` return a tag `verify` rejects. -/
theorem C21_nonce_one_rejected {R : Type} [RngCore R] (k : SecretKey) (m : List Scalar) (r : R)
    (h : k.xn.length = m.length) (h1 : leVal (RngCore.fill r 64).1 % ell = 1) :
    ∃ t : Tag G, (k.mac m r).1 = .ok t ∧ k.verify t m = .err .authenticationError := by
  obtain ⟨t, h2, h3, h4⟩ := C21_mac_valid (G := G) k m r h
  refine ⟨t, h2, ?_⟩
  have e : (leVal (RngCore.fill r 64).1 : F) = 1 := by
    have := (ZMod.natCast_eq_natCast_iff' (leVal (RngCore.fill r 64).1) 1 ell).2
      (by rw [h1, Nat.mod_eq_of_lt ell_prime.one_lt])
    simpa using this
  rw [e, one_smul] at h4
  rw [SecretKey.verify, if_pos h4]

example : let k : SecretKey := ⟨⟨3, by decide⟩, [⟨5, by decide⟩]⟩
    k.xn.length = [(⟨7, by decide⟩ : Scalar)].length ∧
      leVal (RngCore.fill (⟨0⟩ : ToyRng) 64).1 % ell = 1 := ⟨rfl, by decide +kernel⟩

/-- The full claim of C21, refuted (the toy counter RNG at 0 yields 1). -/
theorem C21_false : ¬ ∀ (k : SecretKey) (m : List Scalar) (r : ToyRng) (t : Tag F),
    k.xn.length = m.length → (k.mac m r).1 = .ok t → k.verify t m = .ok () := by
  intro h
  obtain ⟨t, h1, h2⟩ := C21_nonce_one_rejected (G := F) ⟨0, [0]⟩ [0] (⟨0⟩ : ToyRng) rfl
    (by decide +kernel)
  rw [h _ _ _ t rfl h1] at h2
  cases h2

/-! ## C23 degenerate tags and lengths -/

/-- The identity tag verifies for every key and message: the claim is false. -/
theorem C23_identity_accepted (k : SecretKey) (m : List Scalar) :
    k.verify (⟨0, 0⟩ : Tag G) m = .ok () :=
  (C22_verify_iff _ _ _).2 ⟨(Ristretto.base_ne (G := G)).symm, by simp [Spec.MacValid]⟩

/-- Exactly which tags with identity nonce are accepted. -/
theorem C23_zero_nonce_iff (k : SecretKey) (Q : G) (m : List Scalar) :
    k.verify (⟨0, Q⟩ : Tag G) m = .ok () ↔ Q = 0 := by
  rw [C22_verify_iff, Spec.MacValid]
  simp only [smul_zero, and_iff_right_iff_imp]
  intro _
  exact (Ristretto.base_ne (G := G)).symm

/-- Missing attributes count as zero: a shorter message is accepted in place of one padded with
zeroes. -/
theorem C23_short_message (k : SecretKey) (t : Tag G) (m : List Scalar) (n : ℕ) :
    k.verify t m = .ok () ↔ k.verify t (m ++ List.replicate n 0) = .ok () := by
  rw [C22_verify_iff, C22_verify_iff, Spec.MacValid, Spec.MacValid]
  have e : ∀ (xs ms : List F) (x0 : F),
      Spec.macFactor x0 xs (ms ++ List.replicate n 0) = Spec.macFactor x0 xs ms := by
    have e0 : ∀ (n : ℕ) (xs : List F) (x0 : F), Spec.macFactor x0 xs (List.replicate n 0) = x0 := by
      intro n
      induction n with
      | zero => intro xs x0; simp [Spec.macFactor]
      | succ n ih =>
        intro xs x0
        cases xs with
        | nil => simp [Spec.macFactor]
        | cons x xs => simp [List.replicate_succ, Spec.macFactor, ih]
    intro xs
    induction xs with
    | nil => intro ms x0; cases ms <;> simp [Spec.macFactor]
    | cons x xs ih =>
      intro ms x0
      cases ms with
      | nil => simpa [Spec.macFactor] using e0 n (x :: xs) x0
      | cons m ms => simp [Spec.macFactor, ih]
  rw [List.map_append, List.map_replicate, Scalar.val_zero, e]

/-- Extra attributes are ignored. -/
theorem C23_long_message (k : SecretKey) (t : Tag G) (m extra : List Scalar)
    (h : k.xn.length ≤ m.length) : k.verify t (m ++ extra) = k.verify t m := by
  have e : k.xn.zip (m ++ extra) = k.xn.zip m := by
    have h2 : ∀ (a b c : List Scalar), a.length ≤ b.length → a.zip (b ++ c) = a.zip b := by
      intro a
      induction a with
      | nil => simp
      | cons x a ih =>
        intro b c h
        cases b with
        | nil => simp at h
        | cons y b => simp [ih b c (by simpa using h)]
    exact h2 _ _ _ h
  have e2 : k.verifyExponent (m ++ extra) = k.verifyExponent m := by
    simp only [SecretKey.verifyExponent, e]
  simp only [SecretKey.verify, e2]

example : (⟨0, [0]⟩ : SecretKey).xn.length ≤ [(0 : Scalar)].length := le_rfl

/-- The full claim of C23, refuted in both halves. -/
theorem C23_false :
    (¬ ∀ (k : SecretKey) (m : List Scalar), k.verify (⟨0, 0⟩ : Tag F) m ≠ .ok ()) ∧
    ¬ ∀ (k : SecretKey) (t : Tag F) (m : List Scalar), m.length ≠ k.xn.length →
      k.verify t m ≠ .ok () := by
  refine ⟨fun h => h ⟨0, []⟩ [] (C23_identity_accepted _ _), fun h => ?_⟩
  exact h ⟨1, []⟩ ⟨2, 2⟩ [1] (by decide) (by decide +kernel)

omit [DecidableEq G] in
/-- The part of C23 that holds: `mac` returns an error exactly for wrong lengths (without touching
the RNG), and never panics. Missing: everything about `verify`. -/
theorem C23_mac_length_partial {R : Type} [RngCore R] (k : SecretKey) (m : List Scalar) (r : R) :
    (k.xn.length ≠ m.length ↔
      (k.mac m r : Res MacError (Tag G) × R) = (.err (.messageLengthError k.xn.length), r)) ∧
    (k.xn.length = m.length ↔ ∃ t : Tag G, (k.mac m r).1 = .ok t) := by
  by_cases h : k.xn.length = m.length
  · obtain ⟨t, h2, _⟩ := C21_mac_valid (G := G) k m r h
    refine ⟨⟨fun h' => absurd h h', fun h' => ?_⟩, fun _ => ⟨t, h2⟩, fun _ => h⟩
    rw [h'] at h2; cases h2
  · have e : (k.mac m r : Res MacError (Tag G) × R) = (.err (.messageLengthError k.xn.length), r) := by
      rw [SecretKey.mac, if_pos h]
    refine ⟨⟨fun _ => e, fun _ => h⟩, fun h' => absurd h' h, ?_⟩
    rintro ⟨t, ht⟩
    rw [e] at ht; cases ht

/-! ## C24 rerandomisation -/

omit [Ristretto G] [DecidableEq G] in
/-- A non-zero rerandomisation preserves the MAC equation in both directions, for every message. -/
theorem C24_valid_iff (k : SecretKey) (t : Tag G) (m : List Scalar) {r : Scalar} (hr : r.val ≠ 0) :
    Spec.MacValid k (applyToTag r t) m ↔ Spec.MacValid k t m := by
  simp only [Spec.MacValid, applyToTag, Scalar.smul_def]
  rw [smul_comm]
  exact smul_right_injective G hr |>.eq_iff

example : (⟨7, by decide⟩ : Scalar).val ≠ 0 := by decide +kernel

omit [Ristretto G] [DecidableEq G] in
/-- A zero rerandomisation turns every tag into the identity tag, which verifies for every message. -/
theorem C24_zero (t : Tag G) {r : Scalar} (hr : r.val = 0) : applyToTag r t = ⟨0, 0⟩ := by
  simp [applyToTag, Scalar.smul_def, hr]

example : (⟨ell, by decide⟩ : Scalar).val = 0 ∧
    applyToTag (⟨ell, by decide⟩ : Scalar) (⟨2, 76⟩ : Tag F) = ⟨0, 0⟩ :=
  have h : (⟨ell, by decide⟩ : Scalar).val = 0 := by decide +kernel
  ⟨h, C24_zero _ h⟩

omit [Ristretto G] [DecidableEq G] in
theorem C24_compose (t : Tag G) (r s : Scalar) :
    applyToTag s (applyToTag r t) = applyToTag (s * r) t := by
  simp [applyToTag, Scalar.smul_def, smul_smul]

omit [Ristretto G] [DecidableEq G] in
theorem C24_one (t : Tag G) : applyToTag 1 t = t := by
  simp [applyToTag, Scalar.smul_def]

omit [DecidableEq G] in
/-- Any two valid tags for messages with the same MAC factor (in particular the same message), with
non-identity nonces, differ by exactly one canonical rerandomisation, and it is non-zero. -/
theorem C24_transitive {k : SecretKey} {m : List Scalar} {t t' : Tag G} (ht : Spec.MacValid k t m)
    (ht' : Spec.MacValid k t' m) (hP : t.nonce ≠ 0) (hP' : t'.nonce ≠ 0) :
    ∃ r : Scalar, (r.Reduced ∧ applyToTag r t = t') ∧ r.val ≠ 0 ∧
      ∀ s : Scalar, s.Reduced → applyToTag s t = t' → s = r := by
  obtain ⟨r, hr⟩ := exists_smul_of_ne_zero hP t'.nonce
  have e : applyToTag (Scalar.ofF r) t = t' := by
    apply Tag.ext
    · simp [applyToTag, Scalar.smul_def, hr]
    · simp only [applyToTag, Scalar.smul_def, Scalar.val_ofF]
      rw [ht, ht', hr, smul_comm]
  refine ⟨Scalar.ofF r, ⟨Scalar.reduced_ofF _, e⟩, ?_, ?_⟩
  · intro h0
    rw [Scalar.val_ofF] at h0
    rw [h0, zero_smul] at hr
    exact hP' hr
  · intro s hs h
    have h1 := congrArg Tag.nonce (h.trans e.symm)
    simp only [applyToTag, Scalar.smul_def] at h1
    have h2 := (smul_right_inj' hP).1 h1
    apply Scalar.ext
    have h3 := congrArg ZMod.val h2
    rw [Scalar.val_ofF] at h3
    rw [Scalar.val, ZMod.val_natCast, Nat.mod_eq_of_lt hs] at h3
    rw [h3]; rfl

example : ∃ (k : SecretKey) (m : List Scalar) (t t' : Tag F), Spec.MacValid k t m ∧
    Spec.MacValid k t' m ∧ t.nonce ≠ 0 ∧ t'.nonce ≠ 0 := by
  refine ⟨⟨⟨3, by decide⟩, [⟨5, by decide⟩]⟩, [⟨7, by decide⟩], ⟨2, 76⟩, ⟨3, 114⟩, ?_, ?_,
    by decide +kernel, by decide +kernel⟩
  · show (76 : F) = _ • (2 : F); decide +kernel
  · show (114 : F) = _ • (3 : F); decide +kernel

/-- The code's `verify` follows, as long as neither nonce is the basepoint. Missing: that nonce
(`C24_verify_false`). -/
theorem C24_verify_iff_partial (k : SecretKey) (t : Tag G) (m : List Scalar) {r : Scalar} (hr : r.val ≠ 0)
    (h1 : t.nonce ≠ basepoint G) (h2 : (applyToTag r t).nonce ≠ basepoint G) :
    k.verify (applyToTag r t) m = .ok () ↔ k.verify t m = .ok () := by
  rw [C22_verify_iff, C22_verify_iff, C24_valid_iff k t m hr]
  exact ⟨fun h => ⟨h1, h.2⟩, fun h => ⟨h2, h.2⟩⟩

example : ∃ (t : Tag F) (r : Scalar), r.val ≠ 0 ∧ t.nonce ≠ basepoint F ∧
    (applyToTag r t).nonce ≠ basepoint F :=
  ⟨⟨2, 3⟩, ⟨7, by decide⟩, by decide +kernel, by decide +kernel, by decide +kernel⟩

/-- Through `verify` the claim is false: for every valid tag with a non-identity nonce there is a
non-zero rerandomisation that `verify` rejects. -/
theorem C24_verify_false {k : SecretKey} {m : List Scalar} {t : Tag G} (hP : t.nonce ≠ 0) :
    ∃ r : Scalar, r.val ≠ 0 ∧ k.verify (applyToTag r t) m = .err .authenticationError := by
  obtain ⟨r, hr⟩ := exists_smul_of_ne_zero hP (basepoint G)
  refine ⟨Scalar.ofF r, ?_, ?_⟩
  · intro h0
    rw [Scalar.val_ofF] at h0
    rw [h0, zero_smul] at hr
    exact Ristretto.base_ne hr
  · rw [SecretKey.verify, if_pos]
    simp [applyToTag, Scalar.smul_def, hr]

example : ∃ r : Scalar, r.val ≠ 0 ∧
    SecretKey.verify ⟨⟨3, by decide⟩, [⟨5, by decide⟩]⟩ (applyToTag r (⟨2, 76⟩ : Tag F))
      [⟨7, by decide⟩] = .err .authenticationError :=
  C24_verify_false (by decide +kernel)

/-! ## C25 nonce reuse across issuances -/

/-- What anyone can compute from two tags on `m1`, `m2` to get a tag on `m`. -/
def Spec.forge (t1 t2 : Tag G) (m1 m2 m : F) : Tag G :=
  ⟨t1.nonce, t1.mac + ((m - m1) / (m1 - m2)) • (t1.mac - t2.mac)⟩

omit [Ristretto G] [DecidableEq G] in
/-- Two valid tags with the same nonce on different attributes give a valid tag on every attribute,
computed without the key. -/
theorem C25_forgery {x0 x1 m1 m2 m : Scalar} {t1 t2 : Tag G} (hn : t1.nonce = t2.nonce)
    (hm : m1.val ≠ m2.val) (h1 : Spec.MacValid ⟨x0, [x1]⟩ t1 [m1])
    (h2 : Spec.MacValid ⟨x0, [x1]⟩ t2 [m2]) :
    Spec.MacValid ⟨x0, [x1]⟩ (Spec.forge t1 t2 m1.val m2.val m.val) [m] := by
  simp only [Spec.MacValid, Spec.forge, Spec.macFactor, List.map_cons, List.map_nil] at *
  rw [h1, h2, ← hn, ← sub_smul, smul_smul, ← add_smul]
  congr 1
  have : m1.val - m2.val ≠ 0 := sub_ne_zero.2 hm
  field_simp
  ring

example : Spec.MacValid ⟨⟨3, by decide⟩, [⟨5, by decide⟩]⟩
    (Spec.forge (⟨2, 76⟩ : Tag F) ⟨2, 86⟩ 7 8 9) [⟨9, by decide⟩] :=
  C25_forgery (m1 := ⟨7, by decide⟩) (m2 := ⟨8, by decide⟩) (m := ⟨9, by decide⟩) rfl
    (by decide +kernel) (by show (76 : F) = _ • (2 : F); decide +kernel)
    (by show (86 : F) = _ • (2 : F); decide +kernel)

omit [DecidableEq G] in
/-- The tag nonce of an issued credential depends only on the issuer's RNG output. -/
theorem C25_nonce_of_issue {R : Type} [RngCore R] {O : Oracle} {i : Issuer G} {rq : CredentialRequest}
    {rng : R} {entropy : Bytes} {c : CredentialIssuance G}
    (h : (i.issue O rq rng entropy).1 = .ok c) :
    c.credential.mac.nonce = (leVal (O.rng [.init "AEONFLUX ISSUANCE"] []
      (RngCore.fill rng 32).1 [] 64) : F) • basepoint G := by
  rw [Issuer.issue] at h
  split at h
  · cases h
  · rename_i X1 _
    split at h
    · cases h
    · dsimp only at h
      rw [Res.bind_eq_ok] at h
      obtain ⟨tag, h1, h⟩ := h
      rw [Res.bind_eq_ok] at h
      obtain ⟨m0, _, h⟩ := h
      obtain rfl := Res.ok.inj h
      rw [Res.mapErr_eq_ok, SecretKey.mac] at h1
      split at h1
      · cases h1
      · obtain rfl := Res.ok.inj h1
        simp only [Scalar.random, Scalar.smul_def, Scalar.fromWide, Scalar.val_ofF]
        rfl

omit [DecidableEq G] in
/-- An issued credential satisfies the MAC equation for exactly the requested attributes. -/
theorem C25_issue_valid {R : Type} [RngCore R] {O : Oracle} {i : Issuer G} {rq : CredentialRequest}
    {rng : R} {entropy : Bytes} {c : CredentialIssuance G}
    (h : (i.issue O rq rng entropy).1 = .ok c) :
    c.credential.attributes = rq.attributesRevealed ∧
      Spec.MacValid i.keypair.secretKey c.credential.mac rq.attributesRevealed := by
  rw [Issuer.issue] at h
  split at h
  · cases h
  · rename_i X1 _
    split at h
    · cases h
    · dsimp only at h
      rw [Res.bind_eq_ok] at h
      obtain ⟨tag, h1, h⟩ := h
      rw [Res.bind_eq_ok] at h
      obtain ⟨m0, _, h⟩ := h
      obtain rfl := Res.ok.inj h
      refine ⟨rfl, ?_⟩
      rw [Res.mapErr_eq_ok, SecretKey.mac] at h1
      split at h1
      · cases h1
      · obtain rfl := Res.ok.inj h1
        rw [Spec.MacValid, ← macExponent_val]; rfl

omit [DecidableEq G] in
/-- The claim of C25 is false: two issuances made with the same RNG seed (the FFI takes the seed as
an argument) for different attributes yield, by public arithmetic, a valid tag on any attribute. -/
theorem C25_seed_reuse_forgery {R : Type} [RngCore R] {O : Oracle} {sp : SystemParameters G}
    {pk : PublicKey G} {x0 x1 m1 m2 : Scalar} {rng1 rng2 : R} {e1 e2 : Bytes}
    {c1 c2 : CredentialIssuance G} (hm : m1.val ≠ m2.val)
    (hrng : (RngCore.fill rng1 32).1 = (RngCore.fill rng2 32).1)
    (h1 : (Issuer.issue O ⟨sp, ⟨pk, ⟨x0, [x1]⟩⟩⟩ ⟨[m1]⟩ rng1 e1).1 = .ok c1)
    (h2 : (Issuer.issue O ⟨sp, ⟨pk, ⟨x0, [x1]⟩⟩⟩ ⟨[m2]⟩ rng2 e2).1 = .ok c2) (m : Scalar) :
    Spec.MacValid ⟨x0, [x1]⟩
      (Spec.forge c1.credential.mac c2.credential.mac m1.val m2.val m.val) [m] := by
  apply C25_forgery _ hm (C25_issue_valid h1).2 (C25_issue_valid h2).2
  rw [C25_nonce_of_issue h1, C25_nonce_of_issue h2, hrng]

/-- The hypotheses are met by real issuances. -/
example : ∃ c1 c2 : CredentialIssuance F,
    (Issuer.issue toyOracle (⟨⟨1, 2⟩, ⟨⟨[10]⟩, ⟨⟨3, by decide⟩, [⟨5, by decide⟩]⟩⟩⟩ : Issuer F)
      ⟨[⟨7, by decide⟩]⟩ (⟨4⟩ : ToyRng) []).1 = .ok c1 ∧
    (Issuer.issue toyOracle (⟨⟨1, 2⟩, ⟨⟨[10]⟩, ⟨⟨3, by decide⟩, [⟨5, by decide⟩]⟩⟩⟩ : Issuer F)
      ⟨[⟨8, by decide⟩]⟩ (⟨4⟩ : ToyRng) []).1 = .ok c2 := by
  refine ⟨_, _, rfl, rfl⟩

omit [DecidableEq G] in
/-- What remains of C25: issuances whose RNG outputs differ modulo the group order get different
nonces, so the attack above does not apply. Missing: the claim for equal RNG outputs (false) and for
all computations on the tags (see C62 for linear ones). -/
theorem C25_distinct_nonces_partial {R : Type} [RngCore R] {O : Oracle} {i : Issuer G}
    {rq1 rq2 : CredentialRequest} {rng1 rng2 : R} {e1 e2 : Bytes} {c1 c2 : CredentialIssuance G}
    (h1 : (i.issue O rq1 rng1 e1).1 = .ok c1) (h2 : (i.issue O rq2 rng2 e2).1 = .ok c2) :
    c1.credential.mac.nonce = c2.credential.mac.nonce ↔
      leVal (O.rng [.init "AEONFLUX ISSUANCE"] [] (RngCore.fill rng1 32).1 [] 64) % ell =
      leVal (O.rng [.init "AEONFLUX ISSUANCE"] [] (RngCore.fill rng2 32).1 [] 64) % ell := by
  rw [C25_nonce_of_issue h1, C25_nonce_of_issue h2, smul_right_inj' Ristretto.base_ne]
  exact ZMod.natCast_eq_natCast_iff' _ _ _

/-- Two issuances with different random values. -/
example : ∃ c1 c2 : CredentialIssuance F,
    (Issuer.issue toyOracle (⟨⟨1, 2⟩, ⟨⟨[10]⟩, ⟨⟨3, by decide⟩, [⟨5, by decide⟩]⟩⟩⟩ : Issuer F)
      ⟨[⟨7, by decide⟩]⟩ (⟨4⟩ : ToyRng) []).1 = .ok c1 ∧
    (Issuer.issue toyOracle (⟨⟨1, 2⟩, ⟨⟨[10]⟩, ⟨⟨3, by decide⟩, [⟨5, by decide⟩]⟩⟩⟩ : Issuer F)
      ⟨[⟨8, by decide⟩]⟩ (⟨9⟩ : ToyRng) []).1 = .ok c2 := by
  refine ⟨_, _, rfl, rfl⟩

end Verif
