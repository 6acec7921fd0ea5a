import Verif.Props.Coins

/-!
# C90: ElGamal encryption hides the message if the decisional Diffie–Hellman problem is hard

`elgamal::PublicKey::encrypt` and `PhoneNumber::encrypt`, with keys from `Keypair::generate` and nonces from
`Ephemeral::new`. An adversary that tells encryptions apart decides, with almost the same advantage, whether a triple
of elements is a Diffie–Hellman triple; and the other way round.
-/

set_option maxRecDepth 100000
set_option exponentiation.threshold 600

namespace Verif

variable {G : Type} [AddCommGroup G] [Module F G] [Ristretto G]

/-! ## The games -/

/-- An algorithm that tosses coins and decides. -/
inductive Spec.Decider where
  | toss (next : F → Spec.Decider)
  | done (b : Bool)

/-- The probability that it says yes. -/
noncomputable def Spec.Decider.yes : Spec.Decider → ℚ
  | .toss next => Spec.mean fun c => (next c).yes
  | .done b => if b then 1 else 0

/-- How well an algorithm that gets three elements tells Diffie–Hellman triples from random ones. -/
noncomputable def Spec.ddh (D : G → G → G → Spec.Decider) : ℚ :=
  |(Spec.mean fun x : F => Spec.mean fun y : F =>
      (D (x • basepoint G) (y • basepoint G) ((x * y) • basepoint G)).yes) -
    Spec.mean fun x : F => Spec.mean fun y : F => Spec.mean fun z : F =>
      (D (x • basepoint G) (y • basepoint G) (z • basepoint G)).yes|

/-- An adversary against encryption: it chooses two messages, gets the encryption of one of them, always the first
or always the second, as often as it likes; it tosses coins; and it says which. -/
inductive Spec.Chooser (G : Type) where
  | query (m0 m1 : G) (next : Elgamal.Encryption G → Spec.Chooser G)
  | toss (next : F → Spec.Chooser G)
  | done (b : Bool)

namespace Spec.Chooser

/-- At most `n` encryptions. -/
def Within : Spec.Chooser G → ℕ → Prop
  | .query _ _ next, n => ∃ k, n = k + 1 ∧ ∀ e, (next e).Within k
  | .toss next, n => ∀ c, (next c).Within n
  | .done _, _ => True

/-- The probability that it says yes, when it gets encryptions of the second message if `b`. The nonces are drawn as
`Ephemeral::new` does: 64 bytes, reduced. -/
noncomputable def yes (k : Elgamal.Keypair G) (b : Bool) : Spec.Chooser G → ℚ
  | .query m0 m1 next => Spec.mean fun a : Spec.Answer =>
      (next (k.encrypt (if b then m1 else m0) (Scalar.fromWide a.1))).yes k b
  | .toss next => Spec.mean fun c => (next c).yes k b
  | .done x => if x then 1 else 0

/-- How the adversary is used to decide about `X`, `Y`, `Z`. For each encryption a new triple `X`, `Y'`, `Z'` is made
that is a Diffie–Hellman triple if the given one is. -/
def decide (b : Bool) (X Y Z : G) : Spec.Chooser G → Spec.Decider
  | .query m0 m1 next => .toss fun s => .toss fun t =>
      (next ⟨t • Y + s • basepoint G, (if b then m1 else m0) + (t • Z + s • X)⟩).decide b X Y Z
  | .toss next => .toss fun c => (next c).decide b X Y Z
  | .done x => .done x

end Spec.Chooser

/-- A key pair from 64 bytes, as `Keypair::generate` makes it. -/
def Spec.elgamalKey (a : Spec.Answer) : Elgamal.Keypair G :=
  ⟨Scalar.fromWide a.1, Scalar.fromWide a.1 • basepoint G⟩

/-- The adversary gets the public key. -/
noncomputable def Spec.guesses (A : G → Spec.Chooser G) (b : Bool) : ℚ :=
  Spec.mean fun a : Spec.Answer => (A (Spec.elgamalKey a).publicKey).yes (Spec.elgamalKey a) b

/-- The game's key is that of `Keypair::generate`, and encryptions of phone numbers are those in the game. -/
theorem C90_code {R : Type} [RngCore R] (r : R) (p : Scalar) (k : Elgamal.Keypair G) (nonce : Scalar) :
    (∃ a : Spec.Answer, [a.1] = (Spec.reads [64] r).1 ∧
      (Elgamal.Keypair.generate r).1 = Spec.elgamalKey (G := G) a) ∧
    (∃ a : Spec.Answer, [a.1] = (Spec.reads [64] r).1 ∧ (Ephemeral.new r).1 = Scalar.fromWide a.1) ∧
    PhoneNumber.encrypt p k nonce = k.encrypt (p.val • basepoint G) nonce :=
  ⟨⟨⟨(RngCore.fill r 64).1, RngCore.fill_length r 64⟩, rfl, rfl⟩,
    ⟨⟨(RngCore.fill r 64).1, RngCore.fill_length r 64⟩, rfl, rfl⟩, rfl⟩

/-! ## The reduction -/

namespace Ddh

theorem decider01 (D : Spec.Decider) : 0 ≤ D.yes ∧ D.yes ≤ 1 := by
  induction D with
  | toss next ih => exact Sim.mean01 fun c => ih c
  | done b => cases b <;> simp [Spec.Decider.yes]

theorem yes01 (k : Elgamal.Keypair G) (b : Bool) (A : Spec.Chooser G) : 0 ≤ A.yes k b ∧ A.yes k b ≤ 1 := by
  induction A with
  | query m0 m1 next ih => exact Sim.mean01 fun a => ih _
  | toss next ih => exact Sim.mean01 fun c => ih c
  | done b => cases b <;> simp [Spec.Chooser.yes]

/-- With uniform nonces. -/
noncomputable def fresh (X : G) (b : Bool) : Spec.Chooser G → ℚ
  | .query m0 m1 next => Spec.mean fun r : F =>
      fresh X b (next ⟨r • basepoint G, (if b then m1 else m0) + r • X⟩)
  | .toss next => Spec.mean fun c => fresh X b (next c)
  | .done x => if x then 1 else 0

/-- With random elements instead of encryptions. -/
noncomputable def blind : Spec.Chooser G → ℚ
  | .query _ _ next => Spec.mean fun p : F × F => blind (next ⟨p.1 • basepoint G, p.2 • basepoint G⟩)
  | .toss next => Spec.mean fun c => blind (next c)
  | .done x => if x then 1 else 0

theorem fresh01 (X : G) (b : Bool) (A : Spec.Chooser G) : 0 ≤ fresh X b A ∧ fresh X b A ≤ 1 := by
  induction A with
  | query m0 m1 next ih => exact Sim.mean01 fun a => ih _
  | toss next ih => exact Sim.mean01 fun c => ih c
  | done b => cases b <;> simp [fresh]

theorem blind01 (A : Spec.Chooser G) : 0 ≤ blind A ∧ blind A ≤ 1 := by
  induction A with
  | query m0 m1 next ih => exact Sim.mean01 fun a => ih _
  | toss next ih => exact Sim.mean01 fun c => ih c
  | done b => cases b <;> simp [blind]

theorem near_fresh (k : Elgamal.Keypair G) (b : Bool) (A : Spec.Chooser G) : ∀ n, A.Within n →
    |A.yes k b - fresh k.publicKey b A| ≤ n * Coins.bias := by
  induction A with
  | query m0 m1 next ih =>
    rintro _ ⟨n, rfl, h⟩
    have h1 := Coins.near1.mean (ε := n * Coins.bias)
      (f := fun r : F => (next ⟨r • basepoint G, (if b then m1 else m0) + r • k.publicKey⟩).yes k b)
      (g := fun r : F => fresh k.publicKey b (next ⟨r • basepoint G, (if b then m1 else m0) + r • k.publicKey⟩))
      (fun r => yes01 k b _) fun r => ih _ n (h _)
    have e : (Spec.Chooser.query m0 m1 next).yes k b = Spec.mean fun a : Spec.Answer =>
        (next ⟨Spec.coin a.1 • basepoint G, (if b then m1 else m0) + Spec.coin a.1 • k.publicKey⟩).yes k b :=
      Sim.mean_congr fun a => by
        rw [Elgamal.Keypair.encrypt, Elgamal.PublicKey.encrypt, Scalar.smul_def, Scalar.smul_def, Scalar.fromWide,
          Scalar.val_ofF, Spec.coin]
    rw [e]
    refine h1.trans (le_of_eq ?_)
    push_cast
    ring
  | toss next ih => exact fun n h => Sim.abs_sub_mean_le fun c => ih c n (h c)
  | done x =>
    intro n _
    rw [Spec.Chooser.yes, fresh, sub_self, abs_zero]
    exact mul_nonneg (Nat.cast_nonneg n) Coins.bias_nonneg

/-- From a Diffie–Hellman triple, encryptions are made. -/
theorem decide_dh (b : Bool) (x y : F) (A : Spec.Chooser G) :
    (A.decide b (x • basepoint G) (y • basepoint G) ((x * y) • basepoint G)).yes =
      fresh (x • basepoint G) b A := by
  induction A with
  | query m0 m1 next ih =>
    simp only [Spec.Chooser.decide, Spec.Decider.yes, ih, fresh]
    rw [Sim.mean_comm]
    have h : ∀ t : F, (Spec.mean fun s : F => fresh (x • basepoint G) b (next
        ⟨t • y • basepoint G + s • basepoint G,
          (if b then m1 else m0) + (t • (x * y) • basepoint G + s • x • basepoint G)⟩)) =
        Spec.mean fun r : F => fresh (x • basepoint G) b (next
          ⟨r • basepoint G, (if b then m1 else m0) + r • x • basepoint G⟩) := by
      intro t
      rw [← Sim.mean_equiv (Equiv.addLeft (t * y)) fun r : F => fresh (x • basepoint G) b (next
          ⟨r • basepoint G, (if b then m1 else m0) + r • x • basepoint G⟩)]
      refine Sim.mean_congr fun s => ?_
      rw [Equiv.coe_addLeft]
      congr 3
      · module
      · module
    rw [Sim.mean_congr h]
    exact Sim.mean_const (α := F) _
  | toss next ih => exact Sim.mean_congr fun c => ih c
  | done b => rfl

/-- From another triple, random elements are made. -/
theorem decide_random (b : Bool) {x y z : F} (hz : z ≠ x * y) (A : Spec.Chooser G) :
    (A.decide b (x • basepoint G) (y • basepoint G) (z • basepoint G)).yes = blind A := by
  have hd : z - x * y ≠ 0 := sub_ne_zero.2 hz
  induction A with
  | query m0 m1 next ih =>
    simp only [Spec.Chooser.decide, Spec.Decider.yes, ih, blind]
    obtain ⟨μ, hμ⟩ := Ristretto.gen (if b then m1 else m0)
    let e : F × F ≃ F × F :=
      { toFun := fun p => (p.2 * y + p.1, μ + (p.2 * z + p.1 * x))
        invFun := fun q => (q.1 - (q.2 - μ - q.1 * x) / (z - x * y) * y, (q.2 - μ - q.1 * x) / (z - x * y))
        left_inv := fun p => by
          have : μ + (p.2 * z + p.1 * x) - μ - (p.2 * y + p.1) * x = p.2 * (z - x * y) := by ring
          ext
          · simp only [this, mul_div_cancel_right₀ _ hd]; ring
          · simp only [this, mul_div_cancel_right₀ _ hd]
        right_inv := fun q => by
          ext
          · ring
          · field_simp
            ring }
    rw [← Sim.mean_equiv e, ← Sim.mean_pair fun p : F × F => blind (next
      ⟨p.2 • y • basepoint G + p.1 • basepoint G,
        (if b then m1 else m0) + (p.2 • z • basepoint G + p.1 • x • basepoint G)⟩)]
    refine Sim.mean_congr fun p => ?_
    change _ = blind (next ⟨(p.2 * y + p.1) • basepoint G, (μ + (p.2 * z + p.1 * x)) • basepoint G⟩)
    rw [hμ]
    change blind (next ⟨_, μ • basepoint G + _⟩) = _
    congr 3
    · module
    · module
  | toss next ih => exact Sim.mean_congr fun c => ih c
  | done b => rfl

theorem random_near (b : Bool) (x y : F) (A : Spec.Chooser G) :
    |(Spec.mean fun z : F => (A.decide b (x • basepoint G) (y • basepoint G) (z • basepoint G)).yes) - blind A| ≤
      1 / ell := by
  have h : ∀ z : F, |(A.decide b (x • basepoint G) (y • basepoint G) (z • basepoint G)).yes - blind A| ≤
      if z = x * y then 1 else 0 := by
    intro z
    split
    · have h1 := decider01 (A.decide b (x • basepoint G) (y • basepoint G) (z • basepoint G))
      have h2 := blind01 A
      rw [abs_le]
      constructor <;> linarith [h1.1, h1.2, h2.1, h2.2]
    · next hz => rw [decide_random b hz, sub_self, abs_zero]
  have h1 : |(Spec.mean fun z : F => (A.decide b (x • basepoint G) (y • basepoint G) (z • basepoint G)).yes) -
      Spec.mean fun _ : F => blind A| ≤ Spec.mean fun z : F => if z = x * y then (1 : ℚ) else 0 := by
    unfold Spec.mean
    rw [← sub_div, ← Finset.sum_sub_distrib, abs_div, Nat.abs_cast]
    exact div_le_div_of_nonneg_right ((Finset.abs_sum_le_sum_abs _ _).trans (Finset.sum_le_sum fun z _ => h z))
      (Nat.cast_nonneg _)
  have h2 : (Spec.mean fun _ : F => blind A) = blind A := Sim.mean_const (α := F) _
  have h3 : (Spec.mean fun z : F => if z = x * y then (1 : ℚ) else 0) = 1 / ell := by
    unfold Spec.mean
    rw [Finset.sum_ite_eq' Finset.univ, if_pos (Finset.mem_univ _), ZMod.card]
  rwa [h2, h3] at h1

/-- With a uniform key and uniform nonces. -/
theorem uniform (A : G → Spec.Chooser G) :
    |(Spec.mean fun x : F => fresh (x • basepoint G) false (A (x • basepoint G))) -
      Spec.mean fun x : F => fresh (x • basepoint G) true (A (x • basepoint G))| ≤
      Spec.ddh (fun X Y Z => (A X).decide false X Y Z) + Spec.ddh (fun X Y Z => (A X).decide true X Y Z) + 2 / ell := by
  have h1 : ∀ b, |(Spec.mean fun x : F => fresh (x • basepoint G) b (A (x • basepoint G))) -
      Spec.mean fun x : F => blind (A (x • basepoint G))| ≤
      Spec.ddh (fun X Y Z => (A X).decide b X Y Z) + 1 / ell := by
    intro b
    have e : (Spec.mean fun x : F => Spec.mean fun y : F =>
        ((A (x • basepoint G)).decide b (x • basepoint G) (y • basepoint G) ((x * y) • basepoint G)).yes) =
        Spec.mean fun x : F => fresh (x • basepoint G) b (A (x • basepoint G)) :=
      Sim.mean_congr fun x => (Sim.mean_congr fun y => decide_dh b x y _).trans (Sim.mean_const (α := F) _)
    have h2 : |(Spec.mean fun x : F => Spec.mean fun y : F => Spec.mean fun z : F =>
        ((A (x • basepoint G)).decide b (x • basepoint G) (y • basepoint G) (z • basepoint G)).yes) -
        Spec.mean fun x : F => blind (A (x • basepoint G))| ≤ 1 / ell := by
      refine Sim.abs_sub_mean_le fun x => ?_
      have h3 := Sim.abs_sub_mean_le (g := fun _ : F => blind (A (x • basepoint G)))
        fun y => random_near b x y (A (x • basepoint G))
      rwa [show (Spec.mean fun _ : F => blind (A (x • basepoint G))) = blind (A (x • basepoint G)) from
        Sim.mean_const (α := F) _] at h3
    unfold Spec.ddh
    rw [e]
    exact (abs_sub_le _ _ _).trans (add_le_add le_rfl h2)
  have h2 := h1 false
  have h3 := h1 true
  rw [abs_sub_comm] at h3
  refine (abs_sub_le _ _ _).trans ((add_le_add h2 h3).trans (le_of_eq ?_))
  ring

theorem near_guesses (A : G → Spec.Chooser G) (b : Bool) {n : ℕ} (h : ∀ X, (A X).Within n) :
    |Spec.guesses A b - Spec.mean fun x : F => fresh (x • basepoint G) b (A (x • basepoint G))| ≤
      n * Coins.bias + Coins.bias := by
  have e : Spec.guesses A b = Spec.mean fun a : Spec.Answer => (A (Spec.elgamalKey a).publicKey).yes
      (Spec.elgamalKey a) b := rfl
  have h1 : |Spec.guesses A b - Spec.mean fun a : Spec.Answer =>
      fresh (Spec.coin a.1 • basepoint G) b (A (Spec.coin a.1 • basepoint G))| ≤ n * Coins.bias := by
    rw [e]
    refine Sim.abs_sub_mean_le fun a => ?_
    have h2 := near_fresh (Spec.elgamalKey a) b (A (Spec.elgamalKey a).publicKey) n (h _)
    have e' : (Spec.elgamalKey a : Elgamal.Keypair G).publicKey = Spec.coin a.1 • basepoint G := by
      rw [Spec.elgamalKey, Scalar.smul_def, Scalar.fromWide, Scalar.val_ofF, Spec.coin]
    rwa [e'] at h2 ⊢
  have h2 := Coins.near1 (fun x : F => fresh (x • basepoint G) b (A (x • basepoint G))) fun x => fresh01 _ _ _
  exact (abs_sub_le _ _ _).trans (add_le_add h1 h2)

end Ddh

/-- C90: an adversary that sees at most `n` encryptions has at most the advantages of two explicit algorithms against
the decisional Diffie–Hellman problem, and a negligible term. -/
theorem C90_secure (A : G → Spec.Chooser G) {n : ℕ} (h : ∀ X, (A X).Within n) :
    |Spec.guesses A false - Spec.guesses A true| ≤
      Spec.ddh (fun X Y Z => (A X).decide false X Y Z) + Spec.ddh (fun X Y Z => (A X).decide true X Y Z) +
        2 / ell + (2 * n + 2) / 2 ^ 259 := by
  have h1 := Ddh.near_guesses A false h
  have h2 := Ddh.near_guesses A true h
  have h3 := Ddh.uniform A
  rw [abs_sub_comm] at h2
  have e : ((2 * n + 2) / 2 ^ 259 : ℚ) = n * Coins.bias + Coins.bias + (n * Coins.bias + Coins.bias) := by
    rw [Coins.bias]
    ring
  rw [e]
  have h4 := abs_sub_le (Spec.guesses A false)
    (Spec.mean fun x : F => Ddh.fresh (x • basepoint G) false (A (x • basepoint G))) (Spec.guesses A true)
  have h5 := abs_sub_le (Spec.mean fun x : F => Ddh.fresh (x • basepoint G) false (A (x • basepoint G)))
    (Spec.mean fun x : F => Ddh.fresh (x • basepoint G) true (A (x • basepoint G))) (Spec.guesses A true)
  linarith

/-! ## The other direction -/

/-- The same coins and decision. -/
def Spec.Decider.chooser : Spec.Decider → Spec.Chooser G
  | .toss next => .toss fun c => (next c).chooser
  | .done b => .done b

/-- How an algorithm that decides about triples is used against encryption: with one encryption, of the identity or
of a random element. -/
def Spec.breaker (D : G → G → G → Spec.Decider) (X : G) : Spec.Chooser G :=
  .toss fun c => .query 0 (c • basepoint G) fun e => (D X e.commitment e.encryption).chooser

theorem Ddh.fresh_chooser (X : G) (b : Bool) (D : Spec.Decider) : Ddh.fresh X b D.chooser = D.yes := by
  induction D with
  | toss next ih => exact Sim.mean_congr fun c => ih c
  | done b => rfl

omit [AddCommGroup G] [Module F G] [Ristretto G] in
theorem Ddh.chooser_within (D : Spec.Decider) : (D.chooser : Spec.Chooser G).Within 0 := by
  induction D with
  | toss next ih => exact ih
  | done b => trivial

/-- C90 (the assumption is needed): whoever decides the problem tells encryptions apart, with one encryption. -/
theorem C90_needed (D : G → G → G → Spec.Decider) : (∀ X, (Spec.breaker D X).Within 1) ∧
    Spec.ddh D - 4 / 2 ^ 259 ≤ |Spec.guesses (Spec.breaker D) false - Spec.guesses (Spec.breaker D) true| := by
  have hw : ∀ X, (Spec.breaker D X).Within 1 := fun X c => ⟨0, rfl, fun e => Ddh.chooser_within _⟩
  refine ⟨hw, ?_⟩
  have e0 : (Spec.mean fun x : F => Ddh.fresh (x • basepoint G) false (Spec.breaker D (x • basepoint G))) =
      Spec.mean fun x : F => Spec.mean fun y : F =>
        (D (x • basepoint G) (y • basepoint G) ((x * y) • basepoint G)).yes := by
    refine Sim.mean_congr fun x => ?_
    have h : ∀ c : F, Ddh.fresh (x • basepoint G) false (.query 0 (c • basepoint G) fun e =>
        (D (x • basepoint G) e.commitment e.encryption).chooser) = Spec.mean fun y : F =>
          (D (x • basepoint G) (y • basepoint G) ((x * y) • basepoint G)).yes := fun c =>
      Sim.mean_congr fun y => by
        rw [Ddh.fresh_chooser, if_neg Bool.false_ne_true, zero_add, smul_smul, mul_comm]
    exact (Sim.mean_congr h).trans (Sim.mean_const (α := F) _)
  have e1 : (Spec.mean fun x : F => Ddh.fresh (x • basepoint G) true (Spec.breaker D (x • basepoint G))) =
      Spec.mean fun x : F => Spec.mean fun y : F => Spec.mean fun z : F =>
        (D (x • basepoint G) (y • basepoint G) (z • basepoint G)).yes := by
    refine Sim.mean_congr fun x => ?_
    simp only [Spec.breaker, Ddh.fresh, Ddh.fresh_chooser]
    rw [Sim.mean_comm]
    refine Sim.mean_congr fun y => ?_
    rw [← Sim.mean_equiv (Equiv.addRight (y * x)) fun z : F =>
      (D (x • basepoint G) (y • basepoint G) (z • basepoint G)).yes]
    refine Sim.mean_congr fun c => ?_
    rw [if_pos trivial, Equiv.coe_addRight, add_smul, mul_smul]
  have h1 := Ddh.near_guesses (Spec.breaker D) false hw
  have h2 := Ddh.near_guesses (Spec.breaker D) true hw
  rw [e0, abs_sub_comm] at h1
  rw [e1] at h2
  have e : (4 / 2 ^ 259 : ℚ) = ((1 : ℕ) * Coins.bias + Coins.bias) + ((1 : ℕ) * Coins.bias + Coins.bias) := by
    rw [Coins.bias]
    norm_num
  rw [e]
  unfold Spec.ddh
  have h3 := abs_sub_le (Spec.mean fun x : F => Spec.mean fun y : F =>
    (D (x • basepoint G) (y • basepoint G) ((x * y) • basepoint G)).yes) (Spec.guesses (Spec.breaker D) false)
    (Spec.mean fun x : F => Spec.mean fun y : F => Spec.mean fun z : F =>
      (D (x • basepoint G) (y • basepoint G) (z • basepoint G)).yes)
  have h4 := abs_sub_le (Spec.guesses (Spec.breaker D) false) (Spec.guesses (Spec.breaker D) true)
    (Spec.mean fun x : F => Spec.mean fun y : F => Spec.mean fun z : F =>
      (D (x • basepoint G) (y • basepoint G) (z • basepoint G)).yes)
  linarith

/-- An adversary that asks for an encryption of the numbers 5 or 7, and says yes if it is that of 7 with nonce 1. -/
noncomputable def Ddh.simple (X : G) : Spec.Chooser G :=
  open Classical in
  .query ((5 : F) • basepoint G) ((7 : F) • basepoint G) fun e =>
    .done (Decidable.decide (e = ⟨basepoint G, (7 : F) • basepoint G + X⟩))

/-- It sees one encryption. -/
example : (∀ X : G, (Ddh.simple X).Within 1) ∧ |Spec.guesses (G := G) Ddh.simple false - Spec.guesses (G := G) Ddh.simple true| ≤
    Spec.ddh (fun X Y Z => (Ddh.simple (G := G) X).decide false X Y Z) +
      Spec.ddh (fun X Y Z => (Ddh.simple (G := G) X).decide true X Y Z) + 2 / ell + 4 / 2 ^ 259 := by
  have h : ∀ X : G, (Ddh.simple X).Within 1 := fun X => ⟨0, rfl, fun _ => trivial⟩
  refine ⟨h, (C90_secure _ h).trans (le_of_eq ?_)⟩
  norm_num

/-! ## Reused nonces -/

/-- C90: `encrypt` takes the nonce from its caller. Two encryptions with the same nonce, under the same key, show
the difference of the messages; also to those who do not have the key. -/
theorem C90_reused_nonce (k m m' : G) (nonce : Scalar) :
    (Elgamal.PublicKey.encrypt k m nonce).encryption - (Elgamal.PublicKey.encrypt k m' nonce).encryption = m - m' := by
  simp only [Elgamal.PublicKey.encrypt]
  abel

end Verif
