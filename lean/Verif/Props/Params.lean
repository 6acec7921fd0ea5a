import Mathlib.Data.Nat.Count
import Mathlib.Data.Int.CardIntervalMod
import Mathlib.SetTheory.Cardinal.Finite
import Verif.Props.Show

/-!
# Parameters, determinism, random scalars, erasure (C48–C50, C59)
-/

set_option maxRecDepth 100000

namespace Verif

open Amacs

variable {G : Type} [AddCommGroup G] [Module F G] [Ristretto G]

/-! ## C48 system parameter generation -/

/-- The RNG after `k` draws of 32 bytes. -/
def Spec.rngAfter {R : Type} [RngCore R] (r : R) : ℕ → R
  | 0 => r
  | k + 1 => Spec.rngAfter (RngCore.fill r 32).2 k

/-- The `k`-th 32-byte block of the RNG. -/
def Spec.block {R : Type} [RngCore R] (r : R) (k : ℕ) : Bytes :=
  (RngCore.fill (Spec.rngAfter r k) 32).1

/-- A block encoding a point other than the basepoint. -/
def Spec.Acceptable (G : Type) [AddCommGroup G] [Module F G] [Ristretto G] (b : Bytes) : Prop :=
  ∃ H : G, H ≠ basepoint G ∧ b = enc H

theorem huntStep_some {R : Type} [RngCore R] (r : R) (H : G) :
    (SystemParameters.huntStep r).1 = some H ↔ H ≠ basepoint G ∧ Spec.block r 0 = enc H := by
  simp only [SystemParameters.huntStep, Spec.block, Spec.rngAfter]
  split
  · rename_i h
    dsimp only
    rw [dec_eq_some, eq_comm]
    constructor
    · intro h1
      refine ⟨?_, h1⟩
      rintro rfl
      exact h h1
    · exact And.right
  · rename_i h
    push Not at h
    dsimp only
    constructor
    · nofun
    · rintro ⟨h1, h2⟩
      rw [h, enc_inj_iff] at h2
      exact absurd h2.symm h1

theorem huntStep_rng {R : Type} [RngCore R] (r : R) :
    (SystemParameters.huntStep (G := G) r).2 = (RngCore.fill r 32).2 := by
  simp only [SystemParameters.huntStep]
  split <;> rfl

/-- With enough iterations the result is: `g` the basepoint, `h` the point encoded by the first
acceptable block, and the RNG just after that block. -/
theorem C48_result_iff {R : Type} [RngCore R] : ∀ (fuel : ℕ) (r r' : R) (p : SystemParameters G),
    SystemParameters.huntAndPeck fuel r = some (p, r') ↔
      ∃ k, k < fuel ∧ (∀ j < k, ¬ Spec.Acceptable G (Spec.block r j)) ∧
        p.h ≠ basepoint G ∧ Spec.block r k = enc p.h ∧ p.g = basepoint G ∧
        r' = Spec.rngAfter r (k + 1) := by
  intro fuel
  induction fuel with
  | zero => intro r r' p; simp [SystemParameters.huntAndPeck]
  | succ n ih =>
    intro r r' p
    rw [SystemParameters.huntAndPeck]
    have hr := huntStep_rng (G := G) r
    have hs := fun H : G => huntStep_some r H
    generalize SystemParameters.huntStep (G := G) r = st at hr hs
    obtain ⟨o, r1⟩ := st
    dsimp only at hr hs
    subst hr
    cases o with
    | some H =>
      obtain ⟨h1, h2⟩ := (hs H).1 rfl
      simp only [Option.some.injEq, Prod.mk.injEq]
      constructor
      · rintro ⟨rfl, rfl⟩
        exact ⟨0, by omega, fun j hj => by omega, h1, h2, rfl, rfl⟩
      · rintro ⟨k, hk, hj, h3, h4, h5, h6⟩
        cases k with
        | zero =>
          rw [h2, enc_inj_iff] at h4
          refine ⟨?_, h6.symm⟩
          obtain ⟨g, h⟩ := p
          dsimp only at h4 h5
          rw [h4, h5]
        | succ k => exact absurd ⟨H, h1, h2⟩ (hj 0 (by omega))
    | none =>
      dsimp only
      rw [ih]
      have hna : ¬ Spec.Acceptable G (Spec.block r 0) := by
        rintro ⟨H, h1, h2⟩
        have := (hs H).2 ⟨h1, h2⟩
        cases this
      constructor
      · rintro ⟨k, hk, hj, h⟩
        refine ⟨k + 1, by omega, ?_, h⟩
        intro j hjk
        cases j with
        | zero => exact hna
        | succ j => exact hj j (by omega)
      · rintro ⟨k, hk, hj, h1, h2, h⟩
        cases k with
        | zero => exact absurd ⟨p.h, h1, h2⟩ hna
        | succ k => exact ⟨k, by omega, fun j hjk => hj (j + 1) (by omega), h1, h2, h⟩

/-- The loop terminates exactly when the RNG eventually yields an acceptable block. -/
theorem C48_terminates_iff {R : Type} [RngCore R] (r : R) :
    (∃ fuel, SystemParameters.huntAndPeck (G := G) fuel r ≠ none) ↔
      ∃ k, Spec.Acceptable G (Spec.block r k) := by
  constructor
  · rintro ⟨fuel, h⟩
    obtain ⟨⟨p, r'⟩, hp⟩ := Option.ne_none_iff_exists'.1 h
    obtain ⟨k, _, _, h1, h2, _⟩ := (C48_result_iff fuel r r' p).1 hp
    exact ⟨k, p.h, h1, h2⟩
  · intro h
    classical
    have hk := Nat.find_spec h
    obtain ⟨H, h1, h2⟩ := hk
    refine ⟨Nat.find h + 1, ?_⟩
    rw [(C48_result_iff _ r _ ⟨basepoint G, H⟩).2 ⟨Nat.find h, by omega,
      fun j hj => Nat.find_min h hj, h1, h2, rfl, rfl⟩]
    nofun

/-- The number of iterations allowed does not change the result. -/
theorem C48_fuel_irrelevant {R : Type} [RngCore R] {n m : ℕ} {r : R}
    {x y : SystemParameters G × R} (hx : SystemParameters.huntAndPeck n r = some x)
    (hy : SystemParameters.huntAndPeck m r = some y) : x = y := by
  obtain ⟨p, r'⟩ := x
  obtain ⟨q, r''⟩ := y
  obtain ⟨k, _, h2, h3, h4, h5, rfl⟩ := (C48_result_iff n r r' p).1 hx
  obtain ⟨l, _, g2, g3, g4, g5, rfl⟩ := (C48_result_iff m r r'' q).1 hy
  have hkl : k = l := by
    rcases lt_trichotomy k l with h | h | h
    · exact absurd ⟨p.h, h3, h4⟩ (g2 k h)
    · exact h
    · exact absurd ⟨q.h, g3, g4⟩ (h2 l h)
  subst hkl
  rw [h4, enc_inj_iff] at g4
  obtain ⟨g, h⟩ := p
  obtain ⟨g', h'⟩ := q
  dsimp only at *
  subst g4 h5 g5
  rfl

example : SystemParameters.huntAndPeck (G := F) 1 (⟨5⟩ : ToyRng) = some (⟨1, 6⟩, ⟨6⟩) ∧
    SystemParameters.huntAndPeck (G := F) 3 (⟨5⟩ : ToyRng) = some (⟨1, 6⟩, ⟨6⟩) :=
  ⟨by decide +kernel, by decide +kernel⟩

/-- What holds of the returned parameters. Full claim: `h` is a generator, i.e. `h ≠ 0`. Missing:
the all-zero block, which is accepted and gives the identity (`C48_identity`). -/
theorem C48_params_partial {R : Type} [RngCore R] {fuel : ℕ} {r r' : R} {p : SystemParameters G}
    (h : SystemParameters.huntAndPeck fuel r = some (p, r')) :
    p.g = basepoint G ∧ p.h ≠ p.g ∧
      ((∀ k, Spec.block r k ≠ List.replicate 32 0) → ∀ P : G, ∃ s : F, P = s • p.h) := by
  obtain ⟨k, _, _, h1, h2, h3, _⟩ := (C48_result_iff fuel r r' p).1 h
  refine ⟨h3, by rw [h3]; exact h1, ?_⟩
  intro hz
  apply exists_smul_of_ne_zero
  intro h0
  rw [h0, Ristretto.enc_zero] at h2
  exact hz k h2

/-- An RNG yielding a zero block makes `h` the identity, which is not a generator. -/
theorem C48_identity {R : Type} [RngCore R] {r : R} (h : (RngCore.fill r 32).1 = List.replicate 32 0) :
    SystemParameters.huntAndPeck (G := G) 1 r = some (⟨basepoint G, 0⟩, (RngCore.fill r 32).2) := by
  apply (C48_result_iff 1 r _ _).2
  refine ⟨0, by omega, fun j hj => by omega, Ristretto.base_ne.symm, ?_, rfl, rfl⟩
  rw [Ristretto.enc_zero]
  exact h

/-- The concrete refutation of "h is a generator". -/
theorem C48_false : ∃ (r r' : ZeroRng) (p : SystemParameters F),
    SystemParameters.huntAndPeck 1 r = some (p, r') ∧ ¬ ∀ P : F, ∃ s : F, P = s • p.h :=
  ⟨⟨⟩, _, _, C48_identity (by rfl), fun h => by
    obtain ⟨s, hs⟩ := h 1
    simp at hs⟩

/-- An RNG that only yields the basepoint is a concrete non-terminating run. -/
theorem C48_may_diverge {R : Type} [RngCore R] {r : R}
    (h : ∀ k, Spec.block r k = enc (basepoint G)) (fuel : ℕ) :
    SystemParameters.huntAndPeck (G := G) fuel r = none := by
  by_contra hne
  obtain ⟨k, H, h1, h2⟩ := (C48_terminates_iff (G := G) r).1 ⟨fuel, hne⟩
  rw [h, enc_inj_iff] at h2
  exact h1 h2.symm

/-- The two `From` constructors: in debug builds the basepoint is refused by a panic, in release
builds it is accepted; bytes that are not a point always panic. -/
theorem C48_from [DecidableEq G] (debug : Bool) (H : G) (b : Bytes) :
    ((SystemParameters.ofPoint debug H = .panic ↔ debug = true ∧ H = basepoint G) ∧
      (SystemParameters.ofPoint debug H = .ok ⟨basepoint G, H⟩ ↔
        ¬ (debug = true ∧ H = basepoint G))) ∧
    ((SystemParameters.ofArray (G := G) debug b = .panic ↔
        (debug = true ∧ b = enc (basepoint G)) ∨ ∀ P : G, b ≠ enc P)) := by
  refine ⟨⟨?_, ?_⟩, ?_⟩
  · simp only [SystemParameters.ofPoint, Res.assert]
    split <;> rename_i h <;> simp_all
  · simp only [SystemParameters.ofPoint, Res.assert]
    split <;> rename_i h <;> simp_all
  · simp only [SystemParameters.ofArray, Res.assert]
    split
    · rename_i h
      rw [Res.ok_bind]
      cases hd : (dec b : Option G) with
      | none =>
        simp only [Res.unwrap_none, Res.panic_bind, true_iff]
        right
        intro P hP
        rw [hP, dec_enc] at hd
        cases hd
      | some P =>
        simp only [Res.unwrap_some, Res.ok_bind, reduceCtorEq, false_iff, not_or]
        refine ⟨fun h1 => h h1.1 h1.2, fun h1 => h1 P (dec_eq_some.1 hd).symm⟩
    · rename_i h
      simp only [Res.panic_bind, true_iff]
      left
      push Not at h
      exact h

/-- A counter RNG finds parameters. -/
example : ∃ p r', SystemParameters.huntAndPeck (G := F) 1 (⟨5⟩ : ToyRng) = some (p, r') ∧ p.h = 6 :=
  ⟨⟨1, 6⟩, ⟨6⟩, by decide +kernel, rfl⟩

/-! ## C49 determinism -/

/-- Issuing with other operating-system entropy changes nothing but the proof: same result kind, same
credential, same key commitment, same RNG state afterwards. -/
theorem C49_issue {R : Type} [RngCore R] (O : Oracle) (i : Issuer G) (rq : CredentialRequest) (rng : R)
    (e e' : Bytes) :
    (i.issue O rq rng e).2 = (i.issue O rq rng e').2 ∧
    (i.issue O rq rng e).1.map (fun c => (c.credential, c.secretKeyCommitment)) =
      (i.issue O rq rng e').1.map (fun c => (c.credential, c.secretKeyCommitment)) := by
  simp only [Issuer.issue]
  split
  · exact ⟨rfl, rfl⟩
  · split
    · exact ⟨rfl, rfl⟩
    · refine ⟨rfl, ?_⟩
      generalize i.keypair.secretKey.mac (G := G) rq.attributesRevealed
        (forkReseed O Issuer.issuanceTranscript [] rng).1 = t
      obtain ⟨t1, t2⟩ := t
      dsimp only
      cases t1.mapErr (fun _ => CredentialError.macCreation) with
      | err x => rfl
      | panic => rfl
      | ok tag =>
        simp only [Res.ok_bind]
        cases (index rq.attributesRevealed 0 : Res CredentialError Scalar) <;> rfl

/-- The same for presentations: everything but the proofs is a function of the inputs and the seeded
RNG. -/
theorem C49_show {R : Type} [RngCore R] (O : Oracle) (u : User G) (nonces : List Scalar) (rng : R)
    (e e' : Bytes) :
    (u.show O nonces rng e).2 = (u.show O nonces rng e').2 ∧
    (u.show O nonces rng e).1.map (fun p => (p.rerandomizedMacCommitment, p.rerandomizedNonce,
      p.attributesRevealed, p.attributesBlinded)) =
      (u.show O nonces rng e').1.map (fun p => (p.rerandomizedMacCommitment, p.rerandomizedNonce,
        p.attributesRevealed, p.attributesBlinded)) := by
  obtain ⟨sp, ⟨Xn⟩, k, cr⟩ := u
  cases cr with
  | none => exact ⟨rfl, rfl⟩
  | some c =>
    refine ⟨rfl, ?_⟩
    simp only [User.show]
    cases User.showV Xn 0 nonces 0 with
    | err x => rfl
    | panic => rfl
    | ok V =>
      simp only [Res.ok_bind]
      cases (index c.attributes 0 : Res CredentialError Scalar) with
      | err x => rfl
      | panic => rfl
      | ok m0 =>
        simp only [Res.ok_bind]
        cases (index nonces 0 : Res CredentialError Scalar) with
        | err x => rfl
        | panic => rfl
        | ok z0 =>
          simp only [Res.ok_bind]
          cases (index Xn 0 : Res CredentialError G) with
          | err x => rfl
          | panic => rfl
          | ok X =>
            simp only [Res.ok_bind]
            generalize (index (List.zipWith _ nonces c.attributes) 0 : Res CredentialError G) = ix
            cases ix <;> rfl

theorem C49_signal_show {R : Type} [RngCore R] (O : Oracle) {u : SignalUser G} (hu : Spec.ApiUser u)
    (rng : R) (ros : RosterEntryCommitment G) (e1 e2 e1' e2' : Bytes) :
    (u.show O rng ros e1 e2).2 = (u.show O rng ros e1' e2').2 ∧
    (u.show O rng ros e1 e2).1.map (fun p => (p.rosterEntryCommitment,
      p.presentation.rerandomizedMacCommitment, p.presentation.rerandomizedNonce,
      p.presentation.attributesRevealed, p.presentation.attributesBlinded)) =
      (u.show O rng ros e1' e2').1.map (fun p => (p.rosterEntryCommitment,
        p.presentation.rerandomizedMacCommitment, p.presentation.rerandomizedNonce,
        p.presentation.attributesRevealed, p.presentation.attributesBlinded)) := by
  obtain ⟨n, ⟨sp, ⟨Xn⟩, k, cr⟩⟩ := u
  cases cr with
  | none => exact ⟨rfl, rfl⟩
  | some c =>
    obtain ⟨h1, h2⟩ := hu c rfl
    obtain ⟨tag, as⟩ := c
    cases as with
    | nil => exact absurd rfl h1
    | cons a as =>
      cases Xn with
      | nil => exact absurd rfl h2
      | cons X Xs => exact ⟨rfl, rfl⟩

/-- The entropy never changes whether an honest proof is accepted: for a matching issuer, every
entropy gives an accepted issuance and an accepted presentation. -/
theorem C49_verdict {R R' : Type} [RngCore R] [RngCore R'] (O : Oracle) {i : Issuer G}
    (hi : Spec.KeypairMatches i) (m : Scalar) (rng : R) (rng' : R') (u : User G)
    (hsp : u.systemParameters = i.systemParameters)
    (hip : u.issuerParameters = i.getIssuerParameters) (z0 : Scalar) :
    ∀ e e' : Bytes, ∃ c p, (i.issue O ⟨[m]⟩ rng e).1 = .ok c ∧
      (u.obtainFinish O (some c)).1 = .ok () ∧
      ((u.obtainFinish O (some c)).2.show O [z0] rng' e').1 = .ok p ∧ i.verify O p = .ok ⟨p⟩ := by
  intro e e'
  obtain ⟨c, h1, h2, h3, h4⟩ := C33_honest_accepted O hi m rng e u hsp hip
  obtain ⟨p, h5, h6⟩ := C38_issued O O hi hsp hip m rng e h1 h4 z0 rng' e'
  exact ⟨c, p, h1, by rw [h4], by rw [h4]; exact h5, h6⟩

/-! ## C50 random scalars -/

/-- Byte strings of length `n` are numbers below `256 ^ n`. -/
def bytesEquiv (n : ℕ) : {b : Bytes // b.length = n} ≃ {k : ℕ // k < 256 ^ n} where
  toFun b := ⟨leVal b.1, by have := leVal_lt b.1; rwa [b.2] at this⟩
  invFun k := ⟨leBytes n k.1, leBytes_length _ _⟩
  left_inv b := by
    obtain ⟨b, rfl⟩ := b
    exact Subtype.ext (leBytes_leVal b)
  right_inv k := Subtype.ext (leVal_leBytes_of_lt k.2)

/-- The number of 64-byte strings that reduce to a given canonical scalar. -/
noncomputable def Spec.hits (s : Scalar) : ℕ :=
  Nat.card {b : Bytes // b.length = 64 ∧ Scalar.fromWide b = s}

/-- `2^512 = q·ell + t`: each of the first `t` scalars is hit `q + 1` times, the others `q` times. -/
theorem C50_count {s : Scalar} (hs : s.Reduced) :
    Spec.hits s = 2 ^ 512 / ell + if s.n < 2 ^ 512 % ell then 1 else 0 := by
  have e1 : {b : Bytes // b.length = 64 ∧ Scalar.fromWide b = s} ≃
      {k : ℕ // k < 256 ^ 64 ∧ k ≡ s.n [MOD ell]} := by
    refine (Equiv.subtypeSubtypeEquivSubtypeInter (fun b : Bytes => b.length = 64)
      (fun b => Scalar.fromWide b = s)).symm.trans
      (Equiv.trans ?_ (Equiv.subtypeSubtypeEquivSubtypeInter (fun k : ℕ => k < 256 ^ 64)
      (fun k => k ≡ s.n [MOD ell])))
    refine (bytesEquiv 64).subtypeEquiv ?_
    intro b
    have hb : (Scalar.fromWide b.1).n = leVal b.1 % ell := Scalar.fromWide_n b.1
    have hsn : s.n % ell = s.n := Nat.mod_eq_of_lt hs
    constructor
    · intro h
      change leVal b.1 % ell = s.n % ell
      rw [hsn, ← hb, h]
    · intro h
      apply Scalar.ext
      rw [hb, ← hsn]
      exact h
  have e2 : (256 : ℕ) ^ 64 = 2 ^ 512 := by
    rw [show (256 : ℕ) = 2 ^ 8 from rfl, ← pow_mul]
  rw [Spec.hits, Nat.card_congr e1, e2]
  have hsn : s.n % ell = s.n := Nat.mod_eq_of_lt hs
  have h := Nat.count_modEq_card (b := 2 ^ 512) ell_pos s.n
  rw [hsn] at h
  let _inst := Nat.CountSet.fintype (fun k => k ≡ s.n [MOD ell]) (2 ^ 512)
  rw [← h, Nat.count_eq_card_fintype, Nat.card_eq_fintype_card]

/-- No scalar is more likely than another by more than one draw in `2^512`, and every canonical scalar
is hit. -/
theorem C50_bias {s t : Scalar} (hs : s.Reduced) (ht : t.Reduced) :
    Spec.hits s ≤ Spec.hits t + 1 ∧ 2 ^ 259 ≤ Spec.hits s := by
  have hq : 2 ^ 259 ≤ 2 ^ 512 / ell := by
    rw [Nat.le_div_iff_mul_le ell_pos]
    have h1 : ell ≤ 2 ^ 253 := by norm_num [ell]
    calc 2 ^ 259 * ell ≤ 2 ^ 259 * 2 ^ 253 := Nat.mul_le_mul_left _ h1
      _ = 2 ^ 512 := by rw [← pow_add]
  rw [C50_count hs, C50_count ht]
  generalize 2 ^ 512 / ell = q at hq
  generalize (2 : ℕ) ^ 259 = w at hq
  constructor
  · split <;> split <;> omega
  · omega

example : (⟨7, by decide⟩ : Scalar).Reduced ∧ (0 : Scalar).Reduced := ⟨by decide, by decide⟩

/-- The scalar drawn is the reduction of the next 64 RNG bytes, and is canonical. -/
theorem C50_draw {R : Type} [RngCore R] (r : R) :
    (Scalar.random r).1 = Scalar.fromWide (RngCore.fill r 64).1 ∧
      (Scalar.random r).1.n = leVal (RngCore.fill r 64).1 % ell ∧
      (Scalar.random r).1.Reduced ∧ (Scalar.random r).2 = (RngCore.fill r 64).2 :=
  ⟨rfl, Scalar.fromWide_n _, Scalar.reduced_fromWide _, rfl⟩

example : Spec.hits 0 = 2 ^ 512 / ell + 1 := by
  rw [C50_count (s := 0) (by exact ell_pos), if_pos]
  norm_num [ell]
  decide +kernel

end Verif
