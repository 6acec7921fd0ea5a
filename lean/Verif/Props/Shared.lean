import Verif.Props.Reseed
import Verif.Props.Ddh
import Verif.Props.Faithful

/-!
# C100: one seed for a roster entry and for its presentation

`RosterEntryCommitment::create` and `SignalUser::show` both begin with the same draw of the caller's generator. If they
are given the same seed, the opening of the entry blinds the attribute too. The number is then no longer hidden
perfectly: whoever knows the logarithm of `h` finds it. Without this logarithm it is as hard to find as the
decisional Diffie–Hellman problem is.
-/

set_option maxRecDepth 100000

namespace Verif

variable {G : Type} [AddCommGroup G] [Module F G] [Ristretto G]

/-! ## The code -/

/-- C100: with one state of the generator, the opening of the entry is the blinding of the attribute. -/
theorem C100_code {R : Type} [RngCore R] (O : Oracle) {u : SignalUser G} {X : G} {Xs : List G} {c : Credential G}
    {m : Scalar} (hX : u.user.issuerParameters.Xn = X :: Xs) (hc : u.user.credential = some c)
    (hm : c.attributes = [m]) (rng : R) {number : Bytes} (sp : SystemParameters G) {ros : RosterEntryCommitment G}
    (hr : (RosterEntryCommitment.create number sp rng).1 = .ok ros) (e1 e2 : Bytes) :
    ∃ (n : Scalar) (d ρ ρ' : F × F × F), PhoneNumber.tryFromBytes number = .ok n ∧
      ros.opening = Scalar.ofF d.1 ∧ ros.commitment = n.val • sp.h + d.1 • sp.g ∧
      (u.show O rng ros e1 e2).1 = .ok (Spec.present O u.user.systemParameters X c m ros d ρ ρ') := by
  obtain ⟨z, e, h, h1⟩ := C43_show_is_present O hX hc hm rng ros e1 e2
  obtain ⟨n, h2, h3, h4⟩ := C44_commitment hr
  have hz : z = (RngCore.fill rng 64).1 := by
    simp only [Spec.reads, List.cons.injEq] at h
    exact h.1.symm
  have ho : ros.opening = Scalar.ofF (Spec.showCoins O z e).1 := by
    rw [h3, hz]
    rfl
  exact ⟨n, _, _, _, h2, ho, by rw [h4, ho, Scalar.val_ofF], h1⟩

/-- C100: for the functions of the interfaces (`Spec.Answers`, C77). An entry and a presentation made with one seed, for
the number `n` and a credential for `m`, contain `n h + z g` and `m P + z h` for the same `z`. -/
theorem C100_interface {R : Type} [SeedableRng R] (O : Oracle) (checks : Bool) (fuel : ℕ)
    {number params seed entry user e1 e2 b : Bytes}
    (h1 : Spec.Answers G R O checks fuel (.rosterEntry number params seed) entry)
    (h2 : Spec.Answers G R O checks fuel (.presentation user entry seed e1 e2) b)
    {u : SignalUser G} (hu : SignalUser.fromBytes user = .ok u) {X : G} {Xs : List G} {c : Credential G} {m : Scalar}
    (hX : u.user.issuerParameters.Xn = X :: Xs) (hc : u.user.credential = some c) (hm : c.attributes = [m]) :
    ∃ (sp : SystemParameters G) (n : Scalar) (p : SignalCredentialPresentation G) (C : G) (z : F),
      SystemParameters.fromBytes params = .ok sp ∧ PhoneNumber.tryFromBytes number = .ok n ∧ b = p.toBytes ∧
      p.presentation.attributesBlinded = [C] ∧ p.rosterEntryCommitment = n.val • sp.h + z • sp.g ∧
      C = m.val • p.presentation.rerandomizedNonce + z • u.user.systemParameters.h := by
  obtain ⟨-, sp, ros, h3, h4, rfl⟩ := h1
  obtain ⟨-, u', ros', p, h5, h6, h7, rfl⟩ := h2
  cases hu.symm.trans h5
  obtain ⟨n, d, ρ, ρ', h8, h9, h10, h11⟩ := C100_code O hX hc hm (SeedableRng.fromSeed seed : R) sp h4 e1 e2
  have h12 : ros' = ros := by
    exact Res.ok.inj (h6.symm.trans (C12_roster_roundtrip ros))
  subst h12
  cases h7.symm.trans h11
  exact ⟨sp, n, _, _, d.1, h3, h8, rfl, rfl, h10, rfl⟩

omit [Ristretto G] in
/-- C100: two entries made with one seed differ by a multiple of `h` that shows the difference of the numbers; they are
equal if the numbers are. -/
theorem C100_entries {R : Type} [RngCore R] (rng : R) {sp : SystemParameters G} {number number' : Bytes}
    {ros ros' : RosterEntryCommitment G} (hr : (RosterEntryCommitment.create number sp rng).1 = .ok ros)
    (hr' : (RosterEntryCommitment.create number' sp rng).1 = .ok ros') :
    ∃ n n' : Scalar, PhoneNumber.tryFromBytes number = .ok n ∧ PhoneNumber.tryFromBytes number' = .ok n' ∧
      ros.opening = ros'.opening ∧ ros.commitment - ros'.commitment = (n.val - n'.val) • sp.h := by
  obtain ⟨n, h1, h2, h3⟩ := C44_commitment hr
  obtain ⟨n', h1', h2', h3'⟩ := C44_commitment hr'
  refine ⟨n, n', h1, h1', h2.trans h2'.symm, ?_⟩
  rw [h3, h3', h2, h2', sub_smul]
  abel

/-! ## The games -/

/-- Somebody with a valid credential on `m`. -/
structure Spec.Enrolled (G : Type) [AddCommGroup G] [Module F G] (x0 x1 : Scalar) where
  credential : Credential G
  m : Scalar
  valid : Spec.MacValid ⟨x0, [x1]⟩ credential.mac [m]
  nonce : credential.mac.nonce ≠ 0

/-- A member with the roster entry that `RosterEntryCommitment::create` makes with the opening `o`. -/
def Spec.Enrolled.holder {x0 x1 : Scalar} (x : Spec.Enrolled G x0 x1) (sp : SystemParameters G) (o : F) :
    Spec.Holder sp x0 x1 :=
  ⟨x.credential, x.m, ⟨x.m.val • sp.h + o • sp.g, Scalar.ofF o⟩, x.valid, x.nonce, by rw [Scalar.val_ofF]⟩

/-- Members make an entry and present it; the entry and the presentation have seeds of their own. -/
noncomputable def Spec.freshEntry (O : Oracle) (sp : SystemParameters G) {x0 x1 : Scalar} {K : Type}
    (who : K → Spec.Enrolled G x0 x1) : Spec.Server K fun _ => SignalCredentialPresentation G :=
  fun k l f => Spec.mean fun o : F => Spec.mean fun d : F × F × F => Spec.showWith O sp d ((who k).holder sp o) l f

/-- Members make an entry and present it, with one seed. -/
noncomputable def Spec.sharedEntry (O : Oracle) (sp : SystemParameters G) {x0 x1 : Scalar} {K : Type}
    (who : K → Spec.Enrolled G x0 x1) : Spec.Server K fun _ => SignalCredentialPresentation G :=
  fun k l f => Spec.mean fun d : F × F × F => Spec.showWith O sp d ((who k).holder sp d.1) l f

/-! ## With seeds of their own -/

namespace Shared

/-- Two simulated proofs for given points. -/
noncomputable def simulateAt (sp : SystemParameters G) (x0 x1 : Scalar) (P C CQ D : G)
    (l : Spec.HashLog) (k : Spec.HashLog → SignalCredentialPresentation G → ℚ) : ℚ :=
  Spec.ValidCredential.simulated [.init "AEONFLUX SHOW"]
    ⟨sp.g, sp.h, x1.val • sp.h, P, x0.val • P + x1.val • C - CQ, C⟩ l fun l₁ π =>
      Spec.CommittedValuesEqual.simulated [.init "SIGNAL GROUP MEMBERSHIP"] ⟨sp.g, sp.h, P, C, D⟩ l₁
        fun l₂ π' => k l₂ ⟨D, ⟨CQ, P, [], [C], π⟩, π'⟩

theorem simulateAt01 (sp : SystemParameters G) (x0 x1 : Scalar) (P C CQ D : G) (l : Spec.HashLog)
    {f : Spec.HashLog → SignalCredentialPresentation G → ℚ} (hf : Sim.Unit01 f) :
    0 ≤ simulateAt sp x0 x1 P C CQ D l f ∧ simulateAt sp x0 x1 P C CQ D l f ≤ 1 :=
  ValidCredential.simulated01 _ _ _ fun _ _ => CommittedValuesEqual.simulated01 _ _ _ fun _ _ => hf _ _

theorem showWith01 (O : Oracle) {sp : SystemParameters G} {x0 x1 : Scalar} (d : F × F × F)
    (x : Spec.Holder sp x0 x1) (l : Spec.HashLog) {f : Spec.HashLog → SignalCredentialPresentation G → ℚ}
    (hf : Sim.Unit01 f) : 0 ≤ Spec.showWith O sp d x l f ∧ Spec.showWith O sp d x l f ≤ 1 := by
  rw [Reseed.showWith_steps]
  exact ValidCredential.honest01 _ _ _ _ _ fun _ _ => CommittedValuesEqual.honest01 _ _ _ _ _ fun _ _ => hf _ _

variable {K : Type} {x0 x1 : Scalar}

/-- Random points, and simulated proofs. -/
noncomputable def blind (sp : SystemParameters G) (x0 x1 : Scalar) :
    Spec.Server K fun _ => SignalCredentialPresentation G :=
  fun _ l f => Spec.mean fun r : F => Spec.mean fun v : F × F × F =>
    simulateAt sp x0 x1 (v.1 • sp.h) (v.2.1 • sp.h) (v.2.2 • sp.h) (r • sp.g) l f

theorem blind01 (sp : SystemParameters G) (x0 x1 : Scalar) (k : K) (l : Spec.HashLog)
    (f : Spec.HashLog → SignalCredentialPresentation G → ℚ) (hf : Sim.Unit01 f) :
    0 ≤ blind sp x0 x1 k l f ∧ blind sp x0 x1 k l f ≤ 1 :=
  Sim.mean01 fun _ => Sim.mean01 fun _ => simulateAt01 _ _ _ _ _ _ _ _ hf

theorem fresh_close (O : Oracle) {sp : SystemParameters G} (hg : sp.g ≠ 0) (hh : sp.h ≠ 0)
    (who : K → Spec.Enrolled G x0 x1) : Sim.Close 2 (Spec.freshEntry O sp who) (blind sp x0 x1) where
  range k l f hf := Sim.mean01 fun o => Sim.mean01 fun d => showWith01 O d _ l hf
  range' k l f hf := blind01 sp x0 x1 k l f hf
  close k l f g ε hf _ hfg := by
    obtain ⟨a, ha⟩ := exists_smul_of_ne_zero hg sp.h
    have e : blind sp x0 x1 k l g = Spec.mean fun o : F => Spec.mean fun d : F × F × F =>
        Reseed.simulateWith sp x0 x1 (Reseed.values sp hh ((who k).holder sp o) d)
          ((who k).holder sp o).ros.commitment l g := by
      unfold blind
      rw [← Sim.mean_equiv (Equiv.addLeft ((who k).m.val * a))]
      refine Sim.mean_congr fun o => ?_
      rw [← Sim.mean_equiv (Reseed.values sp hh ((who k).holder sp o))]
      refine Sim.mean_congr fun d => ?_
      have : (Equiv.addLeft ((who k).m.val * a)) o • sp.g = ((who k).holder sp o).ros.commitment := by
        simp only [Equiv.coe_addLeft, Spec.Enrolled.holder]
        conv_rhs => rw [ha]
        module
      rw [this]
      rfl
    rw [e]
    exact Sim.abs_sub_mean_le fun o => Sim.abs_sub_mean_le fun d => Reseed.showWith_close O hh d _ l f g ε hf hfg

end Shared

/-- C100: with seeds of their own, entries and their presentations hide the numbers, also from those who know the
logarithm of `h` and the issuer's keys. Whatever the two populations are, no observer with at most `q` hash queries
and `n` requests can tell which it is, except with advantage `4n(q+2n)/ℓ`. -/
theorem C100_separate (O : Oracle) {sp : SystemParameters G} (hg : sp.g ≠ 0) (hh : sp.h ≠ 0) {x0 x1 : Scalar}
    {K : Type} (who who' : K → Spec.Enrolled G x0 x1)
    (A : Spec.Observer K fun _ => SignalCredentialPresentation G) (q n : ℕ) (hA : A.Within q n) :
    |A.yes (Spec.freshEntry O sp who) [] - A.yes (Spec.freshEntry O sp who') []| ≤ 4 * n * (q + 2 * n) / ell := by
  have h1 := Sim.advantage (Shared.fresh_close O hg hh who) A [] q n hA
  have h2 := Sim.advantage (Shared.fresh_close O hg hh who') A [] q n hA
  rw [abs_sub_comm] at h2
  refine (abs_sub_le _ _ _).trans ((add_le_add h1 h2).trans (le_of_eq ?_))
  rw [List.length_nil]
  push_cast
  ring

/-! ## With one seed: who knows the logarithm of `h` -/

open Classical in
/-- The observer that asks for one presentation and tests whether it is for the number `m`, with the logarithm `a` of
`h` to the base `g`. -/
noncomputable def Spec.testNumber (sp : SystemParameters G) (a m : F) :
    Spec.Observer Unit fun _ => SignalCredentialPresentation G :=
  .request () fun p => .done (decide (∃ C, p.presentation.attributesBlinded = [C] ∧
    C - a • p.rosterEntryCommitment = m • (p.presentation.rerandomizedNonce - a • sp.h)))

namespace Shared

/-- A property of the points of a presentation does not depend on the proofs. -/
theorem showWith_points (O : Oracle) {sp : SystemParameters G} {x0 x1 : Scalar} (d : F × F × F)
    (x : Spec.Holder sp x0 x1) (l : Spec.HashLog) (f : G → G → G → ℚ) (k : Spec.HashLog → SignalCredentialPresentation G → ℚ)
    (hk : ∀ l p C, p.presentation.attributesBlinded = [C] →
      k l p = f p.rosterEntryCommitment p.presentation.rerandomizedNonce C) :
    Spec.showWith O sp d x l k = f x.ros.commitment (d.2.1 • x.credential.mac.nonce)
      (x.m.val • (d.2.1 • x.credential.mac.nonce) + d.1 • sp.h) := by
  unfold Spec.showWith
  refine Eq.trans (Sim.mean_congr fun ρ => ?_) (Sim.mean_const (α := F × F × F) _)
  refine Eq.trans (Sim.mean_congr fun a => ?_) (Sim.mean_const (α := Spec.Answer) _)
  refine Eq.trans (Sim.mean_congr fun ρ' => ?_) (Sim.mean_const (α := F × F × F) _)
  refine Eq.trans (Sim.mean_congr fun a' => ?_) (Sim.mean_const (α := Spec.Answer) _)
  exact hk _ _ _ rfl

open Classical in
theorem test_yes (O : Oracle) (sp : SystemParameters G) {x0 x1 : Scalar} (a m : F) (x : Spec.Holder sp x0 x1)
    (d : F × F × F) (l : Spec.HashLog) (serve : Spec.Server Unit fun _ => SignalCredentialPresentation G) :
    (Spec.showWith O sp d x l fun l' (p : SignalCredentialPresentation G) =>
      Spec.Observer.yes serve (.done (decide (∃ C, p.presentation.attributesBlinded = [C] ∧
        C - a • p.rosterEntryCommitment = m • (p.presentation.rerandomizedNonce - a • sp.h))) :
          Spec.Observer Unit fun _ => SignalCredentialPresentation G) l') =
      if x.m.val • (d.2.1 • x.credential.mac.nonce) + d.1 • sp.h - a • x.ros.commitment =
        m • (d.2.1 • x.credential.mac.nonce - a • sp.h) then 1 else 0 := by
  refine showWith_points O d x l (fun D P C => if C - a • D = m • (P - a • sp.h) then 1 else 0) _ fun l p C hC => ?_
  simp only [Spec.Observer.yes, hC, List.cons.injEq, and_true, exists_eq_left', decide_eq_true_eq]

theorem mean_triple (f : F × F × F → ℚ) :
    Spec.mean f = Spec.mean fun a => Spec.mean fun b => Spec.mean fun c => f (a, b, c) := by
  rw [Sim.mean_pair]
  exact Sim.mean_congr fun a => Sim.mean_pair _

theorem mean_fst2 (f : F → F → ℚ) :
    Spec.mean (fun d : F × F × F => f d.1 d.2.1) = Spec.mean fun a => Spec.mean fun b => f a b := by
  rw [mean_triple]
  exact Sim.mean_congr fun a => Sim.mean_congr fun b => Sim.mean_const (α := F) (f a b)

theorem mean_fst (f : F → ℚ) : Spec.mean (fun d : F × F × F => f d.1) = Spec.mean f := by
  rw [mean_fst2 fun a _ => f a]
  exact Sim.mean_congr fun a => Sim.mean_const (α := F) (f a)

theorem mean_eq_one (b : F) : (Spec.mean fun z : F => if z = b then (1 : ℚ) else 0) = 1 / ell := by
  unfold Spec.mean
  rw [Finset.sum_ite_eq' Finset.univ, if_pos (Finset.mem_univ _), ZMod.card]

end Shared

/-- C100, the claim that one seed for both does no harm is false: whoever knows the logarithm of `h` tests numbers
with one presentation and no hash queries. The test succeeds for the presentation's number always; for every other
number, and for every number if the seeds are different, with probability `1/ℓ`. -/
theorem C100_false (O : Oracle) {sp : SystemParameters G} {a : F} (ha : sp.h = a • sp.g) (hh : sp.h ≠ 0)
    {x0 x1 : Scalar} (x : Spec.Enrolled G x0 x1) (m : F) (hm : m ≠ x.m.val) :
    (∀ m, (Spec.testNumber sp a m).Within 0 1) ∧
    (Spec.testNumber sp a x.m.val).yes (Spec.sharedEntry O sp fun _ => x) [] = 1 ∧
    (Spec.testNumber sp a m).yes (Spec.sharedEntry O sp fun _ => x) [] = 1 / ell ∧
    (Spec.testNumber sp a x.m.val).yes (Spec.freshEntry O sp fun _ => x) [] = 1 / ell := by
  classical
  refine ⟨fun m => ⟨0, rfl, fun _ => trivial⟩, ?_, ?_, ?_⟩
  · refine Eq.trans (Sim.mean_congr fun d => ?_) (Sim.mean_const (α := F × F × F) 1)
    rw [Shared.test_yes, if_pos]
    simp only [Spec.Enrolled.holder]
    rw [ha]
    module
  · obtain ⟨b, hb⟩ := exists_smul_of_ne_zero x.nonce (a • sp.h)
    have e : ∀ d : F × F × F,
        (x.m.val • (d.2.1 • x.credential.mac.nonce) + d.1 • sp.h - a • (x.holder sp d.1).ros.commitment =
          m • (d.2.1 • x.credential.mac.nonce - a • sp.h)) ↔ d.2.1 = b := by
      intro d
      have : x.m.val • (d.2.1 • x.credential.mac.nonce) + d.1 • sp.h - a • (x.holder sp d.1).ros.commitment -
          m • (d.2.1 • x.credential.mac.nonce - a • sp.h) =
          ((x.m.val - m) * (d.2.1 - b)) • x.credential.mac.nonce := by
        have : d.1 • sp.h = d.1 • (a • sp.g) := by rw [← ha]
        simp only [Spec.Enrolled.holder]
        rw [this, smul_add, smul_comm a x.m.val sp.h, hb]
        module
      rw [← sub_eq_zero, this, smul_eq_zero, or_iff_left x.nonce, mul_eq_zero,
        or_iff_right (sub_ne_zero.2 (Ne.symm hm)), sub_eq_zero]
    refine Eq.trans (Sim.mean_congr fun d => ?_) (?_ : Spec.mean (fun d : F × F × F =>
      if d.2.1 = b then (1 : ℚ) else 0) = 1 / ell)
    · rw [Shared.test_yes]
      exact if_congr (e d) rfl rfl
    · exact (Shared.mean_fst2 fun _ r : F => if r = b then (1 : ℚ) else 0).trans
        ((Sim.mean_const (α := F) (Spec.mean fun r : F => if r = b then (1 : ℚ) else 0)).trans (Shared.mean_eq_one b))
  · refine Eq.trans (Sim.mean_congr fun o => ?_) (Sim.mean_const (α := F) (1 / ell : ℚ))
    have e : ∀ d : F × F × F,
        (x.m.val • (d.2.1 • x.credential.mac.nonce) + d.1 • sp.h - a • (x.holder sp o).ros.commitment =
          x.m.val • (d.2.1 • x.credential.mac.nonce - a • sp.h)) ↔ d.1 = o := by
      intro d
      have : x.m.val • (d.2.1 • x.credential.mac.nonce) + d.1 • sp.h - a • (x.holder sp o).ros.commitment -
          x.m.val • (d.2.1 • x.credential.mac.nonce - a • sp.h) = (d.1 - o) • sp.h := by
        have : (d.1 - o) • sp.h = d.1 • sp.h - o • (a • sp.g) := by rw [← ha]; module
        rw [this]
        simp only [Spec.Enrolled.holder]
        module
      rw [← sub_eq_zero, this, smul_eq_zero, or_iff_left hh, sub_eq_zero]
    refine Eq.trans (Sim.mean_congr fun d => ?_) (?_ : Spec.mean (fun d : F × F × F =>
      if d.1 = o then (1 : ℚ) else 0) = 1 / ell)
    · rw [Shared.test_yes]
      exact if_congr (e d) rfl rfl
    · exact (Shared.mean_fst fun r : F => if r = o then (1 : ℚ) else 0).trans (Shared.mean_eq_one o)

/-! ## With one seed: who does not know the logarithm of `h` -/

/-- An algorithm that tosses coins, draws answers of a hash, and decides. -/
inductive Spec.Guesser where
  | toss (next : F → Spec.Guesser)
  | draw (next : Spec.Answer → Spec.Guesser)
  | done (b : Bool)

/-- The probability that it says yes. -/
noncomputable def Spec.Guesser.yes : Spec.Guesser → ℚ
  | .toss next => Spec.mean fun c => (next c).yes
  | .draw next => Spec.mean fun a => (next a).yes
  | .done b => if b then 1 else 0

/-- How well an algorithm that gets three elements tells Diffie–Hellman triples from random ones. -/
noncomputable def Spec.Guesser.ddh (D : G → G → G → Spec.Guesser) : ℚ :=
  |(Spec.mean fun x : F => Spec.mean fun y : F =>
      (D (x • basepoint G) (y • basepoint G) ((x * y) • basepoint G)).yes) -
    Spec.mean fun x : F => Spec.mean fun y : F => Spec.mean fun z : F =>
      (D (x • basepoint G) (y • basepoint G) (z • basepoint G)).yes|

/-- A simulated presentation with the given points: two challenges and six responses are drawn. -/
def Spec.guessShow (sp : SystemParameters G) (x0 x1 : Scalar) (P C CQ D : G) (l : Spec.HashLog)
    (k : Spec.HashLog → SignalCredentialPresentation G → Spec.Guesser) : Spec.Guesser :=
  .draw fun a => .toss fun r₁ => .toss fun r₂ => .toss fun r₃ =>
  .draw fun a' => .toss fun s₁ => .toss fun s₂ => .toss fun s₃ =>
    let p : ValidCredential.Publics G := ⟨sp.g, sp.h, x1.val • sp.h, P, x0.val • P + x1.val • C - CQ, C⟩
    let π : ValidCredential.Proof := ⟨Scalar.fromWide a.1, ValidCredential.respOf (r₁, r₂, r₃)⟩
    let p' : CommittedValuesEqual.Publics G := ⟨sp.g, sp.h, P, C, D⟩
    let π' : CommittedValuesEqual.Proof := ⟨Scalar.fromWide a'.1, CommittedValuesEqual.respOf (s₁, s₂, s₃)⟩
    let l₁ := l ++ [(ValidCredential.verifyTranscript [.init "AEONFLUX SHOW"] p
      (ValidCredential.recommit p π), a)]
    let l₂ := l₁ ++ [(CommittedValuesEqual.verifyTranscript [.init "SIGNAL GROUP MEMBERSHIP"] p'
      (CommittedValuesEqual.recommit p' π'), a')]
    k l₂ ⟨D, ⟨CQ, P, [], [C], π⟩, π'⟩

/-- How `X`, `Y`, `Z` are put into a presentation of the member `x`, for the parameters `h = X`. It needs the issuer's
keys and the member's number and nonce, but no logarithm and no opening. -/
def Spec.Enrolled.guess {x0 x1 : Scalar} (x : Spec.Enrolled G x0 x1) (X Y Z : G) (l : Spec.HashLog)
    (k : Spec.HashLog → SignalCredentialPresentation G → Spec.Guesser) : Spec.Guesser :=
  .toss fun s => .toss fun t => .toss fun τ => .toss fun w =>
    Spec.guessShow ⟨basepoint G, X⟩ x0 x1 (τ • x.credential.mac.nonce)
      (x.m.val • (τ • x.credential.mac.nonce) + (t • Z + s • X)) (w • X)
      (x.m.val • X + (t • Y + s • basepoint G)) l k

/-- How an observer is used to decide about `X`, `Y`, `Z`: its hash queries are answered consistently, and its
requests by `Spec.Enrolled.guess`. -/
def Spec.Observer.guess {K : Type} {x0 x1 : Scalar} (who : K → Spec.Enrolled G x0 x1) (X Y Z : G) :
    Spec.Observer K (fun _ => SignalCredentialPresentation G) → Spec.HashLog → Spec.Guesser
  | .done b, _ => .done b
  | .toss next, l => .toss fun c => (next c).guess who X Y Z l
  | .ask t next, l => .draw fun a => (next ((l.lookup t).getD a)).guess who X Y Z (l.asked t a)
  | .request k next, l => (who k).guess X Y Z l fun l' π => (next π).guess who X Y Z l'

namespace Shared

theorem guesser01 (D : Spec.Guesser) : 0 ≤ D.yes ∧ D.yes ≤ 1 := by
  induction D with
  | toss next ih => exact Sim.mean01 fun c => ih c
  | draw next ih => exact Sim.mean01 fun c => ih c
  | done b => cases b <;> simp [Spec.Guesser.yes]

theorem guessShow_yes (sp : SystemParameters G) (x0 x1 : Scalar) (P C CQ D : G) (l : Spec.HashLog)
    (k : Spec.HashLog → SignalCredentialPresentation G → Spec.Guesser) :
    (Spec.guessShow sp x0 x1 P C CQ D l k).yes = simulateAt sp x0 x1 P C CQ D l fun l π => (k l π).yes := by
  unfold simulateAt Spec.ValidCredential.simulated Spec.CommittedValuesEqual.simulated
  refine Sim.mean_congr fun a => ?_
  rw [mean_triple]
  refine Sim.mean_congr fun r₁ => Sim.mean_congr fun r₂ => Sim.mean_congr fun r₃ => Sim.mean_congr fun a' => ?_
  rw [mean_triple]
  rfl

/-- What `Spec.Enrolled.guess` makes. -/
noncomputable def triple (who : K → Spec.Enrolled G x0 x1) (X Y Z : G) :
    Spec.Server K fun _ => SignalCredentialPresentation G :=
  fun k l f => Spec.mean fun s : F => Spec.mean fun t : F => Spec.mean fun τ : F => Spec.mean fun w : F =>
    simulateAt ⟨basepoint G, X⟩ x0 x1 (τ • (who k).credential.mac.nonce)
      ((who k).m.val • (τ • (who k).credential.mac.nonce) + (t • Z + s • X)) (w • X)
      ((who k).m.val • X + (t • Y + s • basepoint G)) l f

theorem guess_yes (who : K → Spec.Enrolled G x0 x1) (X Y Z : G)
    (A : Spec.Observer K fun _ => SignalCredentialPresentation G) :
    ∀ l, (A.guess who X Y Z l).yes = A.yes (triple who X Y Z) l := by
  induction A with
  | done b => intro l; rfl
  | toss next ih => exact fun l => Sim.mean_congr fun c => ih c l
  | ask t next ih => exact fun l => Sim.mean_congr fun a => ih _ _
  | request k next ih =>
    intro l
    refine Sim.mean_congr fun s => Sim.mean_congr fun t => Sim.mean_congr fun τ => Sim.mean_congr fun w => ?_
    rw [guessShow_yes]
    congr 1
    funext l' π
    exact ih π l'

/-- Presentations with one seed, with simulated proofs. -/
noncomputable def shared (sp : SystemParameters G) (who : K → Spec.Enrolled G x0 x1) :
    Spec.Server K fun _ => SignalCredentialPresentation G :=
  fun k l f => Spec.mean fun z : F => Spec.mean fun τ : F => Spec.mean fun w : F =>
    simulateAt sp x0 x1 (τ • (who k).credential.mac.nonce)
      ((who k).m.val • (τ • (who k).credential.mac.nonce) + z • sp.h) (w • sp.h)
      ((who k).m.val • sp.h + z • sp.g) l f

theorem shared_close (O : Oracle) {sp : SystemParameters G} (hh : sp.h ≠ 0)
    (who : K → Spec.Enrolled G x0 x1) : Sim.Close 2 (Spec.sharedEntry O sp who) (shared sp who) where
  range k l f hf := Sim.mean01 fun d => showWith01 O d _ l hf
  range' k l f hf := Sim.mean01 fun _ => Sim.mean01 fun _ => Sim.mean01 fun _ => simulateAt01 _ _ _ _ _ _ _ _ hf
  close k l f g ε hf _ hfg := by
    have e : shared sp who k l g = Spec.mean fun d : F × F × F =>
        Reseed.simulateWith sp x0 x1 (Reseed.values sp hh ((who k).holder sp d.1) d)
          ((who k).holder sp d.1).ros.commitment l g := by
      rw [mean_triple]
      refine Sim.mean_congr fun z => Sim.mean_congr fun τ => ?_
      have hl := Reseed.log_spec sp hh ((who k).holder sp z)
      simp only [Reseed.values, Sim.showEquiv, Equiv.coe_fn_mk]
      generalize Reseed.log sp hh ((who k).holder sp z) = a at hl ⊢
      have hl : (who k).credential.mac.nonce = a • sp.h := hl
      rw [← Sim.mean_equiv (Equiv.addLeft ((x1.val * (who k).m.val + x0.val) * (τ * a)))]
      refine Sim.mean_congr fun w => ?_
      have e1 : (τ * a) • sp.h = τ • (who k).credential.mac.nonce := by rw [hl]; module
      have e2 : ((who k).m.val * (τ * a) + z) • sp.h =
          (who k).m.val • (τ • (who k).credential.mac.nonce) + z • sp.h := by rw [hl]; module
      change _ = simulateAt sp x0 x1 ((τ * a) • sp.h) (((who k).m.val * (τ * a) + z) • sp.h) _ _ l g
      rw [e1, e2]
      rfl
    rw [e]
    exact Sim.abs_sub_mean_le fun d => Reseed.showWith_close O hh d _ l f g ε hf hfg

/-- From a Diffie–Hellman triple, presentations with one seed are made. -/
theorem triple_dh (who : K → Spec.Enrolled G x0 x1) (x y : F) :
    triple who (x • basepoint G) (y • basepoint G) ((x * y) • basepoint G) =
      shared ⟨basepoint G, x • basepoint G⟩ who := by
  funext k l f
  unfold triple shared
  rw [Sim.mean_comm]
  refine Eq.trans (Sim.mean_congr fun t => ?_) (Sim.mean_const (α := F) _)
  rw [← Sim.mean_equiv (Equiv.addLeft (t * y)) fun z : F => Spec.mean fun τ : F => Spec.mean fun w : F =>
    simulateAt ⟨basepoint G, x • basepoint G⟩ x0 x1 (τ • (who k).credential.mac.nonce)
      ((who k).m.val • (τ • (who k).credential.mac.nonce) + z • x • basepoint G) (w • x • basepoint G)
      ((who k).m.val • x • basepoint G + z • basepoint G) l f]
  refine Sim.mean_congr fun s => Sim.mean_congr fun τ => Sim.mean_congr fun w => ?_
  rw [Equiv.coe_addLeft]
  congr 2
  · module
  · module

/-- From another triple, random points are made. -/
theorem triple_random (who : K → Spec.Enrolled G x0 x1) {x y z : F} (hx : x ≠ 0) (hz : z ≠ x * y) :
    triple who (x • basepoint G) (y • basepoint G) (z • basepoint G) =
      blind ⟨basepoint G, x • basepoint G⟩ x0 x1 := by
  funext k l f
  have hd : z - x * y ≠ 0 := sub_ne_zero.2 hz
  have hB : x • basepoint G ≠ 0 := fun h => (smul_eq_zero.1 h).elim hx Ristretto.base_ne
  obtain ⟨a, ha⟩ := exists_smul_of_ne_zero hB (who k).credential.mac.nonce
  have ha0 : a ≠ 0 := by
    rintro rfl
    exact (who k).nonce (by rw [ha, zero_smul])
  generalize hm : (who k).m.val = m
  let e : F × F × F × F ≃ F × F × F × F :=
    { toFun := fun p => (m * x + (p.2.1 * y + p.1), p.2.2.1 * a,
        m * (p.2.2.1 * a) + (p.2.1 * z + p.1 * x) / x, p.2.2.2)
      invFun := fun q =>
        let t := ((q.2.2.1 - m * q.2.1) * x - (q.1 - m * x) * x) / (z - x * y)
        (q.1 - m * x - t * y, t, q.2.1 / a, q.2.2.2)
      left_inv := fun p => by
        have : (m * (p.2.2.1 * a) + (p.2.1 * z + p.1 * x) / x - m * (p.2.2.1 * a)) * x -
            (m * x + (p.2.1 * y + p.1) - m * x) * x = p.2.1 * (z - x * y) := by
          field_simp
          ring
        simp only [this, mul_div_cancel_right₀ _ hd, mul_div_cancel_right₀ _ ha0]
        ext <;> simp
      right_inv := fun q => by
        have h1 : ∀ t : F, (t * z + (q.1 - m * x - t * y) * x) = t * (z - x * y) + (q.1 - m * x) * x :=
          fun t => by ring
        simp only [h1, div_mul_cancel₀ _ hd, div_mul_cancel₀ _ ha0, sub_add_cancel, mul_div_cancel_right₀ _ hx]
        ext <;> simp }
  have e1 : blind ⟨basepoint G, x • basepoint G⟩ x0 x1 k l f = Spec.mean fun q : F × F × F × F =>
      simulateAt ⟨basepoint G, x • basepoint G⟩ x0 x1 (q.2.1 • x • basepoint G) (q.2.2.1 • x • basepoint G)
        (q.2.2.2 • x • basepoint G) (q.1 • basepoint G) l f := by
    rw [Sim.mean_pair]
    rfl
  rw [e1, ← Sim.mean_equiv e, Sim.mean_pair]
  refine Sim.mean_congr fun s => ?_
  rw [mean_triple]
  refine Sim.mean_congr fun t => Sim.mean_congr fun τ => Sim.mean_congr fun w => ?_
  rw [hm]
  simp only [e, Equiv.coe_fn_mk]
  have h1 : (τ * a) • x • basepoint G = τ • (who k).credential.mac.nonce := by rw [ha]; module
  have h2 : (m * (τ * a) + (t * z + s * x) / x) • x • basepoint G =
      m • (τ • (who k).credential.mac.nonce) + (t • z • basepoint G + s • x • basepoint G) := by
    have : ((t * z + s * x) / x) • x • basepoint G = (t * z + s * x) • basepoint G := by
      rw [smul_smul, div_mul_cancel₀ _ hx]
    rw [add_smul, this, ha]
    module
  have h3 : (m * x + (t * y + s)) • basepoint G =
      m • x • basepoint G + (t • y • basepoint G + s • basepoint G) := by module
  rw [h1, h2, h3]

/-- Averages that are close except at one point. -/
theorem mean_except {f g : F → ℚ} (b : F) {ε : ℚ} (hε : 0 ≤ ε) (hf : ∀ x, 0 ≤ f x ∧ f x ≤ 1)
    (hg : ∀ x, 0 ≤ g x ∧ g x ≤ 1) (h : ∀ x, x ≠ b → |f x - g x| ≤ ε) :
    |Spec.mean f - Spec.mean g| ≤ ε + 1 / ell := by
  have h1 : |Spec.mean f - Spec.mean g| ≤ Spec.mean fun x : F => ε + if x = b then (1 : ℚ) else 0 := by
    rw [← Sim.mean_sub]
    refine (Sim.abs_mean_le _).trans (Sim.mean_mono fun x => ?_)
    split
    · rw [abs_le]
      constructor <;> linarith [(hf x).1, (hf x).2, (hg x).1, (hg x).2]
    · next hx => linarith [h x hx]
  rw [Sim.mean_add, Sim.mean_const, mean_eq_one] at h1
  exact h1

theorem shared01 (sp : SystemParameters G) (who : K → Spec.Enrolled G x0 x1) (k : K) (l : Spec.HashLog)
    (f : Spec.HashLog → SignalCredentialPresentation G → ℚ) (hf : Sim.Unit01 f) :
    0 ≤ shared sp who k l f ∧ shared sp who k l f ≤ 1 :=
  Sim.mean01 fun _ => Sim.mean01 fun _ => Sim.mean01 fun _ => simulateAt01 _ _ _ _ _ _ _ _ hf

theorem half (O : Oracle) (who : G → K → Spec.Enrolled G x0 x1)
    (A : G → Spec.Observer K fun _ => SignalCredentialPresentation G) {q n : ℕ} (hA : ∀ X, (A X).Within q n) :
    |(Spec.mean fun x : F => (A (x • basepoint G)).yes
        (Spec.sharedEntry O ⟨basepoint G, x • basepoint G⟩ (who (x • basepoint G))) []) -
      Spec.mean fun x : F => (A (x • basepoint G)).yes (blind ⟨basepoint G, x • basepoint G⟩ x0 x1) []| ≤
      Spec.Guesser.ddh (fun X Y Z => (A X).guess (who X) X Y Z []) + (2 * n * (q + 2 * n) + 3) / ell := by
  have hell : (0 : ℚ) < ell := by exact_mod_cast (Nat.Prime.pos Fact.out : 0 < ell)
  have h1 : |(Spec.mean fun x : F => (A (x • basepoint G)).yes
        (Spec.sharedEntry O ⟨basepoint G, x • basepoint G⟩ (who (x • basepoint G))) []) -
      Spec.mean fun x : F => (A (x • basepoint G)).yes
        (shared ⟨basepoint G, x • basepoint G⟩ (who (x • basepoint G))) []| ≤
      2 * n * (q + 2 * n) / ell + 1 / ell := by
    refine mean_except 0 (by positivity)
      (fun x => Sim.yes01 (fun k l f hf => Sim.mean01 fun d => showWith01 O d _ l hf) _ _)
      (fun x => Sim.yes01 (shared01 _ _) _ _) fun x hx => ?_
    have hB : x • basepoint G ≠ 0 := fun h => (smul_eq_zero.1 h).elim hx Ristretto.base_ne
    refine (Sim.advantage (shared_close O (sp := ⟨basepoint G, x • basepoint G⟩) hB _) (A (x • basepoint G)) [] q n
      (hA _)).trans (le_of_eq ?_)
    rw [List.length_nil]
    push_cast
    ring
  have e : (Spec.mean fun x : F => (A (x • basepoint G)).yes
        (shared ⟨basepoint G, x • basepoint G⟩ (who (x • basepoint G))) []) =
      Spec.mean fun x : F => Spec.mean fun y : F => ((A (x • basepoint G)).guess (who (x • basepoint G))
        (x • basepoint G) (y • basepoint G) ((x * y) • basepoint G) []).yes := by
    refine Sim.mean_congr fun x => (Sim.mean_const (α := F) _).symm.trans (Sim.mean_congr fun y => ?_)
    rw [guess_yes, triple_dh]
  have h2 : |(Spec.mean fun x : F => Spec.mean fun y : F => Spec.mean fun z : F =>
        ((A (x • basepoint G)).guess (who (x • basepoint G))
          (x • basepoint G) (y • basepoint G) (z • basepoint G) []).yes) -
      Spec.mean fun x : F => (A (x • basepoint G)).yes (blind ⟨basepoint G, x • basepoint G⟩ x0 x1) []| ≤
      1 / ell + 1 / ell := by
    refine mean_except 0 (by positivity) (fun x => Sim.mean01 fun y => Sim.mean01 fun z => guesser01 _)
      (fun x => Sim.yes01 (blind01 _ _ _) _ _) fun x hx => ?_
    rw [← Sim.mean_const (α := F) (Spec.Observer.yes _ _ _)]
    refine Sim.abs_sub_mean_le fun y => ?_
    rw [← Sim.mean_const (α := F) (Spec.Observer.yes _ _ _), ← zero_add (1 / (ell : ℚ))]
    refine mean_except (x * y) le_rfl (fun z => guesser01 _) (fun z => Sim.yes01 (blind01 _ _ _) _ _) fun z hz => ?_
    rw [guess_yes, triple_random _ hx hz, sub_self, abs_zero]
  rw [e] at h1
  unfold Spec.Guesser.ddh
  have h3 := abs_sub_le (Spec.mean fun x : F => (A (x • basepoint G)).yes
        (Spec.sharedEntry O ⟨basepoint G, x • basepoint G⟩ (who (x • basepoint G))) [])
    (Spec.mean fun x : F => Spec.mean fun y : F => ((A (x • basepoint G)).guess (who (x • basepoint G))
        (x • basepoint G) (y • basepoint G) ((x * y) • basepoint G) []).yes)
    (Spec.mean fun x : F => (A (x • basepoint G)).yes (blind ⟨basepoint G, x • basepoint G⟩ x0 x1) [])
  have h4 := abs_sub_le (Spec.mean fun x : F => Spec.mean fun y : F => ((A (x • basepoint G)).guess
        (who (x • basepoint G)) (x • basepoint G) (y • basepoint G) ((x * y) • basepoint G) []).yes)
    (Spec.mean fun x : F => Spec.mean fun y : F => Spec.mean fun z : F =>
        ((A (x • basepoint G)).guess (who (x • basepoint G))
          (x • basepoint G) (y • basepoint G) (z • basepoint G) []).yes)
    (Spec.mean fun x : F => (A (x • basepoint G)).yes (blind ⟨basepoint G, x • basepoint G⟩ x0 x1) [])
  have e2 : (2 * n * (q + 2 * n) + 3) / (ell : ℚ) =
      2 * n * (q + 2 * n) / ell + 1 / ell + (1 / ell + 1 / ell) := by ring
  rw [e2]
  linarith

end Shared

/-- C100, the part that holds with one seed for the entry and its presentation: for uniform `h`, an observer with at
most `q` hash queries and `n` requests, who may know the issuer's keys but not the logarithm of `h`, has at most the
advantages of two explicit algorithms against the decisional Diffie–Hellman problem, and a negligible term. The
populations and the observer may depend on `h`. What is missing is that nothing is assumed, as with separate seeds
(`C100_separate`); by `C100_false` and `C100_needed` this cannot be proved. -/
theorem C100_shared_partial (O : Oracle) {K : Type} {x0 x1 : Scalar} (who who' : G → K → Spec.Enrolled G x0 x1)
    (A : G → Spec.Observer K fun _ => SignalCredentialPresentation G) (q n : ℕ) (hA : ∀ X, (A X).Within q n) :
    |(Spec.mean fun x : F => (A (x • basepoint G)).yes
        (Spec.sharedEntry O ⟨basepoint G, x • basepoint G⟩ (who (x • basepoint G))) []) -
      Spec.mean fun x : F => (A (x • basepoint G)).yes
        (Spec.sharedEntry O ⟨basepoint G, x • basepoint G⟩ (who' (x • basepoint G))) []| ≤
      Spec.Guesser.ddh (fun X Y Z => (A X).guess (who X) X Y Z []) +
        Spec.Guesser.ddh (fun X Y Z => (A X).guess (who' X) X Y Z []) + (4 * n * (q + 2 * n) + 6) / ell := by
  have h1 := Shared.half O who A hA
  have h2 := Shared.half O who' A hA
  rw [abs_sub_comm] at h2
  refine (abs_sub_le _ _ _).trans ((add_le_add h1 h2).trans (le_of_eq ?_))
  ring

/-! ## The assumption is needed -/

/-- The same coins and decision. -/
def Spec.Decider.observer {K : Type} {Pf : K → Type} : Spec.Decider → Spec.Observer K Pf
  | .toss next => .toss fun c => (next c).observer
  | .done b => .done b

/-- How an algorithm that decides about triples is used to test for the number `m`: with one presentation. -/
def Spec.numberTester (D : G → G → G → Spec.Decider) (m : F) (X : G) :
    Spec.Observer Unit fun _ => SignalCredentialPresentation G :=
  .request () fun p => (D X (p.rosterEntryCommitment - m • X)
    (p.presentation.attributesBlinded.headD 0 - m • p.presentation.rerandomizedNonce)).observer

namespace Shared

theorem observer_yes {K : Type} {Pf : K → Type} (serve : Spec.Server K Pf) (D : Spec.Decider) :
    ∀ l, (D.observer : Spec.Observer K Pf).yes serve l = D.yes := by
  induction D with
  | toss next ih => exact fun l => Sim.mean_congr fun c => ih c l
  | done b => exact fun l => rfl

theorem observer_within {K : Type} {Pf : K → Type} (D : Spec.Decider) :
    (D.observer : Spec.Observer K Pf).Within 0 0 := by
  induction D with
  | toss next ih => exact ih
  | done b => trivial

theorem tester_yes (O : Oracle) (D : G → G → G → Spec.Decider) (m : F) (X : G) (x : Spec.Enrolled G x0 x1) :
    (Spec.numberTester D m X).yes (Spec.sharedEntry O ⟨basepoint G, X⟩ fun _ => x) [] =
      Spec.mean fun z : F => Spec.mean fun τ : F =>
        (D X (x.m.val • X + z • basepoint G - m • X) (x.m.val • (τ • x.credential.mac.nonce) + z • X -
          m • (τ • x.credential.mac.nonce))).yes := by
  have h : ∀ d : F × F × F, (Spec.showWith O ⟨basepoint G, X⟩ d (x.holder ⟨basepoint G, X⟩ d.1) [] fun l' p =>
      ((D X (p.rosterEntryCommitment - m • X) (p.presentation.attributesBlinded.headD 0 -
        m • p.presentation.rerandomizedNonce)).observer : Spec.Observer Unit fun _ => SignalCredentialPresentation G).yes
          (Spec.sharedEntry O ⟨basepoint G, X⟩ fun _ => x) l') =
      (D X (x.m.val • X + d.1 • basepoint G - m • X) (x.m.val • (d.2.1 • x.credential.mac.nonce) + d.1 • X -
          m • (d.2.1 • x.credential.mac.nonce))).yes := by
    intro d
    refine showWith_points O d (x.holder ⟨basepoint G, X⟩ d.1) [] (fun R P C => (D X (R - m • X) (C - m • P)).yes) _
      fun l p C hC => ?_
    rw [observer_yes, hC]
    rfl
  refine (Sim.mean_congr h).trans ?_
  exact mean_fst2 fun z τ => (D X (x.m.val • X + z • basepoint G - m • X)
    (x.m.val • (τ • x.credential.mac.nonce) + z • X - m • (τ • x.credential.mac.nonce))).yes

end Shared

/-- C100 (the assumption is needed): whoever decides the problem tells two members with different numbers apart, with
one presentation, no hash queries, and exactly the same advantage, if the members use one seed for the entry and
the presentation. -/
theorem C100_needed (O : Oracle) {x0 x1 : Scalar} (x x' : Spec.Enrolled G x0 x1) (hm : x.m.val ≠ x'.m.val)
    (D : G → G → G → Spec.Decider) :
    (∀ X, (Spec.numberTester D x.m.val X).Within 0 1) ∧
    |(Spec.mean fun a : F => (Spec.numberTester D x.m.val (a • basepoint G)).yes
        (Spec.sharedEntry O ⟨basepoint G, a • basepoint G⟩ fun _ => x) []) -
      Spec.mean fun a : F => (Spec.numberTester D x.m.val (a • basepoint G)).yes
        (Spec.sharedEntry O ⟨basepoint G, a • basepoint G⟩ fun _ => x') []| = Spec.ddh D := by
  refine ⟨fun X => ⟨0, rfl, fun p => Shared.observer_within _⟩, ?_⟩
  have e0 : (Spec.mean fun a : F => (Spec.numberTester D x.m.val (a • basepoint G)).yes
        (Spec.sharedEntry O ⟨basepoint G, a • basepoint G⟩ fun _ => x) []) =
      Spec.mean fun a : F => Spec.mean fun y : F =>
        (D (a • basepoint G) (y • basepoint G) ((a * y) • basepoint G)).yes := by
    refine Sim.mean_congr fun a => ?_
    rw [Shared.tester_yes]
    refine Sim.mean_congr fun z => ?_
    rw [← Sim.mean_const (α := F) (D (a • basepoint G) (z • basepoint G) ((a * z) • basepoint G)).yes]
    refine Sim.mean_congr fun τ => ?_
    rw [add_sub_cancel_left, add_sub_cancel_left, smul_smul, mul_comm]
  have e1 : (Spec.mean fun a : F => (Spec.numberTester D x.m.val (a • basepoint G)).yes
        (Spec.sharedEntry O ⟨basepoint G, a • basepoint G⟩ fun _ => x') []) =
      Spec.mean fun a : F => Spec.mean fun y : F => Spec.mean fun z : F =>
        (D (a • basepoint G) (y • basepoint G) (z • basepoint G)).yes := by
    refine Sim.mean_congr fun a => ?_
    rw [Shared.tester_yes]
    rw [← Sim.mean_equiv (Equiv.addLeft ((x'.m.val - x.m.val) * a)) fun y : F => Spec.mean fun z : F =>
      (D (a • basepoint G) (y • basepoint G) (z • basepoint G)).yes]
    refine Sim.mean_congr fun z => ?_
    obtain ⟨b, hb⟩ := Ristretto.gen x'.credential.mac.nonce
    have hb : x'.credential.mac.nonce = b • basepoint G := hb
    have hb0 : b ≠ 0 := by
      rintro rfl
      exact x'.nonce (by rw [hb, zero_smul])
    have hk : (x'.m.val - x.m.val) * b ≠ 0 := mul_ne_zero (sub_ne_zero.2 (Ne.symm hm)) hb0
    rw [← Sim.mean_equiv ((Equiv.mulRight₀ _ hk).trans (Equiv.addRight (z * a))) fun w : F =>
      (D (a • basepoint G) ((Equiv.addLeft ((x'.m.val - x.m.val) * a)) z • basepoint G) (w • basepoint G)).yes]
    refine Sim.mean_congr fun τ => ?_
    simp only [Equiv.coe_addLeft, Equiv.trans_apply, Equiv.coe_addRight]
    have h1 : x'.m.val • a • basepoint G + z • basepoint G - x.m.val • a • basepoint G =
        ((x'.m.val - x.m.val) * a + z) • basepoint G := by module
    have h2 : x'.m.val • τ • x'.credential.mac.nonce + z • a • basepoint G - x.m.val • τ • x'.credential.mac.nonce =
        (τ * ((x'.m.val - x.m.val) * b) + z * a) • basepoint G := by rw [hb]; module
    rw [h1, h2]
    rfl
  rw [e0, e1, Spec.ddh]

/-! ## The hypotheses can be met -/

namespace Shared

/-- A member with the number 7, in the group `F`. -/
def member7 : Spec.Enrolled F ⟨3, by decide⟩ ⟨5, by decide⟩ :=
  ⟨⟨⟨2, 76⟩, [⟨7, by decide⟩]⟩, ⟨7, by decide⟩, by
    simp only [Spec.MacValid, Spec.macFactor, List.map]; decide +kernel, by decide +kernel⟩

/-- A member with the number 9. -/
def member9 : Spec.Enrolled F ⟨3, by decide⟩ ⟨5, by decide⟩ :=
  ⟨⟨⟨1, 48⟩, [⟨9, by decide⟩]⟩, ⟨9, by decide⟩, by
    simp only [Spec.MacValid, Spec.macFactor, List.map]; decide +kernel, by decide +kernel⟩

end Shared

/-- With one seed, the presentations of two members are told apart with probability `1 - 1/ℓ`. -/
example (O : Oracle) : (Spec.testNumber (⟨1, 2⟩ : SystemParameters F) 2 (7 : F)).yes
      (Spec.sharedEntry O ⟨1, 2⟩ fun _ => Shared.member7) [] -
    (Spec.testNumber (⟨1, 2⟩ : SystemParameters F) 2 (7 : F)).yes
      (Spec.sharedEntry O ⟨1, 2⟩ fun _ => Shared.member9) [] = 1 - 1 / ell := by
  have e7 : Shared.member7.m.val = 7 := by decide +kernel
  have h1 := (C100_false O (sp := (⟨1, 2⟩ : SystemParameters F)) (a := 2) (by decide +kernel)
    (by decide +kernel) Shared.member7 9 (by decide +kernel)).2.1
  have h2 := (C100_false O (sp := (⟨1, 2⟩ : SystemParameters F)) (a := 2) (by decide +kernel)
    (by decide +kernel) Shared.member9 7 (by decide +kernel)).2.2.1
  rw [e7] at h1
  rw [h1, h2]

/-- With separate seeds, the same observer has almost no advantage. -/
example (O : Oracle) : |(Spec.testNumber (⟨1, 2⟩ : SystemParameters F) 2 (7 : F)).yes
      (Spec.freshEntry O ⟨1, 2⟩ fun _ => Shared.member7) [] -
    (Spec.testNumber (⟨1, 2⟩ : SystemParameters F) 2 (7 : F)).yes
      (Spec.freshEntry O ⟨1, 2⟩ fun _ => Shared.member9) []| ≤ 8 / ell := by
  refine (C100_separate O (sp := (⟨1, 2⟩ : SystemParameters F)) (by decide +kernel) (by decide +kernel)
    (fun _ => Shared.member7) (fun _ => Shared.member9) (Spec.testNumber ⟨1, 2⟩ 2 7) 0 1
    ⟨0, rfl, fun _ => trivial⟩).trans (le_of_eq ?_)
  norm_num

/-- The two bounds with one seed apply to members with different numbers. -/
example (O : Oracle) (D : F → F → F → Spec.Decider) : Shared.member7.m.val ≠ Shared.member9.m.val ∧
    (∀ X : F, (Spec.numberTester D Shared.member7.m.val X).Within 0 1) ∧
    Spec.ddh D ≤
      Spec.Guesser.ddh (fun X Y Z => (Spec.numberTester D Shared.member7.m.val X).guess (fun _ => Shared.member7) X Y Z []) +
        Spec.Guesser.ddh (fun X Y Z => (Spec.numberTester D Shared.member7.m.val X).guess (fun _ => Shared.member9) X Y Z []) +
        14 / ell := by
  have hm : Shared.member7.m.val ≠ Shared.member9.m.val := by decide +kernel
  obtain ⟨h1, h2⟩ := C100_needed O Shared.member7 Shared.member9 hm D
  have h3 := C100_shared_partial O (fun _ _ => Shared.member7) (fun _ _ => Shared.member9)
    (Spec.numberTester D Shared.member7.m.val) 0 1 h1
  rw [h2] at h3
  refine ⟨hm, h1, h3.trans (le_of_eq ?_)⟩
  norm_num

/-- A user with a credential and no key. -/
def Shared.user : SignalUser F :=
  ⟨⟨7, by decide⟩, ⟨⟨1, 2⟩, ⟨[10]⟩, none, some ⟨⟨2, 76⟩, [⟨7, by decide⟩]⟩⟩⟩

/-- An entry and a presentation made with one seed. -/
example (O : Oracle) : ∃ entry b : Bytes,
    SignalUser.fromBytes Shared.user.toBytes = .ok Shared.user ∧
    Spec.Answers F ToyRng O true 1 (.rosterEntry [1, 2, 3]
      (SystemParameters.toBytes (⟨1, 2⟩ : SystemParameters F)) (List.replicate 32 1)) entry ∧
    Spec.Answers F ToyRng O true 1 (.presentation Shared.user.toBytes entry (List.replicate 32 1) [] []) b := by
  have hu : SignalUser.fromBytes Shared.user.toBytes = .ok Shared.user := by
    rw [C11_signal_roundtrip_iff, C11_roundtrip_iff]
    refine ⟨rfl, fun k h => (by cases h), fun c h => ?_⟩
    cases h
    exact ⟨_, rfl, (by decide), fun h => absurd h.1 (by decide +kernel)⟩
  obtain ⟨n, hn⟩ : ∃ n, PhoneNumber.tryFromBytes [1, 2, 3] = .ok n := ⟨_, rfl⟩
  obtain ⟨z, e, -, h⟩ := C43_show_is_present O (u := Shared.user) (X := 10) (Xs := []) rfl rfl rfl
    (SeedableRng.fromSeed (List.replicate 32 1) : ToyRng)
    ⟨n • (2 : F) + (Scalar.random (SeedableRng.fromSeed (List.replicate 32 1) : ToyRng)).1 • (1 : F),
      (Scalar.random (SeedableRng.fromSeed (List.replicate 32 1) : ToyRng)).1⟩ [] []
  exact ⟨_, _, hu, ⟨by decide, _, _, C01_roundtrip _, roster_create _ _ _ hn, rfl⟩,
    ⟨by decide, _, _, _, hu, C12_roster_roundtrip _, h, rfl⟩⟩

end Verif
