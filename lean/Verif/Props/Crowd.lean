import Verif.Props.Heist

/-!
# C107: rosters and presentations do not show phone numbers

The members of a roster make entries with fresh openings and present them to issuers of which they have credentials. All
issuers, who chose the parameters and know all keys and credentials, and some of the members together still do not learn
which of the other entries belongs to whom.
-/

set_option maxRecDepth 100000
set_option exponentiation.threshold 300

namespace Verif

open Amacs

variable {G : Type} [AddCommGroup G] [Module F G] [Ristretto G] {J I : Type} [Fintype J] [DecidableEq J] {owner : I → J}
  {key : I → Scalar × Scalar}

/-! ## The game -/

/-- The owners of roster entries, one for each `j : J`. Each `i : I` is a possible presentation, by the owner of the entry `owner i`, to an issuer
with the keys `key i`. -/
structure Spec.Crowd (G : Type) [AddCommGroup G] [Module F G] {J I : Type} (owner : I → J)
    (key : I → Scalar × Scalar) where
  m : J → Scalar
  credential : I → Credential G
  valid : ∀ i, Spec.MacValid ⟨(key i).1, [(key i).2]⟩ (credential i).mac [m (owner i)]
  nonce : ∀ i, (credential i).mac.nonce ≠ 0

/-- The entries, for given openings. -/
def Spec.Crowd.entry (w : Spec.Crowd G owner key) (sp : SystemParameters G) (r : J → F) (j : J) :
    RosterEntryCommitment G :=
  ⟨(w.m j).val • sp.h + r j • sp.g, Scalar.ofF (r j)⟩

/-- Who presents. -/
def Spec.Crowd.holder (w : Spec.Crowd G owner key) (sp : SystemParameters G) (r : J → F) (i : I) : Spec.AnyHolder sp :=
  ⟨key i, w.credential i, w.m (owner i), w.entry sp r (owner i), w.valid i, w.nonce i, by
    rw [Spec.Crowd.entry, Scalar.val_ofF]⟩

/-- An observer that is given the roster, and the openings of the members in `bad`. It asks the hash, reads generators and sees
presentations, and finally says yes or no. -/
abbrev Spec.RosterObserver (G : Type) {J : Type} (I : Type) (bad : Finset J) :=
  (J → G) → (bad → F) → Spec.Watcher I fun _ => SignalCredentialPresentation G

/-- The probability that it says yes, for given openings, if presentations are made by `SignalUser::show` with its own
generators. -/
noncomputable def Spec.Crowd.yes (w : Spec.Crowd G owner key) (sp : SystemParameters G) {bad : Finset J}
    (A : Spec.RosterObserver G I bad) (r : J → F) : ℚ :=
  (A (fun j => (w.entry sp r j).commitment) fun j => r j).yesRun (Spec.shows (w.holder sp r)) [] []

/-- With openings from `RosterEntryCommitment::create` and uniform bytes. -/
noncomputable def Spec.Crowd.sees (w : Spec.Crowd G owner key) (sp : SystemParameters G) {bad : Finset J}
    (A : Spec.RosterObserver G I bad) : ℚ :=
  Spec.mean fun a : J → Spec.Answer => w.yes sp A fun j => Spec.coin (a j).1

/-! ## C107 -/

/-- **C107** with uniform openings: for all parameters with `g` and `h` not the identity, any two crowds with credentials of
the same issuers, in which the members that collude have the same numbers, and every observer with at most `q` hash queries,
`t` reads of generators and `n` presentations. -/
theorem C107_uniform {sp : SystemParameters G} (hg : sp.g ≠ 0) (hh : sp.h ≠ 0) (w w' : Spec.Crowd G owner key)
    (bad : Finset J) (hw : ∀ j ∈ bad, w.m j = w'.m j) (A : Spec.RosterObserver G I bad) (q t n : ℕ)
    (hA : ∀ D r, (A D r).Within q t n) :
    |Spec.mean (w.yes sp A) - Spec.mean (w'.yes sp A)| ≤
      4 * n * (q + 2 * n) / ell + 18 * n / 2 ^ 259 + 6 * n * (2 * t + 8 * n + 3) / 2 ^ 256 := by
  obtain ⟨y, hy⟩ := exists_smul_of_ne_zero hg sp.h
  let s : J → F := fun j => ((w.m j).val - (w'.m j).val) * y
  have e := Sim.mean_equiv (Equiv.addRight s) (w'.yes sp A)
  rw [← e]
  refine Sim.abs_sub_mean_le fun r => ?_
  have hD : ∀ j, (w'.entry sp (r + s) j).commitment = (w.entry sp r j).commitment := fun j => by
    simp only [Spec.Crowd.entry, Pi.add_apply, s, hy, smul_smul, ← add_smul]
    congr 1
    ring
  have hr : (fun j : bad => (r + s) j) = fun j : bad => r j := by
    funext j
    simp only [Pi.add_apply, s, hw j j.2, sub_self, zero_mul, add_zero]
  show |Spec.Crowd.yes w sp A r - Spec.Crowd.yes w' sp A (r + s)| ≤ _
  unfold Spec.Crowd.yes
  rw [funext hD, hr]
  exact C88_unlinkable hh (w.holder sp r) (w'.holder sp (r + s)) (fun _ => rfl) (fun i => (hD (owner i)).symm) _ q t n
    (hA _ _)

/-- **C107** if the observer chooses the numbers, as late as it likes: there are entries `(k, x, y)` for all numbers `x` and `y`,
each with an opening of its own, which belong to `x` in one crowd and to `y` in the other. The observer uses those it wants. It is
given the openings of the entries with `x = y`. -/
theorem C107_chosen {sp : SystemParameters G} (hg : sp.g ≠ 0) (hh : sp.h ≠ 0) {N : ℕ} {I : Type} {owner : I → Fin N × F × F}
    {key : I → Scalar × Scalar} (w w' : Spec.Crowd G owner key) (hw : ∀ j, w.m j = Scalar.ofF j.2.1)
    (hw' : ∀ j, w'.m j = Scalar.ofF j.2.2)
    (A : Spec.RosterObserver G I (Finset.univ.filter fun j : Fin N × F × F => j.2.1 = j.2.2)) (q t n : ℕ)
    (hA : ∀ D r, (A D r).Within q t n) :
    |Spec.mean (w.yes sp A) - Spec.mean (w'.yes sp A)| ≤
      4 * n * (q + 2 * n) / ell + 18 * n / 2 ^ 259 + 6 * n * (2 * t + 8 * n + 3) / 2 ^ 256 :=
  C107_uniform hg hh w w' _ (fun j hj => by rw [hw, hw', (Finset.mem_filter.1 hj).2]) A q t n hA

omit [Fintype J] [DecidableEq J] in
theorem Crowd.yes01 (w : Spec.Crowd G owner key) (sp : SystemParameters G) {bad : Finset J}
    (A : Spec.RosterObserver G I bad) (r : J → F) : 0 ≤ w.yes sp A r ∧ w.yes sp A r ≤ 1 :=
  Setup.run01 _ _ _ _

/-- **C107** for the code: the entries are made by `RosterEntryCommitment::create` with uniform bytes. -/
theorem C107_hidden {sp : SystemParameters G} (hg : sp.g ≠ 0) (hh : sp.h ≠ 0) (w w' : Spec.Crowd G owner key)
    (bad : Finset J) (hw : ∀ j ∈ bad, w.m j = w'.m j) (A : Spec.RosterObserver G I bad) (q t n : ℕ)
    (hA : ∀ D r, (A D r).Within q t n) :
    |w.sees sp A - w'.sees sp A| ≤
      4 * n * (q + 2 * n) / ell + 18 * n / 2 ^ 259 + 6 * n * (2 * t + 8 * n + 3) / 2 ^ 256 + 2 * Fintype.card J / 2 ^ 259 := by
  have h0 : ∀ v : Spec.Crowd G owner key, |v.sees sp A - Spec.mean (v.yes sp A)| ≤ Fintype.card J / 2 ^ 259 := fun v => by
    have := (Sim.Near.pi fun _ : J => Sim.Near.coin) (v.yes sp A) (Crowd.yes01 v sp A)
    rw [Finset.sum_const, Finset.card_univ, nsmul_eq_mul, mul_one_div] at this
    exact this
  have h1 := h0 w
  have h2 := h0 w'
  rw [abs_sub_comm] at h2
  have h3 := C107_uniform hg hh w w' bad hw A q t n hA
  refine (abs_sub_le _ (Spec.mean (w.yes sp A)) _).trans ((add_le_add h1 ((abs_sub_le _ (Spec.mean (w'.yes sp A)) _).trans
    (add_le_add h3 h2))).trans (le_of_eq ?_))
  ring

omit [Fintype J] [DecidableEq J] in
/-- **C107**: what the members do is `RosterEntryCommitment::create` and `SignalUser::show`. -/
theorem C107_programs {R : Type} [RngCore R] (O : Oracle) (sp : SystemParameters G) (w : Spec.Crowd G owner key) {i : I}
    {number : Bytes} (hm : PhoneNumber.tryFromBytes number = .ok (w.m (owner i))) (a : J → Spec.Answer)
    (rng : R) (e1 e2 : Spec.Seed) (u : SignalUser G) (hs : u.user.systemParameters = sp)
    (hX : u.user.issuerParameters.Xn = [(key i).2.val • sp.h]) (hc : u.user.credential = some (w.credential i))
    (ha : (w.credential i).attributes = [w.m (owner i)]) :
    ∃ ros p, (RosterEntryCommitment.create number sp (⟨[a (owner i)]⟩ : Spec.WideRng)).1 = .ok ros ∧
      ros = w.entry sp (fun j => Spec.coin (a j).1) (owner i) ∧ (u.show O rng ros e1.1 e2.1).1 = .ok p ∧
      (Spec.shows (w.holder sp fun j => Spec.coin (a j).1) i).Returns O [] ((Spec.reads [64, 32] rng).1 ++ [e1.1, e2.1]) p := by
  subst hs
  obtain ⟨p, h1, h2⟩ := C88_show_program O hX hc ha rng (w.entry u.user.systemParameters (fun j => Spec.coin (a j).1) (owner i))
    e1 e2
  refine ⟨_, p, ?_, rfl, h1, h2⟩
  have e : (Scalar.random (⟨[a (owner i)]⟩ : Spec.WideRng)).1 = Scalar.ofF (Spec.coin (a (owner i)).1) := rfl
  rw [roster_create number _ _ hm, e]
  have f : Scalar.ofF (Spec.coin (a (owner i)).1) • u.user.systemParameters.g =
      Spec.coin (a (owner i)).1 • u.user.systemParameters.g :=
    congrArg (· • u.user.systemParameters.g) (Scalar.val_ofF (Spec.coin (a (owner i)).1))
  rw [f]
  rfl

/-- **C107**: `g` must not be the identity. The decoder accepts such parameters, and the entries then show the numbers. -/
theorem C107_g {g h : G} (hg : g = 0) (hh : h ≠ 0) (w w' : Spec.Crowd G owner key) (j : J)
    (hw : (w.m j).val ≠ (w'.m j).val) :
    SystemParameters.fromBytes (SystemParameters.toBytes ⟨g, h⟩) = .ok ⟨g, h⟩ ∧
    ∃ A : Spec.RosterObserver G I (∅ : Finset J), (∀ D r, (A D r).Within 0 0 0) ∧
      w.sees ⟨g, h⟩ A = 1 ∧ w'.sees ⟨g, h⟩ A = 0 := by
  classical
  subst hg
  refine ⟨C01_roundtrip _, fun D _ => .done (decide (D j = (w.m j).val • h)), fun _ _ => trivial, ?_, ?_⟩
  · refine (Sim.mean_congr fun a => ?_).trans (Sim.mean_const (α := J → Spec.Answer) 1)
    have e : (w.entry ⟨0, h⟩ (fun j => Spec.coin (a j).1) j).commitment = (w.m j).val • h := by
      simp [Spec.Crowd.entry]
    unfold Spec.Crowd.yes
    simp only [e, decide_true]
    rfl
  · refine (Sim.mean_congr fun a => ?_).trans (Sim.mean_const (α := J → Spec.Answer) 0)
    have e : (w'.entry ⟨0, h⟩ (fun j => Spec.coin (a j).1) j).commitment = (w'.m j).val • h := by
      simp [Spec.Crowd.entry]
    have ne : ¬ (w'.m j).val • h = (w.m j).val • h := fun h' => hw (smul_left_injective F hh h').symm
    unfold Spec.Crowd.yes
    simp only [e, ne, decide_false]
    rfl

/-- **C107**: who knows the opening of an entry, as the members that collude do, can tell the number. -/
theorem C107_opened {sp : SystemParameters G} (hh : sp.h ≠ 0) (w w' : Spec.Crowd G owner key) (j : J)
    (hw : (w.m j).val ≠ (w'.m j).val) :
    ∃ A : Spec.RosterObserver G I ({j} : Finset J), (∀ D r, (A D r).Within 0 0 0) ∧
      w.sees sp A = 1 ∧ w'.sees sp A = 0 := by
  classical
  have hj : j ∈ ({j} : Finset J) := Finset.mem_singleton_self j
  refine ⟨fun D r => .done (decide (D j = (w.m j).val • sp.h + r ⟨j, hj⟩ • sp.g)), fun _ _ => trivial, ?_, ?_⟩
  · refine (Sim.mean_congr fun a => ?_).trans (Sim.mean_const (α := J → Spec.Answer) 1)
    unfold Spec.Crowd.yes
    simp only [Spec.Crowd.entry, decide_true]
    rfl
  · refine (Sim.mean_congr fun a => ?_).trans (Sim.mean_const (α := J → Spec.Answer) 0)
    have ne : ¬ (w'.m j).val • sp.h = (w.m j).val • sp.h := fun h' => hw (smul_left_injective F hh h').symm
    unfold Spec.Crowd.yes
    simp only [Spec.Crowd.entry, add_left_inj, ne, decide_false]
    rfl

/-- **C107**: `h` must not be the identity. The decoder accepts such parameters, and every presentation then shows the number,
unless its nonce is the identity. -/
theorem C107_h {R : Type} [RngCore R] (O : Oracle) (g : G) {u : SignalUser G} (hs : u.user.systemParameters = ⟨g, 0⟩)
    {X : G} {Xs : List G} {c : Credential G} {m : Scalar} (hX : u.user.issuerParameters.Xn = X :: Xs)
    (hc : u.user.credential = some c) (hm : c.attributes = [m]) (rng : R) (ros : RosterEntryCommitment G) (e1 e2 : Bytes) :
    SystemParameters.fromBytes (SystemParameters.toBytes (⟨g, 0⟩ : SystemParameters G)) = .ok ⟨g, 0⟩ ∧
    ∃ p C, (u.show O rng ros e1 e2).1 = .ok p ∧ p.presentation.attributesBlinded = [C] ∧
      C = m.val • p.presentation.rerandomizedNonce ∧
      (p.presentation.rerandomizedNonce ≠ 0 → ∀ y : F, C = y • p.presentation.rerandomizedNonce → y = m.val) := by
  obtain ⟨z, e, -, h⟩ := C43_show_is_present O hX hc hm rng ros e1 e2
  refine ⟨C01_roundtrip _, _, _, h, rfl, ?_, fun hn y hy => ?_⟩
  · rw [hs, smul_zero, add_zero]
    rfl
  · rw [hs, smul_zero, add_zero] at hy
    exact (smul_left_injective F hn hy).symm

/-! ## Examples -/

/-- Two entries, of one person with the number 7, or of two persons with the numbers 7 and 8. Both present to both of two issuers.
They cannot be told apart even by the first member. -/
example : ∃ w w' : Spec.Crowd F (J := Fin 2) (I := Fin 2 × Bool) Prod.fst (fun i => if i.2 then (1, 1) else (0, 1)),
    w.m = ![⟨7, by decide +kernel⟩, ⟨7, by decide +kernel⟩] ∧ w'.m = ![⟨7, by decide +kernel⟩, ⟨8, by decide +kernel⟩] ∧
    (∀ j ∈ ({0} : Finset (Fin 2)), w.m j = w'.m j) ∧ (1 : F) ≠ 0 ∧ (4 : F) ≠ 0 := by
  have mk : ∀ m : Fin 2 → Scalar, ∃ w : Spec.Crowd F (J := Fin 2) (I := Fin 2 × Bool) Prod.fst
      (fun i => if i.2 then (1, 1) else (0, 1)), w.m = m := fun m =>
    ⟨⟨m, fun i => ⟨⟨1, Spec.macFactor (if i.2 then ((1, 1) : Scalar × Scalar) else (0, 1)).1.val
      [(if i.2 then ((1, 1) : Scalar × Scalar) else (0, 1)).2.val] [(m i.1).val]⟩, [m i.1]⟩, fun i => by
        unfold Spec.MacValid
        simp, fun _ => one_ne_zero⟩, rfl⟩
  obtain ⟨w, hw⟩ := mk ![⟨7, by decide +kernel⟩, ⟨7, by decide +kernel⟩]
  obtain ⟨w', hw'⟩ := mk ![⟨7, by decide +kernel⟩, ⟨8, by decide +kernel⟩]
  refine ⟨w, w', hw, hw', fun j hj => ?_, one_ne_zero, by decide +kernel⟩
  rw [Finset.mem_singleton.1 hj, hw, hw']
  rfl

/-- Crowds as `C107_chosen` needs: everyone presents to one issuer, with a credential for either number. -/
example : ∃ w w' : Spec.Crowd F (J := Fin 2 × F × F) (I := Fin 2 × F × F) id (fun _ => (1, 1)),
    (∀ j, w.m j = Scalar.ofF j.2.1) ∧ ∀ j, w'.m j = Scalar.ofF j.2.2 := by
  have mk : ∀ m : Fin 2 × F × F → Scalar, ∃ w : Spec.Crowd F (J := Fin 2 × F × F) (I := Fin 2 × F × F) id
      (fun _ => (1, 1)), w.m = m := fun m =>
    ⟨⟨m, fun i => ⟨⟨1, Spec.macFactor (1 : Scalar).val [(1 : Scalar).val] [(m i).val]⟩, [m i]⟩, fun i => by
        unfold Spec.MacValid
        simp, fun _ => one_ne_zero⟩, rfl⟩
  obtain ⟨w, hw⟩ := mk fun j => Scalar.ofF j.2.1
  obtain ⟨w', hw'⟩ := mk fun j => Scalar.ofF j.2.2
  exact ⟨w, w', fun j => by rw [hw], fun j => by rw [hw']⟩

/-- An observer that reads a generator, asks the hash, sees the presentations of both to both issuers, and says yes if the
second entry is the identity. -/
example : ∃ A : Spec.RosterObserver F (Fin 2 × Bool) ({0} : Finset (Fin 2)), ∀ D r, (A D r).Within 1 1 4 := by
  classical
  exact ⟨fun D _ => .read ⟨[.init "AEONFLUX SHOW"], [], List.replicate 32 0, 0⟩ fun _ => .ask [.init "AEONFLUX SHOW"] fun _ =>
    .request (0, true) fun _ => .request (1, true) fun _ => .request (0, false) fun _ => .request (1, false) fun _ =>
    .done (decide (D 1 = 0)), fun _ _ => ⟨0, rfl, fun _ => ⟨0, rfl, fun _ => ⟨3, rfl, fun _ => ⟨2, rfl, fun _ =>
      ⟨1, rfl, fun _ => ⟨0, rfl, fun _ => trivial⟩⟩⟩⟩⟩⟩⟩

/-- The number 14155551234, as `C107_programs` needs. -/
example : ∃ m, PhoneNumber.tryFromBytes [1, 4, 1, 5, 5, 5, 5, 1, 2, 3, 4] = .ok m := ⟨_, rfl⟩

/-- A user as `C107_h` needs, with the parameters `g = 1` and `h = 0`. -/
example : ∃ u : SignalUser F, u.user.systemParameters = ⟨1, 0⟩ ∧ u.user.issuerParameters.Xn = [0] ∧
    u.user.credential = some ⟨⟨1, 7⟩, [⟨7, by decide +kernel⟩]⟩ :=
  ⟨⟨⟨7, by decide +kernel⟩, ⟨⟨1, 0⟩, ⟨[0]⟩, none, some ⟨⟨1, 7⟩, [⟨7, by decide +kernel⟩]⟩⟩⟩, rfl, rfl, rfl⟩

end Verif
