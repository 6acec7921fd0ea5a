import Verif.Props.Crowd
import Verif.Props.Tests

/-!
# C108: presentations convince nobody but the issuer

Whoever knows the keys of the issuers makes credentials for any numbers, entries and presentations that cannot be told from those
of the users. So what an issuer has received is no evidence for others.
-/

set_option maxRecDepth 100000

namespace Verif

open Amacs

variable {G : Type} [AddCommGroup G] [Module F G] [Ristretto G] {J I : Type} {owner : I → J} {key : I → Scalar × Scalar}

omit [Ristretto G] in
/-- The credentials that are made with the keys, for numbers and nonces of one's choice. -/
def Spec.forgery (owner : I → J) (key : I → Scalar × Scalar) (m : J → Scalar) (P : I → G) (hP : ∀ i, P i ≠ 0) :
    Spec.Crowd G owner key where
  m := m
  credential i := ⟨⟨P i, ((key i).1.val + (key i).2.val * (m (owner i)).val) • P i⟩, [m (owner i)]⟩
  valid i := by
    simp only [Spec.MacValid, Spec.macFactor, List.map_cons, List.map_nil]
    rw [add_comm]
  nonce := hP

/-- **C108**: for all parameters with `g` and `h` not the identity, all users with arbitrary numbers and credentials, and all
numbers and nonces of the forger, who needs to know the numbers of those users only that give their openings away. -/
theorem C108_denied [Fintype J] [DecidableEq J] {sp : SystemParameters G} (hg : sp.g ≠ 0) (hh : sp.h ≠ 0)
    (w : Spec.Crowd G owner key) (bad : Finset J) (m : J → Scalar) (hm : ∀ j ∈ bad, w.m j = m j) (P : I → G)
    (hP : ∀ i, P i ≠ 0) (A : Spec.RosterObserver G I bad) (q t n : ℕ) (hA : ∀ D r, (A D r).Within q t n) :
    |w.sees sp A - (Spec.forgery owner key m P hP).sees sp A| ≤
      4 * n * (q + 2 * n) / ell + 18 * n / 2 ^ 259 + 6 * n * (2 * t + 8 * n + 3) / 2 ^ 256 +
        2 * Fintype.card J / 2 ^ 259 :=
  C107_hidden hg hh w _ bad hm A q t n hA

/-- **C108** for the programs: the credentials of a forgery are what `SignalIssuer::issue` gives, if its nonce is not the identity,
and `SignalUser::obtain_finish` accepts. -/
theorem C108_issued [DecidableEq G] {R : Type} [RngCore R] (O : Oracle) (sp : SystemParameters G) {m : J → Scalar} {i : I}
    {number : Bytes} (hm : PhoneNumber.tryFromBytes number = .ok (m (owner i))) (rng : R) (e : Bytes) :
    ∃ c u, (SignalIssuer.issue O ⟨⟨sp, ⟨⟨[(key i).2.val • sp.h]⟩, ⟨(key i).1, [(key i).2]⟩⟩⟩⟩ number rng e).1 = .ok c ∧
      SignalUser.new sp ⟨[(key i).2.val • sp.h]⟩ none number = .ok u ∧
      (u.obtainFinish O (some c)).1 = .ok () ∧
      (u.obtainFinish O (some c)).2.user.credential = some c.credential ∧
      ∀ (P : I → G) (hP : ∀ i, P i ≠ 0), P i = c.credential.mac.nonce →
        c.credential = (Spec.forgery owner key m P hP).credential i := by
  obtain ⟨c, h1, h2, h3, h4⟩ := C33_honest_accepted O
    (i := ⟨sp, ⟨⟨[(key i).2.val • sp.h]⟩, ⟨(key i).1, [(key i).2]⟩⟩⟩) ⟨(key i).2, rfl, rfl⟩ (m (owner i)) rng e
    (User.new sp ⟨[(key i).2.val • sp.h]⟩ none) rfl rfl
  refine ⟨c, ⟨m (owner i), User.new sp ⟨[(key i).2.val • sp.h]⟩ none⟩, ?_, ?_, ?_, ?_, fun P hP hc => ?_⟩
  · rw [← h1]
    simp only [SignalIssuer.issue, hm, Res.mapErr_ok]
  · simp only [SignalUser.new, hm, Res.mapErr_ok, Res.ok_bind]
  · rw [SignalUser.obtainFinish]
    simp only [h4]
  · rw [SignalUser.obtainFinish]
    simp only [h4]
  · obtain ⟨pf, ⟨⟨N, Q⟩, as⟩, sk⟩ := c
    dsimp only at h2 h3 hc ⊢
    subst h2
    simp only [Spec.MacValid, Spec.macFactor, List.map_cons, List.map_nil] at h3
    simp only [Spec.forgery, hc, h3]
    rw [add_comm]

/-- **C108**: what `SignalUser::show` makes with the credentials and entries of a forgery is accepted by `SignalIssuer::verify` and
`verify_roster_membership`, whatever the hash and the generators. -/
theorem C108_accepted [DecidableEq G] {R : Type} [RngCore R] (O : Oracle) (sp : SystemParameters G) (m : J → Scalar) (P : I → G)
    (hP : ∀ i, P i ≠ 0) (r : J → F) (i : I) (number : Scalar) (rng : R) (e1 e2 : Bytes) :
    let w := Spec.forgery owner key m P hP
    let s : SignalIssuer G := ⟨⟨sp, ⟨⟨[(key i).2.val • sp.h]⟩, ⟨(key i).1, [(key i).2]⟩⟩⟩⟩
    ∃ p, (SignalUser.show O ⟨number, ⟨sp, ⟨[(key i).2.val • sp.h]⟩, none, some (w.credential i)⟩⟩ rng
        (w.entry sp r (owner i)) e1 e2).1 = .ok p ∧
      s.verify O p = .ok ⟨p⟩ ∧ s.verifyRosterMembership O ⟨p⟩ = .ok (w.entry sp r (owner i)).commitment := by
  intro w s
  obtain ⟨h5, h6⟩ := signal_presentation_verifies O (sp := sp) (x0 := (key i).1) (x1 := (key i).2) (m := m (owner i))
    (tag := (w.credential i).mac) (by rw [add_comm]; rfl) (signalShowDraws O rng).1
    (signalShowDraws O rng).2.1 (signalShowDraws O rng).2.2 (ros := w.entry sp r (owner i))
    (by show (m (owner i)).val • sp.h + r (owner i) • sp.g = _
        rw [Spec.Crowd.entry, Scalar.val_ofF]) e1 e2 _ rfl
  exact ⟨_, signal_show_one O number (m (owner i)) rng _ e1 e2, h5, h6⟩

/-! ## Examples -/

/-- A user with the number 7, whom the forger does not know, and a forgery with the number 8. -/
example : ∃ (w : Spec.Crowd F (J := Fin 1) (I := Unit) (fun _ => 0) (fun _ => (1, 1))) (m : Fin 1 → Scalar) (P : Unit → F),
    (∀ j ∈ (∅ : Finset (Fin 1)), w.m j = m j) ∧ (w.m 0).val ≠ (m 0).val ∧ ∀ i, P i ≠ 0 := by
  refine ⟨Spec.forgery _ _ (fun _ => Scalar.ofF 7) (fun _ => 2) fun _ => by decide +kernel, fun _ => Scalar.ofF 8, fun _ => 1,
    fun j hj => absurd hj (Finset.notMem_empty j), ?_, fun _ => one_ne_zero⟩
  show (Scalar.ofF 7).val ≠ (Scalar.ofF 8).val
  rw [Scalar.val_ofF, Scalar.val_ofF]
  decide +kernel

/-- A user with the number 7 who gives the opening away. The forger needs to know the number. -/
example : ∃ (w : Spec.Crowd F (J := Fin 1) (I := Unit) (fun _ => 0) (fun _ => (1, 1))) (m : Fin 1 → Scalar),
    ∀ j ∈ ({0} : Finset (Fin 1)), w.m j = m j :=
  ⟨Spec.forgery _ _ (fun _ => Scalar.ofF 7) (fun _ => 2) fun _ => by decide +kernel, fun _ => Scalar.ofF 7, fun _ _ => rfl⟩

end Verif
