import Verif.Props.Heist
import Verif.Props.Tests

/-!
# C109: honest presentations do not repeat

The code keeps no record of presentations, and what was accepted once is accepted again. A server that remembers what it has
accepted refuses what is sent again, and hardly ever an honest user.
-/

set_option maxRecDepth 100000
set_option exponentiation.threshold 300

namespace Verif

open Amacs

variable {G : Type} [AddCommGroup G] [Module F G] [Ristretto G]

/-! ## The server -/

/-- A presentation of a user to the issuer with the keys `key`: credential, entry, and the random bytes for the proofs. -/
structure Spec.Visit (sp : SystemParameters G) (key : Scalar × Scalar) where
  number : Scalar
  tag : Tag G
  m : Scalar
  valid : Spec.MacValid ⟨key.1, [key.2]⟩ tag [m]
  entry : RosterEntryCommitment G
  opens : entry.commitment = m.val • sp.h + entry.opening.val • sp.g
  e1 : Bytes
  e2 : Bytes

/-- The user. -/
def Spec.Visit.user {sp : SystemParameters G} {key : Scalar × Scalar} (v : Spec.Visit sp key) : SignalUser G :=
  ⟨v.number, ⟨sp, ⟨[key.2.val • sp.h]⟩, none, some ⟨v.tag, [v.m]⟩⟩⟩

/-- The issuer. -/
def Spec.host (sp : SystemParameters G) (key : Scalar × Scalar) : SignalIssuer G :=
  ⟨⟨sp, ⟨⟨[key.2.val • sp.h]⟩, ⟨key.1, [key.2]⟩⟩⟩⟩

open Classical in
/-- What a server that has accepted `seen` accepts: bytes that decode, verify, and whose presentation was not there before. The
server keeps only `f p` of each presentation `p`, which may be `p` itself, or the blinded attribute. -/
noncomputable def Spec.admits {β : Type} (f : SignalCredentialPresentation G → β) (O : Oracle) (i : SignalIssuer G)
    (seen : List (SignalCredentialPresentation G)) (b : Bytes) : Option (SignalCredentialPresentation G) :=
  match (SignalCredentialPresentation.fromBytes b : Res _ (SignalCredentialPresentation G)) with
  | .ok p =>
    if f p ∉ seen.map f ∧ i.verify O p = .ok ⟨p⟩ ∧ i.verifyRosterMembership O ⟨p⟩ = .ok p.rosterEntryCommitment then some p
    else none
  | _ => none

/-- What it has accepted after it has been sent `bs`. -/
noncomputable def Spec.accepted {β : Type} (f : SignalCredentialPresentation G → β) (O : Oracle) (i : SignalIssuer G)
    (seen : List (SignalCredentialPresentation G)) : List Bytes → List (SignalCredentialPresentation G)
  | [] => seen
  | b :: bs =>
    match Spec.admits f O i seen b with
    | some p => Spec.accepted f O i (seen ++ [p]) bs
    | none => Spec.accepted f O i seen bs

/-! ## Birthdays -/

namespace Recall

theorem pairs (n : ℕ) : ∑ k : Fin n, ((Finset.univ.filter fun l : Fin n => l < k).card : ℚ) = n * (n - 1) / 2 := by
  have h : ∀ k : Fin n, (Finset.univ.filter fun l : Fin n => l < k).card = (k : ℕ) := fun k => by
    rw [Finset.filter_gt_eq_Iio, Fin.card_Iio]
  simp only [h]
  rw [Fin.sum_univ_eq_sum_range (fun k => (k : ℚ)) n]
  induction n with
  | zero => simp
  | succ n ih =>
    rw [Finset.sum_range_succ, ih fun k => by rw [Finset.filter_gt_eq_Iio, Fin.card_Iio]]
    push_cast
    ring

omit [Ristretto G] in
open Classical in
/-- Two values, each with a uniform summand. -/
theorem pair {n : ℕ} {k l : Fin n} (hkl : l ≠ k) (K : Fin n → G) {h : G} (hh : h ≠ 0) :
    (Spec.mean fun r : Fin n → F => if K k + r k • h = K l + r l • h then (1 : ℚ) else 0) ≤ 1 / ell := by
  have e := Reduction.mean_coord k (fun (a : F) (r : Fin n → F) => if K k + a • h = K l + r l • h then (1 : ℚ) else 0)
    fun a v b => by rw [Function.update_of_ne hkl]
  rw [e, Sim.mean_comm]
  refine (Sim.mean_mono fun r => ?_).trans (Sim.mean_const (α := Fin n → F) (1 / (ell : ℚ))).le
  by_cases hx : ∃ a : F, K k + a • h = K l + r l • h
  · obtain ⟨a, ha⟩ := hx
    have e2 : ∀ x : F, (K k + x • h = K l + r l • h) ↔ x = a := fun x => by
      rw [← ha, add_right_inj]
      exact ⟨fun h' => smul_left_injective F hh h', fun h' => by rw [h']⟩
    simp only [e2]
    unfold Spec.mean
    rw [Finset.sum_ite_eq' Finset.univ a fun _ => (1 : ℚ), if_pos (Finset.mem_univ _), ZMod.card]
  · push Not at hx
    simp only [hx, if_false]
    refine (Sim.mean_const (α := F) 0).le.trans (div_nonneg zero_le_one (Nat.cast_nonneg _))

omit [Ristretto G] in
open Classical in
theorem uniform {n : ℕ} (K : Fin n → G) {h : G} (hh : h ≠ 0) :
    (Spec.mean fun r : Fin n → F => if ∃ k l, l < k ∧ K k + r k • h = K l + r l • h then (1 : ℚ) else 0) ≤
      n * (n - 1) / 2 / ell := by
  have b : ∀ r : Fin n → F, (if ∃ k l, l < k ∧ K k + r k • h = K l + r l • h then (1 : ℚ) else 0) ≤
      ∑ k : Fin n, ∑ l : Fin n, if l < k ∧ K k + r k • h = K l + r l • h then (1 : ℚ) else 0 := fun r => by
    have pos : ∀ k l : Fin n, (0 : ℚ) ≤ if l < k ∧ K k + r k • h = K l + r l • h then (1 : ℚ) else 0 := fun k l => by
      split <;> norm_num
    split
    · rename_i hx
      obtain ⟨k, l, hx⟩ := hx
      refine le_trans ?_ ((Finset.single_le_sum (fun l _ => pos k l) (Finset.mem_univ l)).trans
        (Finset.single_le_sum (fun k _ => Finset.sum_nonneg fun l _ => pos k l) (Finset.mem_univ k)))
      rw [if_pos hx]
    · exact Finset.sum_nonneg fun k _ => Finset.sum_nonneg fun l _ => pos k l
  refine (Sim.mean_mono b).trans ?_
  rw [Reduction.mean_sum]
  simp only [Reduction.mean_sum]
  rw [← pairs, Finset.sum_div]
  refine Finset.sum_le_sum fun k _ => ?_
  rw [Finset.card_filter, Nat.cast_sum, Finset.sum_div]
  refine Finset.sum_le_sum fun l _ => ?_
  by_cases hl : l < k
  · simp only [hl, true_and, if_true, Nat.cast_one]
    exact pair hl.ne K hh
  · simp only [hl, false_and, if_false, Nat.cast_zero, zero_div]
    exact (Sim.mean_const (α := Fin n → F) 0).le

omit [Ristretto G] in
open Classical in
theorem wide {n : ℕ} (K : Fin n → G) {h : G} (hh : h ≠ 0) :
    (Spec.mean fun a : Fin n → Spec.Answer =>
        if ∃ k l, l < k ∧ K k + Spec.coin (a k).1 • h = K l + Spec.coin (a l).1 • h then (1 : ℚ) else 0) ≤
      n * (n - 1) / 2 / ell + n / 2 ^ 259 := by
  have := (Sim.Near.pi fun _ : Fin n => Sim.Near.coin)
    (fun r : Fin n → F => if ∃ k l, l < k ∧ K k + r k • h = K l + r l • h then (1 : ℚ) else 0)
    fun r => by split <;> norm_num
  rw [Finset.sum_const, Finset.card_univ, Fintype.card_fin, nsmul_eq_mul, mul_one_div] at this
  have h2 := (abs_le.1 this).2
  have h3 := uniform K hh
  have e : (Spec.mean fun a : Fin n → Spec.Answer =>
      if ∃ k l, l < k ∧ K k + Spec.coin (a k).1 • h = K l + Spec.coin (a l).1 • h then (1 : ℚ) else 0) =
    Spec.mean fun a : Fin n → Spec.Answer => (fun r : Fin n → F =>
      if ∃ k l, l < k ∧ K k + r k • h = K l + r l • h then (1 : ℚ) else 0) fun k => (leVal (a k).1 : F) := rfl
  rw [e]
  linarith

end Recall

/-! ## C109 -/

variable {R : Type} [RngCore R] {sp : SystemParameters G} {key : Scalar × Scalar} {n : ℕ}

open Classical in
/-- **C109**: for every hash, all parameters with `h` not the identity, all users and credentials, and all bytes for the
transcript generators. Only the first 64 bytes that `SignalUser::show` draws need be uniform. Already the blinded attributes of
different presentations differ. -/
theorem C109_distinct
    (O : Oracle) (hh : sp.h ≠ 0) (v : Fin n → Spec.Visit sp key) (rng : Fin n → Spec.Answer → R)
    (e : Fin n → Bytes) (hr : ∀ k a, (Spec.reads [64, 32] (rng k a)).1 = [a.1, e k]) :
    ∃ p : Fin n → Spec.Answer → SignalCredentialPresentation G,
      (∀ k a, ((v k).user.show O (rng k a) (v k).entry (v k).e1 (v k).e2).1 = .ok (p k a)) ∧
      (Spec.mean fun a : Fin n → Spec.Answer => if ∃ k l, l < k ∧
        (p k (a k)).presentation.attributesBlinded = (p l (a l)).presentation.attributesBlinded then (1 : ℚ) else 0) ≤
        n * (n - 1) / 2 / ell + n / 2 ^ 259 := by
  have key' : ∀ k a, ∃ p, ((v k).user.show O (rng k a) (v k).entry (v k).e1 (v k).e2).1 = .ok p ∧
      p.presentation.attributesBlinded = [(v k).m.val • (Spec.coin (O.rng [.init "AEONFLUX SHOW"] [] (e k) [] 64) •
        (v k).tag.nonce) + Spec.coin a.1 • sp.h] := fun k a => by
    obtain ⟨z, e', h1, h2⟩ := C43_show_is_present O (u := (v k).user) (X := key.2.val • sp.h) (Xs := []) (c := ⟨(v k).tag, [(v k).m]⟩)
      (m := (v k).m) rfl rfl rfl (rng k a) (v k).entry (v k).e1 (v k).e2
    rw [hr] at h1
    cases h1
    exact ⟨_, h2, rfl⟩
  choose p hp hb using key'
  refine ⟨p, hp, (le_of_eq ?_).trans (Recall.wide (fun k => (v k).m.val •
    (Spec.coin (O.rng [.init "AEONFLUX SHOW"] [] (e k) [] 64) • (v k).tag.nonce)) hh)⟩
  simp only [hb, List.cons.injEq, and_true]

namespace Recall

/-- What is different and verifies is accepted. -/
theorem all_accepted {β : Type} (f : SignalCredentialPresentation G → β) (O : Oracle) (i : SignalIssuer G) :
    ∀ (ps seen : List (SignalCredentialPresentation G)), ((seen ++ ps).map f).Nodup →
    (∀ p ∈ ps, SignalCredentialPresentation.fromBytes p.toBytes = .ok p ∧ i.verify O p = .ok ⟨p⟩ ∧
      i.verifyRosterMembership O ⟨p⟩ = .ok p.rosterEntryCommitment) →
    Spec.accepted f O i seen (ps.map SignalCredentialPresentation.toBytes) = seen ++ ps := by
  intro ps
  induction ps with
  | nil => intro seen _ _; simp [Spec.accepted]
  | cons p ps ih =>
    intro seen hn hp
    obtain ⟨h1, h2, h3⟩ := hp p List.mem_cons_self
    have hs : f p ∉ seen.map f := fun h => by
      rw [List.map_append] at hn
      exact (List.nodup_append.1 hn).2.2 _ h _ List.mem_cons_self rfl
    have ha : Spec.admits f O i seen p.toBytes = some p := by
      unfold Spec.admits
      rw [h1]
      exact if_pos ⟨hs, h2, h3⟩
    rw [List.map_cons, Spec.accepted, ha]
    dsimp only
    rw [ih (seen ++ [p]) (by simpa using hn) fun q hq => hp q (List.mem_cons_of_mem _ hq)]
    simp

end Recall

open Classical in
/-- **C109**: the server that remembers accepts all honest presentations, in the order in which they are sent, except with small
probability; also if it keeps no more than the blinded attributes. -/
theorem C109_honest {β : Type} (f : SignalCredentialPresentation G → β)
    (hf : ∀ p q, f p = f q → p.presentation.attributesBlinded = q.presentation.attributesBlinded)
    (O : Oracle) (hh : sp.h ≠ 0) (v : Fin n → Spec.Visit sp key) (rng : Fin n → Spec.Answer → R)
    (e : Fin n → Bytes) (hr : ∀ k a, (Spec.reads [64, 32] (rng k a)).1 = [a.1, e k]) :
    ∃ p : Fin n → Spec.Answer → SignalCredentialPresentation G,
      (∀ k a, ((v k).user.show O (rng k a) (v k).entry (v k).e1 (v k).e2).1 = .ok (p k a)) ∧
      (Spec.mean fun a : Fin n → Spec.Answer =>
        if Spec.accepted f O (Spec.host sp key) [] (List.ofFn fun k => (p k (a k)).toBytes) = List.ofFn fun k => p k (a k)
        then (0 : ℚ) else 1) ≤ n * (n - 1) / 2 / ell + n / 2 ^ 259 := by
  obtain ⟨p, hp, hm⟩ := C109_distinct O hh v rng e hr
  refine ⟨p, hp, (Sim.mean_mono fun a => ?_).trans hm⟩
  by_cases hx : ∃ k l, l < k ∧
      (p k (a k)).presentation.attributesBlinded = (p l (a l)).presentation.attributesBlinded
  · rw [if_pos hx]
    split <;> norm_num
  · rw [if_neg hx]
    refine le_of_eq (if_pos ?_)
    have good : ∀ k, SignalCredentialPresentation.fromBytes (p k (a k)).toBytes = .ok (p k (a k)) ∧
        (Spec.host sp key).verify O (p k (a k)) = .ok ⟨p k (a k)⟩ ∧
        (Spec.host sp key).verifyRosterMembership O ⟨p k (a k)⟩ = .ok (p k (a k)).rosterEntryCommitment := fun k => by
      have h4 : (v k).tag.mac = (key.2.val * (v k).m.val + key.1.val) • (v k).tag.nonce := by
        have := (v k).valid
        simp only [Spec.MacValid, Spec.macFactor, List.map_cons, List.map_nil] at this
        exact this
      obtain ⟨h5, h6⟩ := signal_presentation_verifies O (sp := sp) h4 (signalShowDraws O (rng k (a k))).1
        (signalShowDraws O (rng k (a k))).2.1 (signalShowDraws O (rng k (a k))).2.2 (v k).opens (v k).e1 (v k).e2 _ rfl
      have e1 := hp k (a k)
      rw [Spec.Visit.user, signal_show_one] at e1
      rw [← Res.ok.inj e1]
      refine ⟨(C10_roundtrip _ _ ⟨⟨rfl, rfl, Scalar.reduced_fromWide _, Scalar.reduced_add _ _, Scalar.reduced_add _ _,
        Scalar.reduced_add _ _⟩, Scalar.reduced_fromWide _, Scalar.reduced_add _ _,
        Scalar.reduced_add _ _, Scalar.reduced_add _ _⟩).1, h5, h6⟩
    have inj : Function.Injective fun k => f (p k (a k)) := fun k l hkl => by
      by_contra hne
      rcases lt_or_gt_of_ne hne with h | h
      · exact hx ⟨l, k, h, hf _ _ hkl.symm⟩
      · exact hx ⟨k, l, h, hf _ _ hkl⟩
    have := Recall.all_accepted f O (Spec.host sp key) (List.ofFn fun k => p k (a k)) []
      (by rw [List.nil_append, List.map_ofFn]; exact List.nodup_ofFn.2 inj) fun q hq => by
        obtain ⟨k, rfl⟩ := (List.mem_ofFn' _ _).1 hq
        exact good k
    rw [List.map_ofFn] at this
    exact this

/-- **C109**: nothing is accepted twice, in whatever bytes. -/
theorem C109_replay {β : Type} (f : SignalCredentialPresentation G → β) (O : Oracle) (i : SignalIssuer G) (bs : List Bytes) :
    (Spec.accepted f O i [] bs).Nodup ∧ ((Spec.accepted f O i [] bs).map f).Nodup ∧
    ∀ (b : Bytes) (p : SignalCredentialPresentation G), SignalCredentialPresentation.fromBytes b = .ok p →
      p ∈ Spec.accepted f O i [] bs → Spec.admits f O i (Spec.accepted f O i [] bs) b = none := by
  have new : ∀ seen b p, Spec.admits f O i seen b = some p → f p ∉ seen.map f := fun seen b p h => by
    unfold Spec.admits at h
    split at h
    · split at h
      · rename_i hx
        cases h
        exact hx.1
      · cases h
    · cases h
  have nd : ∀ (bs : List Bytes) (seen : List (SignalCredentialPresentation G)), (seen.map f).Nodup →
      ((Spec.accepted f O i seen bs).map f).Nodup := by
    intro bs
    induction bs with
    | nil => exact fun seen h => h
    | cons b bs ih =>
      intro seen h
      rw [Spec.accepted]
      split
      · rename_i p hp
        refine ih _ ?_
        rw [List.map_append]
        exact List.nodup_append.2 ⟨h, List.nodup_singleton _, fun x hx y hy => by
          rw [List.mem_singleton.1 hy]
          rintro rfl
          exact new _ _ _ hp hx⟩
      · exact ih _ h
  refine ⟨(nd bs [] List.nodup_nil).of_map f, nd bs [] List.nodup_nil, fun b p hb hp => ?_⟩
  unfold Spec.admits
  rw [hb]
  exact if_neg fun h => h.1 (List.mem_map_of_mem hp)

/-- **C109**: the bytes must not be compared instead of what they decode to. Whatever is accepted is also accepted with bytes
appended. -/
theorem C109_bytes {b : Bytes} {p : SignalCredentialPresentation G} (h : SignalCredentialPresentation.fromBytes b = .ok p)
    (rest : Bytes) :
    SignalCredentialPresentation.fromBytes (b ++ rest) = .ok p ∧ (rest ≠ [] → b ++ rest ≠ b) ∧
    ∀ (β : Type) (f : SignalCredentialPresentation G → β) (O : Oracle) (i : SignalIssuer G)
      (seen : List (SignalCredentialPresentation G)), Spec.admits f O i seen (b ++ rest) = Spec.admits f O i seen b := by
  obtain ⟨Cm, r, h1, h2⟩ := (C10_ok_iff b p).1 h
  have h' := (C10_ok_iff (b ++ rest) p).2 ⟨Cm, r ++ rest, h1, by rw [h2, List.append_assoc]⟩
  refine ⟨h', fun hr he => hr (by simpa using he), fun β f O i seen => ?_⟩
  unfold Spec.admits
  rw [h, h']

/-! ## Examples -/

/-- Two visits, of users with the numbers 7 and 8, as `C109_distinct` and `C109_honest` need: to the issuer with the keys 2 and
3 and the parameters `g = 1`, `h = 4`. -/
example : ∃ v : Fin 2 → Spec.Visit (G := F) ⟨1, 4⟩ (Scalar.ofF 2, Scalar.ofF 3),
    (v 0).m = Scalar.ofF 7 ∧ (v 1).m = Scalar.ofF 8 ∧ (v 0).tag.nonce ≠ 0 ∧ (4 : F) ≠ 0 :=
  ⟨fun k => ⟨Scalar.ofF (7 + (k : ℕ)), ⟨5, Spec.macFactor (Scalar.ofF 2).val [(Scalar.ofF 3).val]
      [(Scalar.ofF (7 + (k : ℕ))).val] • 5⟩, Scalar.ofF (7 + (k : ℕ)), rfl,
    ⟨(Scalar.ofF (7 + (k : ℕ))).val • 4 + (Scalar.ofF 6).val • 1, Scalar.ofF 6⟩, rfl, List.replicate 32 1, List.replicate 32 2⟩,
    rfl, by decide +kernel, by decide +kernel, by decide +kernel⟩

/-- What the server may keep, as `C109_honest` needs: all, or 32 bytes. -/
example : (∀ p q : SignalCredentialPresentation F, id p = id q →
      p.presentation.attributesBlinded = q.presentation.attributesBlinded) ∧
    ∀ p q : SignalCredentialPresentation F,
      p.presentation.attributesBlinded.map enc = q.presentation.attributesBlinded.map enc →
      p.presentation.attributesBlinded = q.presentation.attributesBlinded :=
  ⟨fun _ _ h => congrArg (fun x : SignalCredentialPresentation F => x.presentation.attributesBlinded) h,
    fun _ _ h => List.map_injective_iff.2 (fun _ _ => enc_inj) h⟩

/-- A generator that gives the bytes as `C109_distinct` and `C109_honest` need. -/
example : ∃ (R : Type) (_ : RngCore R) (rng : Fin 2 → Spec.Answer → R),
    ∀ k a, (Spec.reads [64, 32] (rng k a)).1 = [a.1, List.replicate 32 3] := by
  refine ⟨Bytes, ⟨fun b n => ((b ++ List.replicate n 3).take n, b.drop n), fun b n => by simp⟩, fun _ a => a.1, fun k a => ?_⟩
  have h : (a.1 : Bytes).drop 64 = [] := List.drop_eq_nil_of_le a.2.le
  simp [Spec.reads, RngCore.fill, a.2, h]

/-- Bytes that decode, as `C109_replay` and `C109_bytes` need. -/
example : ∃ (b : Bytes) (p : SignalCredentialPresentation F), SignalCredentialPresentation.fromBytes b = .ok p :=
  ⟨_, _, (C10_roundtrip (⟨1, ⟨2, 3, [], [4], ⟨1, ⟨0, 1, 0⟩⟩⟩, ⟨0, ⟨1, 0, 1⟩⟩⟩ : SignalCredentialPresentation F) 4
    ⟨⟨rfl, rfl, by decide, by decide, by decide, by decide⟩, by decide, by decide, by decide, by decide⟩).1⟩

end Verif
