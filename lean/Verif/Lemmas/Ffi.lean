import Verif.Model.Ffi
import Verif.Props.Show

/-!
# Vocabulary and lemmas for the C interface
-/

set_option maxRecDepth 100000

namespace Verif

open Ffi Amacs

/-! ## Specification vocabulary -/

/-- Memory holds the bytes `b` at address `p`. -/
def Spec.At (m : Mem) (p : ℕ) (b : Bytes) : Prop := ∀ k < b.length, m (p + k) = b[k]?

/-- The pointer and length denote the bytes `b`: neither null nor empty, and the caller may read as
many bytes as the length says after the cast to `size_t`. -/
def Spec.Denotes (P : Platform) (m : Mem) (p : ℕ) (len : UInt64) (b : Bytes) : Prop :=
  p ≠ 0 ∧ len ≠ 0 ∧ b.length = len.toNat % 2 ^ P.bits ∧ b.length < 2 ^ (P.bits - 1) ∧ Spec.At m p b

/-- A seed pointer that is not null and has 32 bytes behind it. -/
def Spec.SeedAt (m : Mem) (p : ℕ) (s : Bytes) : Prop := p ≠ 0 ∧ s.length = 32 ∧ Spec.At m p s

/-- An argument of a call: a pointer with a length, or a pointer to a seed. -/
inductive Spec.Arg where
  | bytes (p : ℕ) (len : UInt64)
  | seed (p : ℕ)

/-- Null, or of zero length. -/
def Spec.Arg.Absent : Spec.Arg → Prop
  | .bytes p len => p = 0 ∨ len = 0
  | .seed p => p = 0

/-- Something the caller may read is behind the pointer. -/
def Spec.Arg.Readable (P : Platform) (m : Mem) : Spec.Arg → Prop
  | .bytes p len => ∃ b, Spec.Denotes P m p len b
  | .seed p => ∃ s, Spec.SeedAt m p s

/-- Neither absent nor readable: an invalid pointer. -/
def Spec.Arg.Invalid (P : Platform) (m : Mem) (a : Spec.Arg) : Prop := ¬ a.Absent ∧ ¬ a.Readable P m

/-- The arguments of a call. -/
def Spec.args : Call → List Spec.Arg
  | .systemParametersCreate s => [.seed s]
  | .issuerCreate p pl s => [.bytes p pl, .seed s]
  | .issuerNew p pl k kl => [.bytes p pl, .bytes k kl]
  | .issuerGetIssuerParameters i il => [.bytes i il]
  | .issuerIssue i il n nl s _ => [.bytes i il, .bytes n nl, .seed s]
  | .issuerVerify i il p pl => [.bytes i il, .bytes p pl]
  | .issuerVerifyRosterMembership i il v vl => [.bytes i il, .bytes v vl]
  | .userObtainFinish n nl p pl ip ipl i il => [.bytes n nl, .bytes p pl, .bytes ip ipl, .bytes i il]
  | .userShow u ul e el s _ _ => [.bytes u ul, .bytes e el, .seed s]
  | .rosterEntryCommitmentCreate n nl p pl s => [.bytes n nl, .bytes p pl, .seed s]
  | .rosterEntryCommitmentRemoveOpening e el => [.bytes e el]
  | .rosterEntryCommitmentOpen e el n nl p pl => [.bytes e el, .bytes n nl, .bytes p pl]

/-! ## Lemmas about memory and arguments -/

theorem read_eq_some : ∀ {n : ℕ} {m : Mem} {p : ℕ} {b : Bytes},
    m.read p n = some b ↔ b.length = n ∧ Spec.At m p b
  | 0, m, p, b => by
    simp only [Mem.read, Option.some.injEq]
    constructor
    · rintro rfl
      exact ⟨rfl, fun k hk => absurd hk (Nat.not_lt_zero k)⟩
    · rintro ⟨h, _⟩
      exact (List.length_eq_zero_iff.1 h).symm
  | n + 1, m, p, b => by
    simp only [Mem.read, Option.bind_eq_bind, Option.bind_eq_some_iff, Option.some.injEq]
    constructor
    · rintro ⟨x, hx, xs, hxs, rfl⟩
      obtain ⟨h1, h2⟩ := read_eq_some.1 hxs
      refine ⟨by simp [h1], ?_⟩
      intro k hk
      cases k with
      | zero => simpa using hx
      | succ k =>
        have := h2 k (by simpa using hk)
        rw [List.getElem?_cons_succ, ← this]
        congr 1
        omega
    · rintro ⟨h1, h2⟩
      cases b with
      | nil => simp at h1
      | cons x xs =>
        refine ⟨x, ?_, xs, read_eq_some.2 ⟨by simpa using h1, ?_⟩, rfl⟩
        · simpa using h2 0 (by simp)
        · intro k hk
          have := h2 (k + 1) (by simpa using hk)
          rw [List.getElem?_cons_succ] at this
          rw [← this]
          congr 1
          omega

theorem at_unique {m : Mem} {p : ℕ} {a b : Bytes} (ha : Spec.At m p a) (hb : Spec.At m p b)
    (h : a.length = b.length) : a = b := by
  have h1 := read_eq_some.2 ⟨h, ha⟩
  rw [read_eq_some.2 ⟨rfl, hb⟩] at h1
  cases h1
  rfl

theorem slice_ok_iff {P : Platform} {m : Mem} {len : UInt64} {p : ℕ} {b : Bytes} :
    Ffi.slice P m len p = .ok b ↔ Spec.Denotes P m p len b := by
  rw [Ffi.slice, Spec.Denotes]
  split
  · rename_i h
    simp only [reduceCtorEq, false_iff]
    rintro ⟨h1, h2, _⟩
    exact h.elim h1 h2
  · rename_i h
    push Not at h
    dsimp only
    split
    · rename_i h2
      simp only [reduceCtorEq, false_iff]
      rintro ⟨_, _, h3, h4, _⟩
      omega
    · rename_i h2
      rw [Res.ofOption_eq_ok, read_eq_some]
      constructor
      · rintro ⟨h3, h4⟩
        exact ⟨h.1, h.2, h3, by omega, h4⟩
      · rintro ⟨_, _, h3, _, h4⟩
        exact ⟨h3, h4⟩

theorem slice_empty_iff {P : Platform} {m : Mem} {len : UInt64} {p : ℕ} :
    Ffi.slice P m len p = .err .empty ↔ (Spec.Arg.bytes p len).Absent := by
  rw [Ffi.slice, Spec.Arg.Absent]
  split
  · rename_i h
    simp [h]
  · rename_i h
    simp only [h, iff_false]
    split
    · simp
    · rw [Res.ofOption_eq_err]
      simp

theorem slice_ne_panic {P : Platform} {m : Mem} {len : UInt64} {p : ℕ} :
    Ffi.slice P m len p ≠ .panic := by
  rw [Ffi.slice]
  split
  · simp
  · dsimp only
    split
    · simp
    · exact Res.ofOption_ne_panic

theorem slice_ne_hangs {P : Platform} {m : Mem} {len : UInt64} {p : ℕ} :
    Ffi.slice P m len p ≠ .err .hangs := by
  rw [Ffi.slice]
  split
  · simp
  · dsimp only
    split
    · simp
    · rw [Ne, Res.ofOption_eq_err]
      simp

theorem seed_ok_iff {R : Type} [SeedableRng R] {m : Mem} {p : ℕ} {r : R} :
    csprngFromSeed m p = .ok r ↔ ∃ s, Spec.SeedAt m p s ∧ r = SeedableRng.fromSeed s := by
  rw [csprngFromSeed]
  split
  · rename_i h
    simp only [reduceCtorEq, false_iff, not_exists]
    rintro s ⟨⟨h1, _⟩, _⟩
    exact h1 h
  · rename_i h
    simp only [Res.bind_eq_ok, Res.ofOption_eq_ok, read_eq_some, Res.ok.injEq]
    constructor
    · rintro ⟨s, h1, h2⟩
      exact ⟨s, ⟨h, h1.1, h1.2⟩, h2.symm⟩
    · rintro ⟨s, ⟨_, h1⟩, h2⟩
      exact ⟨s, h1, h2.symm⟩

theorem seed_empty_iff {R : Type} [SeedableRng R] {m : Mem} {p : ℕ} :
    (csprngFromSeed m p : Res Exit R) = .err .empty ↔ (Spec.Arg.seed p).Absent := by
  rw [csprngFromSeed, Spec.Arg.Absent]
  split
  · rename_i h
    simp [h]
  · rename_i h
    simp [h, Res.bind_eq_err, Res.ofOption_eq_err]

theorem seed_ne_panic {R : Type} [SeedableRng R] {m : Mem} {p : ℕ} :
    (csprngFromSeed m p : Res Exit R) ≠ .panic := by
  rw [csprngFromSeed]
  split
  · simp
  · simp [Res.bind_eq_panic, Res.ofOption_ne_panic]

theorem seed_ne_hangs {R : Type} [SeedableRng R] {m : Mem} {p : ℕ} :
    (csprngFromSeed m p : Res Exit R) ≠ .err .hangs := by
  rw [csprngFromSeed]
  split
  · simp
  · simp [Res.bind_eq_err, Res.ofOption_eq_err]

theorem okOrReturn_eq_ok {ε α : Type} {x : Res ε α} {a : α} : okOrReturn x = .ok a ↔ x = .ok a :=
  Res.mapErr_eq_ok

theorem okOrReturn_eq_panic {ε α : Type} {x : Res ε α} : okOrReturn x = .panic ↔ x = .panic :=
  Res.mapErr_eq_panic

theorem okOrReturn_eq_err {ε α : Type} {x : Res ε α} {e : Exit} :
    okOrReturn x = .err e ↔ (∃ e', x = .err e') ∧ e = .empty := by
  rw [okOrReturn, Res.mapErr_eq_err]
  constructor
  · rintro ⟨e0, h, rfl⟩
    exact ⟨⟨e0, h⟩, rfl⟩
  · rintro ⟨⟨e0, h⟩, rfl⟩
    exact ⟨e0, h, rfl⟩

theorem finish_panics {P : Platform} {m : Mem} {x : Res Exit Bytes} :
    finish P m x = .panics ↔ x = .panic := by
  rcases x with b | (_ | _ | _) | _ <;> simp [finish]
  split <;> simp

theorem finishOpen_panics {P : Platform} {m : Mem} {x : Res Exit Bool} :
    finishOpen P m x = .panics ↔ x = .panic := by
  rcases x with (_ | _) | (_ | _ | _) | _ <;> simp [finishOpen]

theorem write_free {m : Mem} {p : ℕ} {b : Bytes} (h : ∀ a, p ≤ a → a < p + b.length → m a = none) :
    (m.write p b).free p b.length = m := by
  funext a
  simp only [Mem.free, Mem.write]
  by_cases ha : p ≤ a ∧ a < p + b.length
  · rw [if_pos ha, h a ha.1 ha.2]
  · rw [if_neg ha, if_neg ha]

theorem at_write (m : Mem) (p : ℕ) (b : Bytes) : Spec.At (m.write p b) p b := by
  intro k hk
  simp only [Mem.write]
  rw [if_pos ⟨by omega, by omega⟩]
  congr 1
  omega

theorem at_write_other {m : Mem} {p q : ℕ} {b b' : Bytes} (h : Spec.At m p b)
    (hd : p + b.length ≤ q ∨ q + b'.length ≤ p) : Spec.At (m.write q b') p b := by
  intro k hk
  simp only [Mem.write]
  rw [if_neg (by omega)]
  exact h k hk

theorem readable_not_absent {P : Platform} {m : Mem} {a : Spec.Arg} (h : a.Readable P m) :
    ¬ a.Absent := by
  cases a with
  | bytes p len =>
    obtain ⟨b, h1, h2, _⟩ := h
    exact fun h => h.elim h1 h2
  | seed p =>
    obtain ⟨s, h1, _⟩ := h
    exact h1

/-- A pointer to bytes in memory, together with their number, denotes them. -/
theorem denotes_of_at {P : Platform} {m : Mem} {p : ℕ} {b : Bytes} (hp : p ≠ 0) (hb : b ≠ [])
    (hl : b.length < 2 ^ 31) (h : Spec.At m p b) :
    Spec.Denotes P m p (UInt64.ofNat b.length) b := by
  have h1 : 0 < b.length := List.length_pos_iff.2 hb
  have h2 : (UInt64.ofNat b.length).toNat = b.length := by
    rw [UInt64.toNat_ofNat']
    exact Nat.mod_eq_of_lt (by omega)
  have h3 : 31 ≤ P.bits - 1 := by
    rw [Platform.bits]
    split <;> omega
  have h4 : b.length < 2 ^ (P.bits - 1) := lt_of_lt_of_le hl (Nat.pow_le_pow_right (by omega) h3)
  refine ⟨hp, ?_, ?_, h4, h⟩
  · intro h0
    rw [h0] at h2
    change 0 = _ at h2
    omega
  · rw [h2, Nat.mod_eq_of_lt]
    exact lt_of_lt_of_le h4 (Nat.pow_le_pow_right (by omega) (by omega))

theorem slice_undefined_iff {P : Platform} {m : Mem} {len : UInt64} {p : ℕ} :
    Ffi.slice P m len p = .err .undefined ↔
      (Spec.Arg.bytes p len).Invalid P m := by
  rw [Spec.Arg.Invalid]
  cases h : Ffi.slice P m len p with
  | ok b =>
    have := slice_ok_iff.1 h
    simp only [reduceCtorEq, false_iff, not_and_not_right]
    exact fun _ => ⟨b, this⟩
  | panic => exact absurd h slice_ne_panic
  | err e =>
    have h2 : ¬ (Spec.Arg.bytes p len).Readable P m := by
      rintro ⟨b, hb⟩
      rw [slice_ok_iff.2 hb] at h
      cases h
    rw [← slice_empty_iff (P := P) (m := m), h]
    cases e with
    | hangs => exact absurd h slice_ne_hangs
    | empty => simp
    | undefined => simp [h2]

theorem seed_undefined_iff {R : Type} [SeedableRng R] {P : Platform} {m : Mem} {p : ℕ} :
    (csprngFromSeed m p : Res Exit R) = .err .undefined ↔
      (Spec.Arg.seed p).Invalid P m := by
  rw [Spec.Arg.Invalid]
  cases h : (csprngFromSeed m p : Res Exit R) with
  | ok b =>
    obtain ⟨s, h2, _⟩ := seed_ok_iff.1 h
    simp only [reduceCtorEq, false_iff, not_and_not_right]
    exact fun _ => ⟨s, h2⟩
  | panic => exact absurd h seed_ne_panic
  | err e =>
    have h2 : ¬ (Spec.Arg.seed p).Readable P m := by
      rintro ⟨b, hb⟩
      rw [seed_ok_iff.2 ⟨b, hb, rfl⟩] at h
      cases h
    rw [← seed_empty_iff (R := R) (m := m), h]
    cases e with
    | hangs => exact absurd h seed_ne_hangs
    | empty => simp
    | undefined => simp [h2]

end Verif
