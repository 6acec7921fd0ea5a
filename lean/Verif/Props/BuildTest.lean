import Verif.Model.BuildTest
import Verif.Lemmas.Ffi
import Verif.Toy
import Mathlib.Data.List.TakeWhile

/-!
# C99: the build experiments
-/

set_option maxRecDepth 100000

namespace Verif

open BuildTest Ffi

variable {G : Type} [AddCommGroup G] [Module F G] [Ristretto G]
variable {R : Type} [RngCore R] {bits : ℕ}

/-- At `p` there is a C string, the bytes before the first zero. -/
def Spec.CString (m : Mem) (p : ℕ) (s : Bytes) : Prop := Spec.At m p (s ++ [0]) ∧ 0 ∉ s

namespace BuildTest

theorem readable {m : Mem} {p n : ℕ} (h : ∀ a, p ≤ a → a < p + n → m a ≠ none) : (m.read p n).isSome := by
  induction n generalizing p with
  | zero => rfl
  | succ n ih =>
    obtain ⟨b, hb⟩ := Option.ne_none_iff_exists'.1 (h p le_rfl (by omega))
    obtain ⟨l, hl⟩ := Option.isSome_iff_exists.1 (ih (p := p + 1) fun a h1 h2 => h a (by omega) (by omega))
    simp [Mem.read, hb, hl]

theorem store_ok {m : Mem} {p : ℕ} {b : Bytes} (h : ∀ a, p ≤ a → a < p + b.length → m a ≠ none) :
    store m p b = .returns (m.write p b) := by
  rw [store, if_pos (readable h)]

/-- The memory after a successful call. -/
theorem alloc_some (A : Malloc bits) (m : Mem) (bytes : Bytes) {p : ℕ} (hs : bytes.length + 1 < 2 ^ bits)
    (hp : A.address m (bytes.length + 1) = some p) :
    allocateBufferForBytes A m bytes = .returns (p, m.write p (bytes ++ [0])) := by
  have h1 : A.call m (bytes.length + 1) = some (p, fun a => if p ≤ a ∧ a < p + (bytes.length + 1) then
      some (A.junk m a) else m a) := by
    rw [Malloc.call, hp]
    rfl
  rw [allocateBufferForBytes]
  simp only [if_neg (not_le.2 hs), h1]
  rw [store_ok (fun a h2 h3 => by simp only [h2, true_and]; rw [if_pos (by omega)]; simp), Ends.andThen, setIndex,
    if_pos (Nat.lt_succ_self _), store_ok, Ends.andThen]
  · congr 2
    funext a
    simp only [Mem.write, List.length_append, List.length_cons, List.length_nil]
    by_cases h4 : a = p + bytes.length
    · subst h4
      simp
    · by_cases h5 : p ≤ a ∧ a < p + bytes.length
      · rw [if_neg (by omega), if_pos h5, if_pos (by omega), List.getElem?_append_left (by omega)]
      · rw [if_neg (by omega), if_neg h5, if_neg (by omega), if_neg (by omega)]
  · intro a h2 h3
    simp only [List.length_cons, List.length_nil] at h3
    simp only [Mem.write]
    rw [if_neg (by omega), if_pos (by omega)]
    simp

theorem c_string_unique {m : Mem} {p : ℕ} {s t : Bytes} (hs : Spec.CString m p s) (ht : Spec.CString m p t)
    (hl : s.length ≤ t.length) : s = t := by
  obtain ⟨h1, h2⟩ := hs
  obtain ⟨h3, h4⟩ := ht
  rcases hl.lt_or_eq with h | h
  · have e1 := h1 s.length (by simp)
    have e2 := h3 s.length (by simp; omega)
    rw [e1, List.getElem?_append_right le_rfl, List.getElem?_append_left h, List.getElem?_eq_getElem h, Nat.sub_self,
      List.getElem?_cons_zero, Option.some.injEq] at e2
    exact absurd (e2 ▸ List.getElem_mem h) h4
  · refine List.ext_getElem h fun k hk hk' => ?_
    have e1 := h1 k (by simp; omega)
    have e2 := h3 k (by simp; omega)
    rw [e1, List.getElem?_append_left hk, List.getElem?_append_left hk', List.getElem?_eq_getElem hk,
      List.getElem?_eq_getElem hk', Option.some.injEq] at e2
    exact e2

theorem at_prefix {m : Mem} {p : ℕ} {s t : Bytes} (h : Spec.At m p t) (hp : s <+: t) : Spec.At m p s := by
  obtain ⟨u, rfl⟩ := hp
  intro k hk
  rw [h k (by simp; omega), List.getElem?_append_left hk]

theorem takeWhile_prefix (b : Bytes) : b.takeWhile (· ≠ 0) ++ [0] <+: b ++ [0] := by
  induction b with
  | nil => exact List.prefix_rfl
  | cons x l ih =>
    by_cases hx : x = 0
    · subst hx
      simp
    · rw [List.takeWhile_cons_of_pos (by simpa using hx), List.cons_append, List.cons_append]
      exact List.prefix_cons_inj x |>.2 ih

theorem maths_eq (r : ℕ → R) : maths G r =
    enc (((1 + (leVal (RngCore.fill (r 0) 64).1 : F) * 4155551234) * leVal (RngCore.fill (r 1) 64).1) • basepoint G) := by
  have h : ∀ x : R, (Scalar.random x).1.val = leVal (RngCore.fill x 64).1 := fun x => Scalar.val_ofF _
  rw [maths, Scalar.smul_def, Scalar.smul_def, smul_smul, Scalar.val_add, Scalar.val_mul, Scalar.val_one, Scalar.val_ofF,
    h, h]

theorem maths_length (r : ℕ → R) : (maths G r).length = 32 := enc_length _

theorem small (hb : 32 ≤ bits) : 33 < 2 ^ bits := lt_of_lt_of_le (by norm_num) (Nat.pow_le_pow_right (n := 2) (by norm_num) hb)

/-- The addresses in use. -/
def used (bits : ℕ) (m : Mem) : Finset ℕ := (Finset.Ico 1 (2 ^ bits)).filter fun a => m a ≠ none

theorem used_write {m : Mem} {p : ℕ} {b : Bytes} (h0 : p ≠ 0) (h1 : p + b.length ≤ 2 ^ bits)
    (h2 : ∀ a, p ≤ a → a < p + b.length → m a = none) :
    (used bits (m.write p b)).card = (used bits m).card + b.length := by
  have e : used bits (m.write p b) = used bits m ∪ Finset.Ico p (p + b.length) := by
    ext a
    rw [used, used, Finset.mem_union, Finset.mem_filter, Finset.mem_filter, Finset.mem_Ico, Finset.mem_Ico, Mem.write]
    by_cases ha : p ≤ a ∧ a < p + b.length
    · rw [if_pos ha, List.getElem?_eq_getElem (by omega)]
      simp only [ne_eq, reduceCtorEq, not_false_eq_true, and_true, ha, and_self, or_true, iff_true]
      omega
    · rw [if_neg ha]
      simp only [ha, or_false]
  rw [e, Finset.card_union_of_disjoint, Nat.card_Ico, Nat.add_sub_cancel_left]
  rw [Finset.disjoint_left]
  intro a h3 h4
  rw [Finset.mem_Ico] at h4
  exact (Finset.mem_filter.1 h3).2 (h2 a h4.1 h4.2)

theorem doThings_some (A : Malloc bits) (hb : 32 ≤ bits) (m : Mem) (r : ℕ → R) {p : ℕ} (hp : A.address m 33 = some p) :
    doThings G A m r = .returns (maths G r, m.write p (maths G r ++ [0])) := by
  have hl := maths_length (G := G) r
  have h0 := (A.fresh m _ p hp).1
  have h1 : (m.write p (maths G r ++ [0])).read p 32 = some (maths G r) :=
    read_eq_some.2 ⟨hl, at_prefix (at_write _ _ _) (List.prefix_append _ _)⟩
  rw [doThings, doThingsWithMaths, alloc_some A m _ (by rw [hl]; exact small hb) (by rw [hl]; exact hp), Ends.andThen]
  simp only [if_neg h0, dataInit, h1, Ends.andThen]

theorem doThings_none (A : Malloc bits) (hb : 32 ≤ bits) (m : Mem) (r : ℕ → R) (hp : A.address m 33 = none) :
    doThings G A m r = .crashes := by
  have hl := maths_length (G := G) r
  have h1 : A.call m ((maths G r).length + 1) = none := by rw [Malloc.call, hl, hp]; rfl
  have h2 : ¬ 2 ^ bits ≤ (maths G r).length + 1 := by rw [hl]; exact not_le.2 (small hb)
  rw [doThings, doThingsWithMaths, allocateBufferForBytes]
  simp only [if_neg h2, h1, Ends.andThen, if_true]

theorem presses_cases (A : Malloc bits) (hb : 32 ≤ bits) (m : Mem) (r : ℕ → ℕ → R) (n : ℕ) :
    (∃ l m', presses G A m r n = .returns (l, m') ∧ (l = ((List.range n).map fun k => maths G (r k)).reverse ∧
      (used bits m').card = (used bits m).card + 33 * n)) ∨ presses G A m r n = .crashes := by
  induction n with
  | zero => exact .inl ⟨[], m, rfl, rfl, rfl⟩
  | succ n ih =>
    rcases ih with ⟨l, m', h1, h2, h3⟩ | h
    · cases hp : A.address m' 33 with
      | none =>
        refine .inr ?_
        rw [presses, h1, Ends.andThen]
        simp only [doThings_none A hb m' (r n) hp, Ends.andThen]
      | some p =>
        refine .inl ⟨maths G (r n) :: l, m'.write p (maths G (r n) ++ [0]), ?_, ?_, ?_⟩
        · rw [presses, h1, Ends.andThen]
          simp only [doThings_some A hb m' (r n) hp, Ends.andThen]
        · rw [h2, List.range_succ, List.map_append, List.reverse_append]
          rfl
        · have hl : (maths G (r n) ++ [0]).length = 33 := by rw [List.length_append, maths_length]; rfl
          obtain ⟨f1, f2, f3⟩ := A.fresh m' 33 p hp
          rw [used_write f1 (by rw [hl]; exact f2) (by rw [hl]; exact f3), h3, hl]
          ring
    · exact .inr (by rw [presses, h, Ends.andThen])

theorem used_le (bits : ℕ) (m : Mem) : (used bits m).card < 2 ^ bits := by
  have := Finset.card_le_card (Finset.filter_subset (fun a => m a ≠ none) (Finset.Ico 1 (2 ^ bits)))
  rw [Nat.card_Ico] at this
  exact lt_of_le_of_lt this (Nat.sub_lt (by positivity) one_pos)

end BuildTest

/-- **C99**: `allocate_buffer_for_bytes` never touches memory that it did not allocate and never panics. It returns null if
the size does not fit into `usize` or `malloc` returns null, and leaves the memory as it was. Otherwise the new block holds
the bytes and a zero, and the other memory is as it was. -/
theorem C99_allocate (A : Malloc bits) (m : Mem) (bytes : Bytes) :
    ∃ (p : ℕ) (m' : Mem), allocateBufferForBytes A m bytes = .returns (p, m') ∧
      (p = 0 ↔ 2 ^ bits ≤ bytes.length + 1 ∨ A.address m (bytes.length + 1) = none) ∧
      (p = 0 → m' = m) ∧
      (p ≠ 0 → A.address m (bytes.length + 1) = some p ∧ Spec.At m' p (bytes ++ [0]) ∧
        ∀ a, ¬ (p ≤ a ∧ a < p + (bytes.length + 1)) → m' a = m a) := by
  by_cases hs : 2 ^ bits ≤ bytes.length + 1
  · exact ⟨0, m, by rw [allocateBufferForBytes]; simp only [if_pos hs], by simp [hs], fun _ => rfl, fun h => absurd rfl h⟩
  · cases hp : A.address m (bytes.length + 1) with
    | none =>
      refine ⟨0, m, ?_, by simp, fun _ => rfl, fun h => absurd rfl h⟩
      have : A.call m (bytes.length + 1) = none := by rw [Malloc.call, hp]; rfl
      rw [allocateBufferForBytes]
      simp only [if_neg hs, this]
    | some p =>
      have h0 := (A.fresh m _ p hp).1
      refine ⟨p, _, alloc_some A m bytes (not_le.1 hs) hp, by simp [hs, h0], fun h => absurd h h0,
        fun _ => ⟨rfl, at_write _ _ _, fun a ha => ?_⟩⟩
      simp only [Mem.write, List.length_append, List.length_cons, List.length_nil]
      rw [if_neg (by omega)]

open Classical in
/-- An allocator with one block. -/
noncomputable def oneBlock : Malloc 32 where
  address m n := if 1 + n ≤ 2 ^ 32 ∧ ∀ a, 1 ≤ a → a < 1 + n → m a = none then some 1 else none
  junk _ _ := 7
  fresh m n p h := by
    split at h
    · cases h
      exact ⟨one_ne_zero, by assumption⟩
    · cases h

example : oneBlock.address (fun _ => none) 33 = some 1 := if_pos ⟨by norm_num, fun _ _ _ => rfl⟩

example : ∃ m', allocateBufferForBytes oneBlock (fun _ => none) [5, 0, 6] = .returns (1, m') :=
  ⟨_, alloc_some oneBlock _ _ (by decide) (if_pos ⟨by norm_num, fun _ _ _ => rfl⟩)⟩

/-- **C99**: in spite of the terminating zero the result is to be read with its length. As a C string it is cut at the first
zero byte, so that it is complete exactly if there is none among the bytes. -/
theorem C99_c_string {A : Malloc bits} {m m' : Mem} {bytes : Bytes} {p : ℕ}
    (h : allocateBufferForBytes A m bytes = .returns (p, m')) (hp : p ≠ 0) (s : Bytes) :
    (Spec.CString m' p s ↔ s = bytes.takeWhile (· ≠ 0)) ∧ (Spec.CString m' p bytes ↔ 0 ∉ bytes) := by
  obtain ⟨q, m₁, h1, -, -, h2⟩ := C99_allocate A m bytes
  rw [h] at h1
  cases h1
  obtain ⟨-, h3, -⟩ := h2 hp
  have h4 : Spec.CString m' p (bytes.takeWhile (· ≠ 0)) :=
    ⟨at_prefix h3 (takeWhile_prefix bytes), fun h => by simpa using List.mem_takeWhile_imp h⟩
  have h5 : ∀ s, Spec.CString m' p s ↔ s = bytes.takeWhile (· ≠ 0) := fun s => by
    constructor
    · intro h
      rcases le_total s.length (bytes.takeWhile (· ≠ 0)).length with hl | hl
      · exact c_string_unique h h4 hl
      · exact (c_string_unique h4 h hl).symm
    · rintro rfl
      exact h4
  refine ⟨h5 s, fun h => h.2, fun h => ⟨h3, h⟩⟩

example : ([5, 0, 6] : Bytes).takeWhile (· ≠ 0) = [5] := by decide

/-- **C99**: `doThings` returns the encoding of the point if `malloc` succeeds, and crashes otherwise. -/
theorem C99_things (A : Malloc bits) (hb : 32 ≤ bits) (m : Mem) (r : ℕ → R) :
    (∀ p, A.address m 33 = some p → ∃ m', doThings G A m r = .returns
      (enc (((1 + (leVal (RngCore.fill (r 0) 64).1 : F) * 4155551234) * leVal (RngCore.fill (r 1) 64).1) • basepoint G),
        m')) ∧
      (A.address m 33 = none → doThings G A m r = .crashes) := by
  constructor
  · intro p hp
    rw [doThings_some A hb m r hp, maths_eq]
    exact ⟨_, rfl⟩
  · exact doThings_none A hb m r

omit [Ristretto G] in
/-- **C99**: for every blinding but one, every point is the result of exactly one nonce. -/
theorem C99_uniform [Ristretto G] {b : F} (hb : b ≠ -1 / 4155551234) (P : G) :
    ∃! y : F, ((1 + b * 4155551234) * y) • basepoint G = P := by
  obtain ⟨s, rfl⟩ := Ristretto.gen P
  have h0 : (4155551234 : F) ≠ 0 := by decide +kernel
  have h1 : 1 + b * 4155551234 ≠ 0 := fun h => hb (by field_simp; linear_combination h)
  refine ⟨s / (1 + b * 4155551234), ?_, fun y hy => ?_⟩
  · dsimp only
    rw [mul_div_cancel₀ _ h1]
  · rw [eq_div_iff h1, mul_comm]
    exact (smul_right_inj' Ristretto.base_ne).1 hy

example : (3 : F) ≠ -1 / 4155551234 := by decide +kernel

/-- **C99**, refuted: that the button can be pressed any number of times. Nothing is ever released, so that whatever memory
there is and whatever is drawn, the application crashes in the end. -/
theorem C99_false (A : Malloc bits) (hb : 32 ≤ bits) (m : Mem) (r : ℕ → ℕ → R) :
    ∃ n, 33 * n < 2 ^ bits ∧ (∃ x, presses G A m r n = .returns x) ∧ ∀ n' > n, presses G A m r n' = .crashes := by
  have h1 : ∃ n, presses G A m r n = .crashes := by
    by_contra hc
    push Not at hc
    rcases presses_cases (G := G) A hb m r (2 ^ bits) with ⟨l, m', h, h'⟩ | h
    · have := used_le bits m'
      omega
    · exact hc _ h
  classical
  have h2 : Nat.find h1 ≠ 0 := fun h => by
    have := Nat.find_spec h1
    rw [h] at this
    cases this
  obtain ⟨n, hn⟩ := Nat.exists_eq_succ_of_ne_zero h2
  rcases presses_cases (G := G) A hb m r n with ⟨l, m', h, h'⟩ | h
  · refine ⟨n, by have := used_le bits m'; omega, ⟨_, h⟩, fun n' hn' => ?_⟩
    have h3 : presses G A m r (n + 1) = .crashes := by
      rw [← Nat.succ_eq_add_one, ← hn]
      exact Nat.find_spec h1
    induction n', hn' using Nat.le_induction with
    | base => exact h3
    | succ k _ ih => rw [presses, ih, Ends.andThen]
  · exact absurd h (Nat.find_min h1 (by omega))

/-- **C99**: until then every press gives the point computed from what it draws, and 33 more bytes are in use. -/
theorem C99_presses_partial (A : Malloc bits) (hb : 32 ≤ bits) (m : Mem) (r : ℕ → ℕ → R) (n : ℕ) {l : List Bytes} {m' : Mem}
    (h : presses G A m r n = .returns (l, m')) :
    l = ((List.range n).map fun k => (enc (((1 + (leVal (RngCore.fill (r k 0) 64).1 : F) * 4155551234) *
      leVal (RngCore.fill (r k 1) 64).1) • basepoint G) : Bytes)).reverse ∧
      ((Finset.Ico 1 (2 ^ bits)).filter fun a => m' a ≠ none).card =
        ((Finset.Ico 1 (2 ^ bits)).filter fun a => m a ≠ none).card + 33 * n := by
  rcases presses_cases (G := G) A hb m r n with ⟨l', m₁, h1, h2, h3⟩ | h1
  · rw [h] at h1
    cases h1
    simp only [maths_eq] at h2
    exact ⟨h2, h3⟩
  · rw [h] at h1
    cases h1

example (r : ℕ → ℕ → ToyRng) : ∃ x, presses F oneBlock (fun _ => none) r 1 = .returns x := by
  rw [presses, presses, Ends.andThen]
  simp only [doThings_some (G := F) oneBlock (by norm_num) (fun _ => none) (r 0)
    (if_pos ⟨by norm_num, fun _ _ _ => rfl⟩), Ends.andThen]
  exact ⟨_, rfl⟩

/-- **C99**: the text shown determines the bytes. -/
theorem C99_text (b b' : Bytes) (h : encoded b = encoded b') : b = b' := by
  have h1 : ∀ x y : UInt8, hexByte x = hexByte y → x = y := by
    intro x y h
    have h2 : ∀ i j : Fin 16, "0123456789ABCDEF".toList[(i : ℕ)]! = "0123456789ABCDEF".toList[(j : ℕ)]! → i = j := by
      decide +kernel
    simp only [hexByte, List.cons.injEq, and_true, true_and] at h
    have hx := x.toNat_lt
    have hy := y.toNat_lt
    have h3 := Fin.mk.inj (h2 ⟨x.toNat / 16, by omega⟩ ⟨y.toNat / 16, by omega⟩ h.1)
    have h4 := Fin.mk.inj (h2 ⟨x.toNat % 16, by omega⟩ ⟨y.toNat % 16, by omega⟩ h.2)
    exact UInt8.toNat_inj.1 (by omega)
  induction b generalizing b' with
  | nil =>
    cases b' with
    | nil => rfl
    | cons y l => simp [encoded, hexByte] at h
  | cons x l ih =>
    cases b' with
    | nil => simp [encoded, hexByte] at h
    | cons y l' =>
      simp only [encoded, List.map_cons, List.flatten_cons] at h
      obtain ⟨h2, h3⟩ := List.append_inj h rfl
      rw [h1 x y h2, ih l' h3]

example : encoded [0, 171] = "0x00 0xAB ".toList := by decide +kernel

end Verif
