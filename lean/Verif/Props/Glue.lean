import Verif.Model.Glue
import Verif.Props.Wasm

/-!
# C79, C80: the JavaScript glue
-/

set_option maxRecDepth 100000

namespace Verif

open Wasm Glue

/-! ## Specification vocabulary -/

/-- What handle `2 * i` stands for: the value and how often it has to be dropped. -/
def Spec.live (s : State) (i : ℕ) : Option (Val × ℕ) :=
  match s.slab[i]? with
  | some (.object obj cnt) => some (obj, cnt)
  | _ => none

/-- The number of entries in use. -/
def Spec.objects (s : State) : ℕ :=
  s.slab.countP fun x => match x with
    | .object _ _ => true
    | .free _ => false

/-- Following the free entries from `n` one meets exactly those of the list, and then the end of the
array. -/
def Spec.FreeList (slab : List Slot) : ℕ → List ℕ → Prop
  | n, [] => n = slab.length
  | n, i :: l => n = i ∧ ∃ m, slab[i]? = some (.free m) ∧ Spec.FreeList slab m l

/-- A healthy table: it starts with the four constants, and the list of free entries starting at
`slab_next` holds each free entry exactly once. -/
def Spec.Healthy (s : State) : Prop :=
  s.slab.take 4 = State.initial.slab ∧
    ∃ n l, s.slabNext = some n ∧ Spec.FreeList s.slab n l ∧ l.Nodup ∧
      ∀ i m, s.slab[i]? = some (.free m) → i ∈ l

/-- Nothing but the table differs. -/
def Spec.SameMemory (s t : State) : Prop :=
  t.blocks = s.blocks ∧ t.buffer = s.buffer ∧ t.cached = s.cached

/-- The call of the Rust function that a request asks for. `undefined` counts as `null` (Rust rejects
both). -/
def Spec.callOf : Request → Call
  | .systemParametersCreate s => .systemParametersCreate s
  | .issuerCreate p s => .issuerCreate (p.getD .null) s
  | .issuerGetIssuerParameters i => .issuerGetIssuerParameters (i.getD .null)
  | .issuerNew p k => .issuerNew (p.getD .null) (k.getD .null)
  | .issuerIssue i n s e => .issuerIssue (i.getD .null) n s e
  | .issuerVerify i p => .issuerVerify (i.getD .null) (p.getD .null)
  | .issuerVerifyRosterMembership i v => .issuerVerifyRosterMembership (i.getD .null) (v.getD .null)
  | .userObtainFinish n p ip i =>
    .userObtainFinish n (p.getD .null) (ip.getD .null) (i.getD .null)
  | .userShow u e s e1 e2 => .userShow (u.getD .null) (e.getD .null) s e1 e2

/-- The JavaScript values among the arguments of a request. -/
def Spec.values : Request → List Val
  | .systemParametersCreate _ => []
  | .issuerCreate p _ => [p]
  | .issuerGetIssuerParameters i => [i]
  | .issuerNew p k => [p, k]
  | .issuerIssue i _ _ _ => [i]
  | .issuerVerify i p => [i, p]
  | .issuerVerifyRosterMembership i v => [i, v]
  | .userObtainFinish _ p ip i => [p, ip, i]
  | .userShow u e _ _ _ => [u, e]

/-- The byte arrays among the arguments of a request. -/
def Spec.arrays : Request → List Bytes
  | .systemParametersCreate s => [s]
  | .issuerCreate _ s => [s]
  | .issuerIssue _ n s _ => [n, s]
  | .userObtainFinish n _ _ _ => [n]
  | .userShow _ _ s _ _ => [s]
  | _ => []

/-- An allocator that does not run out of memory. -/
def Spec.Unlimited (A : Alloc) : Prop := ∀ blocks n, A.malloc blocks n ≠ none

/-! ## Lemmas -/

namespace Glue

theorem live_some {s : State} {i : ℕ} {x : Val × ℕ} :
    Spec.live s i = some x ↔ s.slab[i]? = some (.object x.1 x.2) := by
  unfold Spec.live
  split
  · rename_i o c h
    simp only [h, Option.some.injEq, Slot.object.injEq]
    exact ⟨fun h => by subst h; exact ⟨rfl, rfl⟩, fun h => Prod.ext h.1 h.2⟩
  · rename_i h
    simp only [reduceCtorEq, false_iff]
    exact fun h' => h _ _ h'

theorem live_lt {s : State} {i : ℕ} {x : Val × ℕ} (h : Spec.live s i = some x) :
    i < s.slab.length := by
  rw [live_some] at h
  exact (List.getElem?_eq_some_iff.1 h).1

theorem freeList_congr {slab slab' : List Slot} (hl : slab.length = slab'.length) :
    ∀ (l : List ℕ) (n : ℕ), (∀ i ∈ l, slab[i]? = slab'[i]?) → Spec.FreeList slab n l →
      Spec.FreeList slab' n l
  | [], n, _, h => by simpa [Spec.FreeList, ← hl] using h
  | i :: l, n, hi, h => by
    obtain ⟨rfl, m, hm, h⟩ := h
    exact ⟨rfl, m, by rw [← hi n (by simp)]; exact hm,
      freeList_congr hl l m (fun j hj => hi j (by simp [hj])) h⟩

theorem freeList_free {slab : List Slot} :
    ∀ (l : List ℕ) (n : ℕ), Spec.FreeList slab n l → ∀ i ∈ l, ∃ m, slab[i]? = some (.free m)
  | [], _, _, _, hi => by simp at hi
  | j :: l, n, h, i, hi => by
    obtain ⟨rfl, m, hm, h⟩ := h
    rcases List.mem_cons.1 hi with rfl | hi
    · exact ⟨m, hm⟩
    · exact freeList_free l m h i hi

theorem const_live {s : State} (h : s.slab.take 4 = State.initial.slab) {i : ℕ} (hi : i < 4) :
    ∃ o c, s.slab[i]? = some (.object o c) := by
  have h1 : s.slab[i]? = (s.slab.take 4)[i]? := by
    rw [List.getElem?_take]; simp [hi]
  rw [h1, h]
  interval_cases i <;> exact ⟨_, _, rfl⟩

theorem length_ge {s : State} (h : s.slab.take 4 = State.initial.slab) : 4 ≤ s.slab.length := by
  have := congrArg List.length h
  simp only [List.length_take, State.initial, List.length_cons, List.length_nil] at this
  omega

theorem free_ge {s : State} (h : s.slab.take 4 = State.initial.slab) {i m : ℕ}
    (hi : s.slab[i]? = some (.free m)) : 4 ≤ i := by
  by_contra hlt
  obtain ⟨o, c, h'⟩ := const_live h (Nat.lt_of_not_le hlt)
  rw [hi] at h'
  simp at h'

theorem take_set {l : List Slot} {i : ℕ} (x : Slot) (hi : 4 ≤ i) : (l.set i x).take 4 = l.take 4 := by
  rw [List.take_set, List.set_eq_of_length_le]
  rw [List.length_take]
  omega

theorem shl1_eq {i : ℕ} (h : i < 2 ^ 30) : shl1 i = 2 * i := by
  unfold shl1
  omega

theorem shr1_eq {i : ℕ} (h : i < 2 ^ 30) : shr1 (2 * i) = some i := by
  unfold shr1
  rw [if_pos (by omega)]
  congr 1
  omega

theorem healthy_initial : Spec.Healthy State.initial := by
  refine ⟨rfl, 4, [], rfl, rfl, List.nodup_nil, ?_⟩
  intro i m hi
  exfalso
  match i, hi with
  | 0, hi => simp [State.initial] at hi
  | 1, hi => simp [State.initial] at hi
  | 2, hi => simp [State.initial] at hi
  | 3, hi => simp [State.initial] at hi
  | n + 4, hi => simp [State.initial] at hi

/-- An entry in use. -/
def inUse : Slot → Bool
  | .object _ _ => true
  | .free _ => false

theorem objects_eq (s : State) : Spec.objects s = s.slab.countP inUse := by
  unfold Spec.objects
  congr 1

theorem countP_set {l : List Slot} {i : ℕ} {y : Slot} (x : Slot) (h : l[i]? = some y) :
    (l.set i x).countP inUse + (if inUse y then 1 else 0) =
      l.countP inUse + (if inUse x then 1 else 0) := by
  induction l generalizing i with
  | nil => simp at h
  | cons a l ih =>
    cases i with
    | zero =>
      simp only [List.getElem?_cons_zero, Option.some.injEq] at h
      subst h
      simp only [List.set_cons_zero, List.countP_cons]
      omega
    | succ i =>
      simp only [List.getElem?_cons_succ] at h
      simp only [List.set_cons_succ, List.countP_cons]
      have := ih h
      omega

end Glue

/-! ## C79: the table of handles -/

/-- **C79 (add)**: storing a value in a healthy table with room for another handle gives a handle that
stood for nothing, is not one of the four constants, and stands for the value from then on; the
other handles keep their meaning, the table stays healthy, and it grows only if all entries are in
use. -/
theorem C79_add (s : State) (h : Spec.Healthy s) (hn : s.slab.length < 2 ^ 30) (v : Val) :
    ∃ i s', addHeapObject v s = (.returns (2 * i), s') ∧ 4 ≤ i ∧ Spec.live s i = none ∧
      Spec.live s' = Function.update (Spec.live s) i (some (v, 1)) ∧ Spec.Healthy s' ∧
      Spec.SameMemory s s' ∧ Spec.objects s' = Spec.objects s + 1 ∧
      s'.slab.length = max s.slab.length (Spec.objects s + 1) := by
  obtain ⟨h4, n, l, hnext, hfree, hnd, hcov⟩ := h
  have hlen := length_ge h4
  cases l with
  | nil =>
    have hn' : n = s.slab.length := hfree
    subst hn'
    have hall : ∀ x ∈ s.slab, inUse x = true := by
      intro x hx
      obtain ⟨i, hi⟩ := List.mem_iff_getElem?.1 hx
      cases x with
      | object => rfl
      | free m => exact absurd (hcov i m hi) (by simp)
    have hcount : s.slab.countP inUse = s.slab.length := List.countP_eq_length.2 hall
    have hset : (s.slab ++ [Slot.free (s.slab.length + 1)]).set s.slab.length (.object v 1) =
        s.slab ++ [.object v 1] := by
      rw [List.set_append_right _ _ (le_refl _)]
      simp
    refine ⟨s.slab.length,
      { s with slab := s.slab ++ [.object v 1], slabNext := some (s.slab.length + 1) }, ?_, hlen, ?_, ?_, ?_, ⟨rfl, rfl, rfl⟩, ?_, ?_⟩
    · simp only [addHeapObject, hnext, if_true]
      rw [List.getElem?_append_right (le_refl _)]
      simp only [Nat.sub_self, List.getElem?_cons_zero, hset, shl1_eq hn]
    · simp [Spec.live]
    · funext j
      simp only [Spec.live, Function.update_apply]
      rcases Nat.lt_trichotomy j s.slab.length with hj | hj | hj
      · rw [List.getElem?_append_left hj, if_neg (by omega)]
      · subst hj; simp
      · rw [if_neg (by omega), List.getElem?_eq_none (by simp; omega),
          List.getElem?_eq_none (by omega)]
    · refine ⟨?_, s.slab.length + 1, [], rfl, by simp [Spec.FreeList], by simp, ?_⟩
      · show (s.slab ++ [_]).take 4 = _
        rw [List.take_append_of_le_length hlen, h4]
      · intro i m hi
        change (s.slab ++ [Slot.object v 1])[i]? = some (Slot.free m) at hi
        rcases Nat.lt_trichotomy i s.slab.length with hj | hj | hj
        · rw [List.getElem?_append_left hj] at hi
          exact hcov i m hi
        · subst hj; simp at hi
        · rw [List.getElem?_eq_none (by simp; omega)] at hi
          simp at hi
    · rw [objects_eq, objects_eq]
      simp [List.countP_append, inUse]
    · rw [objects_eq, hcount]
      simp
  | cons i l =>
    obtain ⟨rfl, m, hm, hfree⟩ := hfree
    have hi := (List.getElem?_eq_some_iff.1 hm).1
    have hi4 := free_ge h4 hm
    have hnd' := List.nodup_cons.1 hnd
    refine ⟨n, { s with slab := s.slab.set n (.object v 1), slabNext := some m }, ?_, hi4, ?_, ?_, ?_,
      ⟨rfl, rfl, rfl⟩, ?_, ?_⟩
    · simp only [addHeapObject, hnext, if_neg (Nat.ne_of_lt hi), hm]
      rw [shl1_eq (by omega)]
    · simp [Spec.live, hm]
    · funext j
      simp only [Spec.live, Function.update_apply]
      by_cases hj : j = n
      · subst hj; simp [hi]
      · rw [if_neg hj, List.getElem?_set_ne (Ne.symm hj)]
    · refine ⟨?_, m, l, rfl, ?_, hnd'.2, ?_⟩
      · show (s.slab.set n _).take 4 = _
        rw [take_set _ hi4, h4]
      · refine freeList_congr (by simp) l m (fun j hj => ?_) hfree
        rw [List.getElem?_set_ne]
        rintro rfl
        exact hnd'.1 hj
      · intro j k hj
        change (s.slab.set n _)[j]? = _ at hj
        by_cases hjn : j = n
        · subst hjn; simp [hi] at hj
        · rw [List.getElem?_set_ne (Ne.symm hjn)] at hj
          rcases List.mem_cons.1 (hcov j k hj) with h | h
          · exact absurd h hjn
          · exact h
    · rw [objects_eq, objects_eq]
      have := countP_set (.object v 1) hm
      simpa [inUse] using this
    · rw [objects_eq]
      show (s.slab.set n _).length = _
      rw [List.length_set]
      have h1 := countP_set (.object v 1) hm
      have h2 := List.countP_le_length (p := inUse) (l := s.slab.set n (.object v 1))
      rw [List.length_set] at h2
      simp only [inUse] at h1
      simp at h1
      omega

/-- The first value gets handle 8. -/
example : Spec.Healthy State.initial ∧ State.initial.slab.length < 2 ^ 30 ∧
    (addHeapObject (some (.num 7)) State.initial).1 = .returns 8 :=
  ⟨healthy_initial, by decide, rfl⟩

/-- **C79 (get)**: a handle gives the value it stands for. -/
theorem C79_get (s : State) (i : ℕ) (v : Val) (c : ℕ) (hn : i < 2 ^ 30)
    (h : Spec.live s i = some (v, c)) : getObject (2 * i) s = (.returns v, s) := by
  rw [live_some] at h
  have : ¬ 2 * i % 2 = 1 := by omega
  simp only [getObject, if_neg this, shr1_eq hn, Option.bind_some, h]

example : Spec.live State.initial 2 = some (some (.bool true), 1) ∧
    (getObject 4 State.initial).1 = .returns (some (.bool true)) := ⟨rfl, rfl⟩

/-- **C79 (drop)**: dropping a handle that is not one of the constants takes one from its count; if
that was the last one, then the handle stands for nothing and reads as `undefined`. The other handles
keep their meaning and the table stays healthy. -/
theorem C79_drop (s : State) (h : Spec.Healthy s) (i : ℕ) (v : Val) (c : ℕ) (hn : i < 2 ^ 30)
    (h4 : 4 ≤ i) (hv : Spec.live s i = some (v, c)) :
    ∃ s', dropRef (2 * i) s = (.returns (), s') ∧
      Spec.live s' = Function.update (Spec.live s) i (if c ≤ 1 then none else some (v, c - 1)) ∧
      Spec.Healthy s' ∧ Spec.SameMemory s s' ∧ s'.slab.length = s.slab.length ∧
      Spec.objects s = Spec.objects s' + (if c ≤ 1 then 1 else 0) ∧
      (c ≤ 1 → getObject (2 * i) s' = (.returns none, s')) := by
  have hil := live_lt hv
  rw [live_some] at hv
  obtain ⟨hc, n, l, hnext, hfree, hnd, hcov⟩ := h
  by_cases hle : c ≤ 1
  · have hil' : i ∉ l := fun hi => by
      obtain ⟨m, hm⟩ := freeList_free l n hfree i hi
      rw [hv] at hm
      simp at hm
    refine ⟨{ s with slab := s.slab.set i (.free n), slabNext := some i }, ?_, ?_, ?_,
      ⟨rfl, rfl, rfl⟩, by simp, ?_, fun _ => ?_⟩
    · simp only [dropRef, shr1_eq hn, if_neg (Nat.not_lt.2 h4), hv, hnext]
      rw [if_neg (by omega)]
    · funext j
      simp only [Spec.live, Function.update_apply]
      by_cases hj : j = i
      · subst hj; simp [hil, hle]
      · rw [if_neg hj, List.getElem?_set_ne (Ne.symm hj)]
    · refine ⟨?_, i, i :: l, rfl, ⟨rfl, n, by simp [hil], ?_⟩, List.nodup_cons.2 ⟨hil', hnd⟩, ?_⟩
      · show (s.slab.set i _).take 4 = _
        rw [take_set _ h4, hc]
      · refine freeList_congr (by simp) l n (fun j hj => ?_) hfree
        rw [List.getElem?_set_ne]
        rintro rfl
        exact hil' hj
      · intro j k hj
        change (s.slab.set i _)[j]? = _ at hj
        by_cases hji : j = i
        · simp [hji]
        · rw [List.getElem?_set_ne (Ne.symm hji)] at hj
          exact List.mem_cons_of_mem _ (hcov j k hj)
    · rw [objects_eq, objects_eq, if_pos hle]
      have := countP_set (.free n) hv
      simp only [inUse] at this
      simpa using this.symm
    · have : ¬ 2 * i % 2 = 1 := by omega
      simp only [getObject, if_neg this, shr1_eq hn, Option.bind_some]
      simp [hil]
  · refine ⟨{ s with slab := s.slab.set i (.object v (c - 1)) }, ?_, ?_, ?_, ⟨rfl, rfl, rfl⟩,
      by simp, ?_, fun h => absurd h hle⟩
    · simp only [dropRef, shr1_eq hn, if_neg (Nat.not_lt.2 h4), hv]
      rw [if_pos (by omega)]
    · funext j
      simp only [Spec.live, Function.update_apply]
      by_cases hj : j = i
      · subst hj; simp [hil, hle]
      · rw [if_neg hj, List.getElem?_set_ne (Ne.symm hj)]
    · have hne : ∀ j k, s.slab[j]? = some (.free k) → j ≠ i := by
        rintro j k hj rfl
        rw [hv] at hj
        simp at hj
      refine ⟨?_, n, l, hnext, ?_, hnd, ?_⟩
      · show (s.slab.set i _).take 4 = _
        rw [take_set _ h4, hc]
      · refine freeList_congr (by simp) l n (fun j hj => ?_) hfree
        obtain ⟨m, hm⟩ := freeList_free l n hfree j hj
        rw [List.getElem?_set_ne (Ne.symm (hne j m hm))]
      · intro j k hj
        change (s.slab.set i _)[j]? = _ at hj
        by_cases hji : j = i
        · subst hji; simp [hil] at hj
        · rw [List.getElem?_set_ne (Ne.symm hji)] at hj
          exact hcov j k hj
    · rw [objects_eq, objects_eq, if_neg hle]
      have := countP_set (.object v (c - 1)) hv
      simp only [inUse] at this
      simpa using this.symm

/-- A value was stored in the initial state. -/
example : ∃ s, Spec.Healthy s ∧ Spec.live s 4 = some (some (.num 7), 1) := by
  obtain ⟨i, s, e, -, -, h, hs, -⟩ := C79_add State.initial healthy_initial (by decide) (some (.num 7))
  have hi : 2 * i = 8 := by
    have : (addHeapObject (some (.num 7)) State.initial).1 = .returns 8 := rfl
    rw [e] at this
    simpa using this
  obtain rfl : i = 4 := by omega
  exact ⟨s, hs, by rw [h]; simp⟩

/-- **C79 (constants)**: the handles 0 to 7 cannot be dropped. -/
theorem C79_constants (s : State) (idx : ℕ) (h : idx < 8) : dropRef idx s = (.returns (), s) := by
  have h1 : shr1 idx = some (idx / 2) := by unfold shr1; rw [if_pos (by omega)]
  simp only [dropRef, h1]
  rw [if_pos (by omega)]

example : dropRef 6 State.initial = (.returns (), State.initial) := C79_constants _ 6 (by decide)

/-- **C79 (limit)**: the bound on the number of entries is needed. In a table whose entries are all in use, the value that
follows `2³⁰` to `2³¹ - 1` others gets a handle that is negative for JavaScript: reading it throws an exception, and
dropping it does nothing, so that the entry is never free again. -/
theorem C79_limit (s : State) (hnext : s.slabNext = some s.slab.length) (hn : 2 ^ 30 ≤ s.slab.length)
    (hn' : s.slab.length < 2 ^ 31) (v : Val) :
    let s' : State := { s with slab := s.slab ++ [.object v 1], slabNext := some (s.slab.length + 1) }
    addHeapObject v s = (.returns (2 * s.slab.length), s') ∧ Spec.live s' s.slab.length = some (v, 1) ∧
      getObject (2 * s.slab.length) s' = (.throws, s') ∧ dropRef (2 * s.slab.length) s' = (.returns (), s') := by
  have hset : (s.slab ++ [Slot.free (s.slab.length + 1)]).set s.slab.length (.object v 1) =
      s.slab ++ [.object v 1] := by
    rw [List.set_append_right _ _ (le_refl _)]
    simp
  have hl : shl1 s.slab.length = 2 * s.slab.length := by
    unfold shl1
    omega
  have hr : shr1 (2 * s.slab.length) = none := by
    unfold shr1
    rw [if_neg (by omega)]
  have hmod : ¬ 2 * s.slab.length % 2 = 1 := by omega
  refine ⟨?_, ?_, ?_, ?_⟩
  · simp only [addHeapObject, hnext, if_true]
    rw [List.getElem?_append_right (le_refl _)]
    simp only [Nat.sub_self, List.getElem?_cons_zero, hset, hl]
  · simp [Spec.live]
  · simp only [getObject, if_neg hmod, hr, Option.bind_none]
  · simp only [dropRef, hr]

/-- Such a table, which is healthy. -/
example : ∃ s : State, Spec.Healthy s ∧ s.slabNext = some s.slab.length ∧ s.slab.length = 2 ^ 30 := by
  obtain ⟨k, hk⟩ : ∃ k, 4 + k = 2 ^ 30 := ⟨2 ^ 30 - 4, by norm_num⟩
  rw [← hk]
  clear hk
  have hlen : (State.initial.slab ++ List.replicate k (Slot.object none 1)).length = 4 + k := by
    rw [List.length_append, List.length_replicate]
    rfl
  refine ⟨{ State.initial with
    slab := State.initial.slab ++ List.replicate k (.object none 1), slabNext := some (4 + k) },
    ⟨rfl, 4 + k, [], rfl, hlen.symm, List.nodup_nil, ?_⟩, ?_, hlen⟩
  · intro i m hi
    exfalso
    have := List.mem_of_getElem? hi
    simp [State.initial] at this
  · exact congrArg some hlen.symm

/-- **C79 (fails)**: the table is not protected against dropping a handle twice. After that, the next
two values get the same handle, which then stands for the second one, and the third gets handle 0,
which reads as `undefined`. -/
theorem C79_double_drop (s : State) (h : Spec.Healthy s) (i : ℕ) (v : Val) (hn : i < 2 ^ 30)
    (h4 : 4 ≤ i) (hv : Spec.live s i = some (v, 1)) (a b c : Val) :
    ∃ s', (do dropRef (2 * i)
              dropRef (2 * i)
              let x ← addHeapObject a
              let y ← addHeapObject b
              let z ← addHeapObject c
              let u ← getObject x
              let w ← getObject z
              pure (x, y, z, u, w) : M (ℕ × ℕ × ℕ × Val × Val)) s =
        (.returns (2 * i, 2 * i, 0, b, none), s') := by
  have hil := live_lt hv
  rw [live_some] at hv
  obtain ⟨hc, n, l, hnext, hfree, hnd, hcov⟩ := h
  have hne : i ≠ s.slab.length := Nat.ne_of_lt hil
  have hmod : ¬ 2 * i % 2 = 1 := by omega
  have h0 : s.slab[0]? = some (.object none 1) := by
    have h1 : s.slab[0]? = (s.slab.take 4)[0]? := by rw [List.getElem?_take]; simp
    rw [h1, hc]
    rfl
  have hi0 : i ≠ 0 := by omega
  refine ⟨{ s with slab := s.slab.set i (.object b 1), slabNext := none }, ?_⟩
  simp only [bind, pure, dropRef, shr1_eq hn, if_neg (Nat.not_lt.2 h4), hv, hnext, Nat.sub_self,
    lt_irrefl, if_false, addHeapObject, getObject, List.length_set, if_neg hne,
    List.getElem?_set_self, hil, List.set_set, shl1_eq hn, if_neg hmod, Option.bind_some]
  rw [show shr1 0 = some 0 from rfl]
  simp only [Option.bind_some, List.getElem?_set_ne hi0, h0]
  rfl

/-- After a value was stored in the initial state. -/
example : ∃ s, Spec.Healthy s ∧ Spec.live s 4 = some (some (.num 7), 1) ∧ 4 < 2 ^ 30 := by
  obtain ⟨i, s, e, -, -, h, hs, -⟩ := C79_add State.initial healthy_initial (by decide) (some (.num 7))
  have hi : 2 * i = 8 := by
    have : (addHeapObject (some (.num 7)) State.initial).1 = .returns 8 := rfl
    rw [e] at this
    simpa using this
  obtain rfl : i = 4 := by omega
  exact ⟨s, hs, by rw [h]; simp, by norm_num⟩

/-! ## C80: the exported functions -/

namespace Glue

instance : LawfulMonad M := LawfulMonad.mk'
  (id_map := fun x => by
    funext s
    simp only [Functor.map]
    rcases x s with ⟨_ | _ | _, s'⟩ <;> rfl)
  (pure_bind := fun _ _ => rfl)
  (bind_assoc := fun x f g => by
    funext s
    simp only [bind]
    rcases x s with ⟨_ | _ | _, s'⟩ <;> rfl)

/-- All byte arrays are passed. -/
def passAll (A : Alloc) : List Bytes → M (List (ℕ × ℕ))
  | [] => pure []
  | b :: bs => do
    let x ← passArray8ToWasm A b
    let xs ← passAll A bs
    pure (x :: xs)

/-- All blocks are freed. -/
def freeAll : List (ℕ × ℕ) → M Unit
  | [] => pure ()
  | x :: xs => do
    free x.1 x.2
    freeAll xs

/-- All values are stored. -/
def addAll : List Val → M (List ℕ)
  | [] => pure []
  | v :: vs => do
    let i ← addHeapObject v
    let is ← addAll vs
    pure (i :: is)

/-- The common part of the exported functions inside `try`. -/
def body (run : Call → Outcome) (vs : List Val) (call : List ℕ → M Call) : M Val := do
  let is ← addAll vs
  let ret ← rust run (call is) is
  takeObject ret

/-- The common form of the exported functions. -/
def common (A : Alloc) (run : Call → Outcome) (bs : List Bytes) (vs : List Val)
    (call : List (ℕ × ℕ) → List ℕ → M Call) : M Val := do
  let ps ← passAll A bs
  tryFinally (body run vs (call ps)) (freeAll ps)

theorem tryFinally_pure {α : Type} (m : M α) : tryFinally m (pure ()) = m := by
  funext s
  simp only [tryFinally, pure]
  rcases m s with ⟨_ | _ | _, s'⟩ <;> rfl

/-- How the Rust functions read their arguments. -/
def reads : Request → List (ℕ × ℕ) → List ℕ → M Call
  | .systemParametersCreate _, [p], [] => do
    let s ← readSlice p.1 p.2
    pure (.systemParametersCreate s)
  | .issuerCreate _ _, [p], [i] => do
    let a ← readValue i
    let s ← readSlice p.1 p.2
    pure (.issuerCreate a s)
  | .issuerGetIssuerParameters _, [], [i] => do
    let a ← readValue i
    pure (.issuerGetIssuerParameters a)
  | .issuerNew _ _, [], [i, j] => do
    let a ← readValue i
    let b ← readValue j
    pure (.issuerNew a b)
  | .issuerIssue _ _ _ e, [p, q], [i] => do
    let a ← readValue i
    let n ← readSlice p.1 p.2
    let s ← readSlice q.1 q.2
    pure (.issuerIssue a n s e)
  | .issuerVerify _ _, [], [i, j] => do
    let a ← readValue i
    let b ← readValue j
    pure (.issuerVerify a b)
  | .issuerVerifyRosterMembership _ _, [], [i, j] => do
    let a ← readValue i
    let b ← readValue j
    pure (.issuerVerifyRosterMembership a b)
  | .userObtainFinish _ _ _ _, [p], [i, j, k] => do
    let n ← readSlice p.1 p.2
    let a ← readValue i
    let b ← readValue j
    let c ← readValue k
    pure (.userObtainFinish n a b c)
  | .userShow _ _ _ e1 e2, [p], [i, j] => do
    let a ← readValue i
    let b ← readValue j
    let s ← readSlice p.1 p.2
    pure (.userShow a b s e1 e2)
  | _, _, _ => throw

theorem invoke_eq (A : Alloc) (run : Call → Outcome) (r : Request) :
    r.invoke A run = common A run (Spec.arrays r) (Spec.values r) (reads r) := by
  cases r <;>
  simp only [Request.invoke, common, Spec.arrays, Spec.values, passAll, freeAll, body, addAll, reads,
    bind_assoc, pure_bind, tryFinally_pure, systemParametersCreate, issuerCreate,
    issuerGetIssuerParameters, issuerNew, issuerIssue, issuerVerify, issuerVerifyRosterMembership,
    userObtainFinish, userShow, bind_pure_unit]

/-- Handles that stand for the values of a list, none of which meant anything in `s`. -/
structure Holds (s s' : State) (is : List ℕ) (vs : List Val) : Prop where
  each : List.Forall₂ (fun i v => Spec.live s' i = some (v, 1)) is vs
  fresh : ∀ i ∈ is, 4 ≤ i ∧ Spec.live s i = none
  nodup : is.Nodup
  other : ∀ j, j ∉ is → Spec.live s' j = Spec.live s j
  healthy : Spec.Healthy s'
  memory : Spec.SameMemory s s'
  objects : Spec.objects s' = Spec.objects s + vs.length
  length : s'.slab.length = max s.slab.length (Spec.objects s + vs.length)

theorem objects_le (s : State) : Spec.objects s ≤ s.slab.length := by
  rw [objects_eq]
  exact List.countP_le_length

theorem SameMemory.trans {s t u : State} (h : Spec.SameMemory s t) (h' : Spec.SameMemory t u) :
    Spec.SameMemory s u :=
  ⟨h'.1.trans h.1, h'.2.1.trans h.2.1, h'.2.2.trans h.2.2⟩

theorem addAll_spec (vs : List Val) (s : State) (h : Spec.Healthy s)
    (hn : s.slab.length + vs.length ≤ 2 ^ 30) :
    ∃ is s', addAll vs s = (.returns (is.map (2 * ·)), s') ∧ Holds s s' is vs := by
  induction vs generalizing s with
  | nil =>
    exact ⟨[], s, rfl, .nil, by simp, List.nodup_nil, fun _ _ => rfl, h, ⟨rfl, rfl, rfl⟩, rfl,
      (max_eq_left (objects_le s)).symm⟩
  | cons v vs ih =>
    simp only [List.length_cons] at hn
    obtain ⟨i, s1, e1, hi4, hi0, hl1, hh1, hm1, ho1, hlen1⟩ := C79_add s h (by omega) v
    have hle := objects_le s
    obtain ⟨is, s2, e2, H⟩ := ih s1 hh1 (by rw [hlen1]; omega)
    have hi1 : Spec.live s1 i = some (v, 1) := by rw [hl1]; simp
    have hni : i ∉ is := fun hi => by
      have h' := (H.fresh i hi).2
      rw [hi1] at h'
      simp at h'
    refine ⟨i :: is, s2, ?_, ?_, ?_, List.nodup_cons.2 ⟨hni, H.nodup⟩, ?_, H.healthy,
      SameMemory.trans hm1 H.memory, ?_, ?_⟩
    · simp only [addAll, bind, e1, e2, pure, List.map_cons]
    · exact .cons (by rw [H.other i hni, hi1]) H.each
    · intro j hj
      rcases List.mem_cons.1 hj with rfl | hj
      · exact ⟨hi4, hi0⟩
      · have hji : j ≠ i := fun h => hni (h ▸ hj)
        refine ⟨(H.fresh j hj).1, ?_⟩
        rw [← (H.fresh j hj).2, hl1, Function.update_of_ne hji]
    · intro j hj
      simp only [List.mem_cons, not_or] at hj
      rw [H.other j hj.2, hl1, Function.update_of_ne hj.1]
    · rw [H.objects, ho1, List.length_cons]; omega
    · rw [H.length, hlen1, ho1, List.length_cons]; omega

theorem dropAll_spec (is : List ℕ) (s : State) (h : Spec.Healthy s) (hnd : is.Nodup)
    (hn : s.slab.length ≤ 2 ^ 30) (hi : ∀ i ∈ is, 4 ≤ i ∧ ∃ v, Spec.live s i = some (v, 1)) :
    ∃ s', dropAll (is.map (2 * ·)) s = (.returns (), s') ∧
      (∀ j, Spec.live s' j = if j ∈ is then none else Spec.live s j) ∧ Spec.Healthy s' ∧
      Spec.SameMemory s s' ∧ s'.slab.length = s.slab.length ∧
      Spec.objects s = Spec.objects s' + is.length := by
  induction is generalizing s with
  | nil => exact ⟨s, rfl, fun _ => rfl, h, ⟨rfl, rfl, rfl⟩, rfl, rfl⟩
  | cons i is ih =>
    obtain ⟨hni, hnd⟩ := List.nodup_cons.1 hnd
    obtain ⟨h4, v, hv⟩ := hi i (by simp)
    have hlt := live_lt hv
    obtain ⟨s1, e1, hl1, hh1, hm1, hlen1, ho1, -⟩ := C79_drop s h i v 1 (by omega) h4 hv
    simp only [le_refl, if_true] at hl1 ho1
    obtain ⟨s2, e2, hl2, hh2, hm2, hlen2, ho2⟩ := ih s1 hh1 hnd (by omega) (fun j hj => by
      have hji : j ≠ i := fun h => hni (h ▸ hj)
      rw [hl1, Function.update_of_ne hji]
      exact hi j (by simp [hj]))
    refine ⟨s2, ?_, fun j => ?_, hh2, SameMemory.trans hm1 hm2, by omega, ?_⟩
    · simp only [List.map_cons, dropAll, bind, e1, e2]
    · rw [hl2, hl1]
      by_cases hj : j ∈ is
      · simp [hj]
      · by_cases hji : j = i
        · subst hji; simp
        · simp [hj, hji]
    · rw [ho1, ho2, List.length_cons]; omega

theorem take_spec (s : State) (h : Spec.Healthy s) (i : ℕ) (v : Val) (hn : s.slab.length ≤ 2 ^ 30)
    (h4 : 4 ≤ i) (hv : Spec.live s i = some (v, 1)) :
    ∃ s', takeObject (2 * i) s = (.returns v, s') ∧
      Spec.live s' = Function.update (Spec.live s) i none ∧ Spec.Healthy s' ∧ Spec.SameMemory s s' ∧
      s'.slab.length = s.slab.length ∧ Spec.objects s = Spec.objects s' + 1 := by
  have hlt := live_lt hv
  obtain ⟨s1, e1, hl1, hh1, hm1, hlen1, ho1, -⟩ := C79_drop s h i v 1 (by omega) h4 hv
  simp only [le_refl, if_true] at hl1 ho1
  refine ⟨s1, ?_, hl1, hh1, hm1, hlen1, ho1⟩
  simp only [takeObject, bind, C79_get s i v 1 (by omega) hv, e1, pure]

theorem body_spec (run : Call → Outcome) (vs : List Val) (call : List ℕ → M Call) (c : Call) (s : State)
    (h : Spec.Healthy s) (hn : s.slab.length + vs.length < 2 ^ 30)
    (hcall : ∀ is s', Holds s s' is vs → s'.slab.length ≤ 2 ^ 30 →
      call (is.map (2 * ·)) s' = (.returns c, s')) :
    match run c with
    | .returns v => ∃ s', body run vs call s = (.returns (some v), s') ∧
        Spec.live s' = Spec.live s ∧ Spec.Healthy s' ∧ Spec.SameMemory s s' ∧
        Spec.objects s' = Spec.objects s ∧
        s'.slab.length = max s.slab.length (Spec.objects s + vs.length + 1)
    | .panics => ∃ is s', body run vs call s = (.throws, s') ∧ Holds s s' is vs
    | .hangs => ∃ s', body run vs call s = (.hangs, s') := by
  obtain ⟨is, s1, e1, H⟩ := addAll_spec vs s h (by omega)
  have hle := objects_le s
  have hn1 : s1.slab.length < 2 ^ 30 := by rw [H.length]; omega
  have e2 := hcall is s1 H (by omega)
  have hb : ∀ x, rust run (call (is.map (2 * ·))) (is.map (2 * ·)) s1 = x →
      body run vs call s = match x with
        | (.returns a, s') => takeObject a s'
        | (.throws, s') => (.throws, s')
        | (.hangs, s') => (.hangs, s') := by
    rintro x rfl
    simp only [body, bind, e1]
    rcases rust run (call (is.map (2 * ·))) (is.map (2 * ·)) s1 with ⟨_ | _ | _, _⟩ <;> rfl
  cases hr : run c with
  | panics =>
    refine ⟨is, s1, ?_, H⟩
    rw [hb (.throws, s1) (by simp only [rust, bind, e2, hr, throw])]
  | hangs =>
    refine ⟨s1, ?_⟩
    rw [hb (.hangs, s1) (by simp only [rust, bind, e2, hr, hang])]
  | returns v =>
    obtain ⟨i, s2, e3, hi4, hi0, hl2, hh2, hm2, ho2, hlen2⟩ := C79_add s1 H.healthy hn1 (some v)
    have hlive : ∀ j ∈ is, ∃ v, Spec.live s1 j = some (v, 1) := by
      intro j hj
      obtain ⟨k, hk, rfl⟩ := List.mem_iff_getElem.1 hj
      have := (List.forall₂_iff_get.1 H.each).2 k hk (H.each.length_eq ▸ hk)
      exact ⟨_, this⟩
    have hni : i ∉ is := fun hi => by
      obtain ⟨w, hw⟩ := hlive i hi
      rw [hi0] at hw
      simp at hw
    obtain ⟨s3, e4, hl3, hh3, hm3, hlen3, ho3⟩ := dropAll_spec is.reverse s2 hh2
      (List.nodup_reverse.2 H.nodup) (by rw [hlen2, H.length]; have := objects_le s1; rw [H.objects] at *; omega)
      (fun j hj => by
        have hj' : j ∈ is := List.mem_reverse.1 hj
        have hji : j ≠ i := fun h => hni (h ▸ hj')
        rw [hl2, Function.update_of_ne hji]
        exact ⟨(H.fresh j hj').1, hlive j hj'⟩)
    have hi3 : Spec.live s3 i = some (some v, 1) := by
      rw [hl3, if_neg (by simpa using hni), hl2]; simp
    obtain ⟨s4, e5, hl4, hh4, hm4, hlen4, ho4⟩ := take_spec s3 hh3 i (some v)
      (by rw [hlen3, hlen2, H.length]; have := objects_le s1; rw [H.objects] at *; omega) hi4 hi3
    refine ⟨s4, ?_, ?_, hh4, ?_, ?_, ?_⟩
    · rw [hb (.returns (2 * i), s3) ?_]
      · exact e5
      · simp only [rust, bind, e2, hr, e3, ← List.map_reverse, e4, pure]
    · funext j
      rw [hl4]
      by_cases hji : j = i
      · subst hji
        rw [Function.update_self, ← H.other j hni, hi0]
      · rw [Function.update_of_ne hji, hl3, hl2, Function.update_of_ne hji]
        by_cases hj : j ∈ is
        · rw [if_pos (List.mem_reverse.2 hj), (H.fresh j hj).2]
        · rw [if_neg (by simpa using hj), H.other j hj]
    · exact SameMemory.trans H.memory (SameMemory.trans hm2 (SameMemory.trans hm3 hm4))
    · have := H.objects
      have h5 := H.each.length_eq
      simp only [List.length_reverse] at ho3
      omega
    · rw [hlen4, hlen3, hlen2, H.length, H.objects]
      omega

/-- What a byte array adds to the blocks. -/
def block (p : ℕ) (b : Bytes) : List (ℕ × Bytes) := if b = [] then [] else [(p, b)]

theorem pass_spec (A : Alloc) (b : Bytes) (s : State) (hA : A.malloc s.blocks b.length ≠ none) :
    ∃ p s', passArray8ToWasm A b s = (.returns (p, b.length), s') ∧ s'.slab = s.slab ∧
      s'.slabNext = s.slabNext ∧ s'.blocks = block p b ++ s.blocks ∧
      (b ≠ [] → ∀ x ∈ s.blocks, x.1 ≠ p) := by
  have hview : ∀ t : State, ∃ t' : State, getUint8Memory t = (.returns t.buffer, t') ∧
      t'.slab = t.slab ∧ t'.slabNext = t.slabNext ∧ t'.blocks = t.blocks ∧ t'.buffer = t.buffer := by
    intro t
    by_cases hc : t.cached = none ∨ t.cached ≠ some t.buffer
    · exact ⟨{ t with cached := some t.buffer }, by simp only [getUint8Memory, if_pos hc], rfl, rfl,
        rfl, rfl⟩
    · refine ⟨t, ?_, rfl, rfl, rfl, rfl⟩
      simp only [not_or, not_not] at hc
      simp [getUint8Memory, hc.2]
  by_cases hb : b = []
  · subst hb
    obtain ⟨t, ht, h1, h2, h3, h4⟩ := hview s
    refine ⟨4, t, ?_, h1, h2, by simp [block, h3], fun h => absurd rfl h⟩
    have hmap : (t.blocks.map fun b : ℕ × Bytes =>
        if b.1 = 4 then (4, ([] : Bytes) ++ b.2.drop 0) else b) = t.blocks := by
      conv_rhs => rw [← List.map_id t.blocks]
      refine List.map_congr_left fun x _ => ?_
      split
      · rename_i hx; simp [← hx]
      · rfl
    simp only [passArray8ToWasm, bind, malloc, List.length_nil, if_true, ht, setMemory, h4, ne_eq,
      not_true_eq_false, if_false, pure, hmap]
    rw [← h4]
  · have hlen : b.length ≠ 0 := by simpa using hb
    cases hm : A.malloc s.blocks b.length with
    | none => exact absurd hm hA
    | some x =>
      obtain ⟨p, g⟩ := x
      have hf := A.fresh _ _ _ _ hm
      obtain ⟨t, ht, h1, h2, h3, h4⟩ := hview { s with
        blocks := (p, List.replicate b.length 0) :: s.blocks
        buffer := if g then s.buffer + 1 else s.buffer }
      refine ⟨p, { t with blocks := (p, b) :: s.blocks }, ?_, h1, h2, by simp [block, hb],
        fun _ => hf⟩
      have hmap : (((p, List.replicate b.length 0) :: s.blocks).map fun x : ℕ × Bytes =>
          if x.1 = p then (p, b ++ x.2.drop b.length) else x) = (p, b) :: s.blocks := by
        rw [List.map_cons]
        congr 1
        · simp
        · conv_rhs => rw [← List.map_id s.blocks]
          refine List.map_congr_left fun x hx => ?_
          rw [if_neg (hf x hx)]
          rfl
      simp only at h3 h4
      simp only [passArray8ToWasm, bind, malloc, if_neg hlen, hm, ht, setMemory, h4, ne_eq,
        not_true_eq_false, if_false, pure, h3, hmap]

/-- The blocks that hold byte arrays. -/
def held : List ℕ → List Bytes → List (ℕ × Bytes)
  | p :: ps, b :: bs => block p b ++ held ps bs
  | _, _ => []

theorem find_skip {N B : List (ℕ × Bytes)} {p : ℕ} (h : ∀ x ∈ N, x.1 ≠ p) :
    (N ++ B).find? (fun b => b.1 = p) = B.find? (fun b => b.1 = p) := by
  rw [List.find?_append, List.find?_eq_none.2 (by simpa using h), Option.none_or]

theorem passAll_spec (A : Alloc) (hA : Spec.Unlimited A) (bs : List Bytes) (s : State) :
    ∃ ps s', passAll A bs s = (.returns (List.zip ps (bs.map List.length)), s') ∧
      s'.slab = s.slab ∧ s'.slabNext = s.slabNext ∧
      s'.blocks = (held ps bs).reverse ++ s.blocks ∧
      (∀ x ∈ held ps bs, ∀ y ∈ s.blocks, y.1 ≠ x.1) ∧ ((held ps bs).map Prod.fst).Nodup ∧
      List.Forall₂ (fun p b => ∀ t : State, t.blocks = s'.blocks →
        readSlice p b.length t = (.returns b, t)) ps bs := by
  induction bs generalizing s with
  | nil => exact ⟨[], s, rfl, rfl, rfl, rfl, by simp [held], by simp [held], .nil⟩
  | cons b bs ih =>
    obtain ⟨p, s1, e1, h1, h2, h3, h4⟩ := pass_spec A b s (hA _ _)
    obtain ⟨ps, s2, e2, g1, g2, g3, g4, g5, g6⟩ := ih s1
    refine ⟨p :: ps, s2, ?_, g1.trans h1, g2.trans h2, ?_, ?_, ?_, .cons ?_ g6⟩
    · simp only [passAll, bind, e1, e2, pure, List.map_cons, List.zip_cons_cons]
    · rw [g3, h3]
      simp only [held, List.reverse_append, List.append_assoc]
      congr 1
      unfold block
      split <;> simp
    · intro x hx y hy
      rcases List.mem_append.1 hx with hx | hx
      · unfold block at hx
        split at hx
        · simp at hx
        · rename_i hb
          simp only [List.mem_singleton] at hx
          subst hx
          exact h4 hb y hy
      · exact g4 x hx y (by rw [h3]; exact List.mem_append_right _ hy)
    · simp only [held, List.map_append]
      unfold block at h3 ⊢
      split at h3
      · simp [*]
      · rename_i hb
        simp only [if_neg hb, List.map_cons, List.map_nil, List.singleton_append, List.nodup_cons]
        refine ⟨fun hp => ?_, g5⟩
        obtain ⟨x, hx, hxp⟩ := List.mem_map.1 hp
        exact g4 x hx (p, b) (by rw [h3]; simp) hxp.symm
    · intro t ht
      by_cases hb : b = []
      · subst hb; simp [readSlice]
      · have hlen : b.length ≠ 0 := by simpa using hb
        simp only [readSlice, if_neg hlen, ht, g3]
        rw [find_skip]
        · simp [h3, block, hb]
        · intro x hx
          exact (g4 x (List.mem_reverse.1 hx) (p, b) (by rw [h3]; simp [block, hb])).symm

theorem freeAll_spec (ps : List ℕ) (bs : List Bytes) (hl : ps.length = bs.length)
    (B : List (ℕ × Bytes)) (s : State) (hs : s.blocks = (held ps bs).reverse ++ B)
    (hnd : ((held ps bs).map Prod.fst).Nodup) :
    freeAll (List.zip ps (bs.map List.length)) s = (.returns (), { s with blocks := B }) := by
  induction ps generalizing bs s with
  | nil =>
    simp only [held, List.reverse_nil, List.nil_append] at hs
    simp [freeAll, pure, ← hs]
  | cons p ps ih =>
    cases bs with
    | nil => simp at hl
    | cons b bs =>
      simp only [List.length_cons, Nat.add_right_cancel_iff] at hl
      simp only [List.map_cons, List.zip_cons_cons, freeAll, bind]
      by_cases hb : b = []
      · subst hb
        simp only [held, block, if_true, List.nil_append] at hs hnd
        simp only [free, List.length_nil, if_true]
        exact ih bs hl s hs hnd
      · have hlen : b.length ≠ 0 := by simpa using hb
        simp only [held, block, if_neg hb, List.singleton_append, List.reverse_cons, List.append_assoc,
          List.map_cons, List.nodup_cons] at hs hnd
        have hne : ∀ x ∈ (held ps bs).reverse, x.1 ≠ p := by
          rintro x hx rfl
          exact hnd.1 (List.mem_map_of_mem (List.mem_reverse.1 hx))
        have hfind : s.blocks.find? (fun x => x.1 = p) = some (p, b) := by
          rw [hs, find_skip hne]; simp
        have herase : s.blocks.eraseP (fun x => x.1 = p) = (held ps bs).reverse ++ B := by
          rw [hs, List.eraseP_append_right _ (by simpa using hne)]
          simp
        simp only [free, if_neg hlen, hfind, if_true, herase]
        exact ih bs hl _ rfl hnd.2

/-- What the Rust functions read is what the caller passed. -/
theorem reads_spec (r : Request) (s s' : State) (ps : List ℕ) (is : List ℕ)
    (hp : List.Forall₂ (fun p b => readSlice p b.length s' = (.returns b, s')) ps (Spec.arrays r))
    (H : Holds s s' is (Spec.values r)) (hn : s'.slab.length ≤ 2 ^ 30) :
    reads r (List.zip ps ((Spec.arrays r).map List.length)) (is.map (2 * ·)) s' =
      (.returns (Spec.callOf r), s') := by
  have hread : ∀ i v, Spec.live s' i = some (v, 1) →
      readValue (2 * i) s' = (.returns (v.getD .null), s') := by
    intro i v hv
    have := live_lt hv
    simp only [readValue, bind, C79_get s' i v 1 (by omega) hv, pure]
  have he := H.each
  clear H
  cases r <;> simp only [Spec.arrays, Spec.values] at hp he ⊢
  · cases he
    obtain _ | ⟨h1, _ | _⟩ := hp
    simp [reads, Spec.callOf, bind, pure, h1]
  · obtain _ | ⟨k1, _ | _⟩ := he
    obtain _ | ⟨h1, _ | _⟩ := hp
    simp [reads, Spec.callOf, bind, pure, h1, hread _ _ k1]
  · obtain _ | ⟨k1, _ | _⟩ := he
    cases hp
    simp [reads, Spec.callOf, bind, pure, hread _ _ k1]
  · obtain _ | ⟨k1, _ | ⟨k2, _ | _⟩⟩ := he
    cases hp
    simp [reads, Spec.callOf, bind, pure, hread _ _ k1, hread _ _ k2]
  · obtain _ | ⟨k1, _ | _⟩ := he
    obtain _ | ⟨h1, _ | ⟨h2, _ | _⟩⟩ := hp
    simp [reads, Spec.callOf, bind, pure, h1, h2, hread _ _ k1]
  · obtain _ | ⟨k1, _ | ⟨k2, _ | _⟩⟩ := he
    cases hp
    simp [reads, Spec.callOf, bind, pure, hread _ _ k1, hread _ _ k2]
  · obtain _ | ⟨k1, _ | ⟨k2, _ | _⟩⟩ := he
    cases hp
    simp [reads, Spec.callOf, bind, pure, hread _ _ k1, hread _ _ k2]
  · obtain _ | ⟨k1, _ | ⟨k2, _ | ⟨k3, _ | _⟩⟩⟩ := he
    obtain _ | ⟨h1, _ | _⟩ := hp
    simp [reads, Spec.callOf, bind, pure, h1, hread _ _ k1, hread _ _ k2, hread _ _ k3]
  · obtain _ | ⟨k1, _ | ⟨k2, _ | _⟩⟩ := he
    obtain _ | ⟨h1, _ | _⟩ := hp
    simp [reads, Spec.callOf, bind, pure, h1, hread _ _ k1, hread _ _ k2]

theorem live_congr {s t : State} (h : t.slab = s.slab) : Spec.live t = Spec.live s := by
  funext i
  simp only [Spec.live, h]

theorem objects_congr {s t : State} (h : t.slab = s.slab) : Spec.objects t = Spec.objects s := by
  simp only [Spec.objects, h]

theorem healthy_congr {s t : State} (h : t.slab = s.slab) (h' : t.slabNext = s.slabNext)
    (hs : Spec.Healthy s) : Spec.Healthy t := by
  unfold Spec.Healthy
  rw [h, h']
  exact hs

theorem values_le (r : Request) : (Spec.values r).length ≤ 3 := by
  cases r <;> simp [Spec.values]

theorem invoke_spec (A : Alloc) (hA : Spec.Unlimited A) (run : Call → Outcome) (r : Request)
    (s : State) (h : Spec.Healthy s) (hn : s.slab.length + (Spec.values r).length < 2 ^ 30) :
    match run (Spec.callOf r) with
    | .returns v => ∃ s', r.invoke A run s = (.returns (some v), s') ∧ s'.blocks = s.blocks ∧
        Spec.live s' = Spec.live s ∧ Spec.Healthy s' ∧ Spec.objects s' = Spec.objects s ∧
        s'.slab.length = max s.slab.length (Spec.objects s + (Spec.values r).length + 1)
    | .panics => ∃ is s', r.invoke A run s = (.throws, s') ∧ s'.blocks = s.blocks ∧
        List.Forall₂ (fun i v => Spec.live s' i = some (v, 1)) is (Spec.values r) ∧ is.Nodup ∧
        (∀ i ∈ is, Spec.live s i = none) ∧ (∀ j, j ∉ is → Spec.live s' j = Spec.live s j) ∧
        Spec.Healthy s' ∧ Spec.objects s' = Spec.objects s + (Spec.values r).length ∧
        s'.slab.length = max s.slab.length (Spec.objects s + (Spec.values r).length)
    | .hangs => ∃ s', r.invoke A run s = (.hangs, s') := by
  rw [invoke_eq]
  obtain ⟨ps, s1, e1, h1, h2, h3, h4, h5, h6⟩ := passAll_spec A hA (Spec.arrays r) s
  have hb := body_spec run (Spec.values r)
    (reads r (List.zip ps ((Spec.arrays r).map List.length))) (Spec.callOf r) s1
    (healthy_congr h1 h2 h) (by rw [h1]; omega) (fun is s' H hn' =>
      reads_spec r s1 s' ps is (h6.imp fun p b hpb => hpb s' H.memory.1) H hn')
  have hf : ∀ t : State, t.blocks = s1.blocks →
      freeAll (List.zip ps ((Spec.arrays r).map List.length)) t =
        (.returns (), { t with blocks := s.blocks }) := fun t ht =>
    freeAll_spec ps (Spec.arrays r) h6.length_eq s.blocks t (ht.trans h3) h5
  cases hr : run (Spec.callOf r) with
  | returns v =>
    simp only [hr] at hb ⊢
    obtain ⟨s2, e2, g1, g2, g3, g4, g5⟩ := hb
    refine ⟨{ s2 with blocks := s.blocks }, ?_, rfl, ?_, healthy_congr rfl rfl g2, ?_, ?_⟩
    · simp only [common, bind, e1, tryFinally, e2, hf s2 g3.1]
    · exact (live_congr (s := s2) rfl).trans (g1.trans (live_congr h1))
    · exact (objects_congr (s := s2) rfl).trans (g4.trans (objects_congr h1))
    · rw [← h1, ← objects_congr h1]
      exact g5
  | panics =>
    simp only [hr] at hb ⊢
    obtain ⟨is, s2, e2, H⟩ := hb
    refine ⟨is, { s2 with blocks := s.blocks }, ?_, rfl, H.each, H.nodup, ?_, ?_,
      healthy_congr rfl rfl H.healthy, ?_, ?_⟩
    · simp only [common, bind, e1, tryFinally, e2, hf s2 H.memory.1]
    · intro i hi
      rw [← live_congr h1]
      exact (H.fresh i hi).2
    · intro j hj
      rw [← live_congr h1]
      exact H.other j hj
    · rw [← objects_congr h1]
      exact H.objects
    · rw [← h1, ← objects_congr h1]
      exact H.length
  | hangs =>
    simp only [hr] at hb ⊢
    obtain ⟨s2, e2⟩ := hb
    refine ⟨s2, ?_⟩
    simp only [common, bind, e1, tryFinally, e2]

end Glue

/-- **C80 (return)**: if the Rust function returns, then the JavaScript function returns the same
value; afterwards all handles mean what they meant before and the same blocks are allocated, and the
table has grown to at most the number of entries in use during the call. -/
theorem C80_returns (A : Alloc) (hA : Spec.Unlimited A) (run : Call → Outcome) (r : Request) (v : Js)
    (hr : run (Spec.callOf r) = .returns v) (s : State) (h : Spec.Healthy s)
    (hn : s.slab.length + (Spec.values r).length < 2 ^ 30) :
    ∃ s', r.invoke A run s = (.returns (some v), s') ∧ s'.blocks = s.blocks ∧
      Spec.live s' = Spec.live s ∧ Spec.Healthy s' ∧ Spec.objects s' = Spec.objects s ∧
      s'.slab.length = max s.slab.length (Spec.objects s + (Spec.values r).length + 1) := by
  have := invoke_spec A hA run r s h hn
  rw [hr] at this
  exact this

/-- **C80 (panic)**: if the Rust function panics, then the JavaScript function throws. The blocks
are freed, but the handles of the arguments stay in use for ever. -/
theorem C80_panics (A : Alloc) (hA : Spec.Unlimited A) (run : Call → Outcome) (r : Request)
    (hr : run (Spec.callOf r) = .panics) (s : State) (h : Spec.Healthy s)
    (hn : s.slab.length + (Spec.values r).length < 2 ^ 30) :
    ∃ is s', r.invoke A run s = (.throws, s') ∧ s'.blocks = s.blocks ∧
      List.Forall₂ (fun i v => Spec.live s' i = some (v, 1)) is (Spec.values r) ∧ is.Nodup ∧
      (∀ i ∈ is, Spec.live s i = none) ∧ (∀ j, j ∉ is → Spec.live s' j = Spec.live s j) ∧
      Spec.Healthy s' ∧ Spec.objects s' = Spec.objects s + (Spec.values r).length ∧
      s'.slab.length = max s.slab.length (Spec.objects s + (Spec.values r).length) := by
  have := invoke_spec A hA run r s h hn
  rw [hr] at this
  exact this

/-- **C80 (hang)**: if the Rust function does not return, then neither does the JavaScript function. -/
theorem C80_hangs (A : Alloc) (hA : Spec.Unlimited A) (run : Call → Outcome) (r : Request)
    (hr : run (Spec.callOf r) = .hangs) (s : State) (h : Spec.Healthy s)
    (hn : s.slab.length + (Spec.values r).length < 2 ^ 30) :
    ∃ s', r.invoke A run s = (.hangs, s') := by
  have := invoke_spec A hA run r s h hn
  rw [hr] at this
  exact this

/-- An allocator that hands out one block after the other. -/
def bump : Alloc where
  malloc blocks _ := some ((blocks.map Prod.fst).sum + 8, true)
  fresh := by
    intro blocks n p g h b hb
    simp only [Option.some.injEq, Prod.mk.injEq] at h
    have : b.1 ≤ (blocks.map Prod.fst).sum := List.le_sum_of_mem (List.mem_map_of_mem hb)
    omega

/-- `issuer_create` with a wrong seed returns 0. -/
example : Spec.Unlimited bump ∧ Spec.Healthy State.initial ∧
    (Spec.callOf (.issuerCreate none [1, 2])).run F ToyRng toyOracle true 1 = .returns (.num 0) :=
  ⟨fun _ _ => by simp [bump], healthy_initial, rfl⟩

/-- Calling one function after the other. -/
def Spec.invokeAll (A : Alloc) (run : Call → Outcome) : List Request → M (List Val)
  | [] => pure []
  | r :: rs => do
    let v ← r.invoke A run
    let vs ← Spec.invokeAll A run rs
    pure (v :: vs)

/-- **C80 (programs)**: from the time the script is loaded, any number of calls that return gives
the results of the Rust functions, leaves no block allocated and no handle but the constants in use, and
the table never has more than 8 entries. -/
theorem C80_programs (A : Alloc) (hA : Spec.Unlimited A) (run : Call → Outcome) (rs : List Request)
    (vs : List Js) (hr : List.Forall₂ (fun r v => run (Spec.callOf r) = .returns v) rs vs) :
    ∃ s', Spec.invokeAll A run rs State.initial = (.returns (vs.map some), s') ∧ s'.blocks = [] ∧
      Spec.live s' = Spec.live State.initial ∧ s'.slab.length ≤ 8 := by
  have key : ∀ s : State, Spec.Healthy s → Spec.objects s = 4 → s.slab.length ≤ 8 →
      ∃ s', Spec.invokeAll A run rs s = (.returns (vs.map some), s') ∧ s'.blocks = s.blocks ∧
        Spec.live s' = Spec.live s ∧ s'.slab.length ≤ 8 := by
    induction hr with
    | nil => exact fun s _ _ hs => ⟨s, rfl, rfl, rfl, hs⟩
    | @cons r v rs vs hrv _ ih =>
      intro s h ho hs
      have hv := values_le r
      obtain ⟨s1, e1, h1, h2, h3, h4, h5⟩ := C80_returns A hA run r v hrv s h (by omega)
      obtain ⟨s2, e2, g1, g2, g3⟩ := ih s1 h3 (h4.trans ho) (by rw [h5]; omega)
      exact ⟨s2, by simp only [Spec.invokeAll, bind, e1, e2, pure, List.map_cons], g1.trans h1,
        g2.trans h2, g3⟩
  exact key State.initial healthy_initial rfl (by decide)

/-- **C80 (leak)**: `n` calls that panic, on `k` values each, put `n * k` handles out of use. -/
theorem C80_leak (A : Alloc) (hA : Spec.Unlimited A) (run : Call → Outcome) (r : Request)
    (hr : run (Spec.callOf r) = .panics) (s : State) (h : Spec.Healthy s) (n : ℕ)
    (hn : s.slab.length + n * (Spec.values r).length < 2 ^ 30) :
    Spec.objects ((fun s => (r.invoke A run s).2)^[n] s) =
      Spec.objects s + n * (Spec.values r).length := by
  have key : ∀ k, k ≤ n → Spec.Healthy ((fun s => (r.invoke A run s).2)^[k] s) ∧
      Spec.objects ((fun s => (r.invoke A run s).2)^[k] s) =
        Spec.objects s + k * (Spec.values r).length ∧
      ((fun s => (r.invoke A run s).2)^[k] s).slab.length ≤
        s.slab.length + k * (Spec.values r).length := by
    intro k
    induction k with
    | zero => exact fun _ => ⟨h, by simp, by simp⟩
    | succ k ih =>
      intro hk
      obtain ⟨h1, h2, h3⟩ := ih (by omega)
      rw [Function.iterate_succ_apply']
      generalize (fun s => (r.invoke A run s).2)^[k] s = t at h1 h2 h3 ⊢
      have hm : (k + 1) * (Spec.values r).length ≤ n * (Spec.values r).length :=
        Nat.mul_le_mul_right _ hk
      rw [Nat.succ_mul] at hm ⊢
      obtain ⟨is, t', e, -, -, -, -, -, g1, g2, g3⟩ := C80_panics A hA run r hr t h1 (by omega)
      simp only [e]
      have := objects_le s
      exact ⟨g1, by omega, by rw [g3]; omega⟩
  exact (key n (le_refl n)).2.1

/-- **C80 (leak, in the code)**: one such call is `user_show` with the empty string as its user. -/
theorem C80_empty_user (G : Type) [AddCommGroup G] [Module F G] [Ristretto G] (R : Type)
    [SeedableRng R] (O : Oracle) (checks : Bool) (fuel : ℕ) (entry : Val) (seed e1 e2 : Bytes)
    (hs : seed.length = 32) :
    (Spec.callOf (.userShow (some (.str "")) entry seed e1 e2)).run G R O checks fuel = .panics := by
  have h1 : (csprngFromSeed seed : Res Unit R) = .ok (SeedableRng.fromSeed seed) := by
    simp [csprngFromSeed, hs]
  have h2 : intoSerde SignalUser.fromBytes (.str "") = (.panic : Res Unit (SignalUser G)) := by
    have h3 : ("" : String).toUTF8.data.toList = [] := by decide
    have h4 : (SignalUser.fromBytes [] : Res _ (SignalUser G)) = .panic :=
      (C11_signal_panic_iff []).2 (by decide)
    simp only [intoSerde, h3, h4]
    rfl
  simp only [Spec.callOf, Call.run, Wasm.userShow, h1, Option.getD_some, h2]
  rfl

/-- **C80 (out of memory)**: if there is no memory for the second byte array of `issuer_issue`, then
the first one stays allocated for ever. -/
theorem C80_out_of_memory (A : Alloc) (run : Call → Outcome) (issuer : Val)
    (phoneNumber seed entropy : Bytes) (s : State) (hp : phoneNumber ≠ []) (hs : seed ≠ [])
    (h1 : A.malloc s.blocks phoneNumber.length ≠ none)
    (h2 : ∀ p, A.malloc ((p, phoneNumber) :: s.blocks) seed.length = none) :
    ∃ p s', (Request.issuerIssue issuer phoneNumber seed entropy).invoke A run s = (.throws, s') ∧
      s'.blocks = (p, phoneNumber) :: s.blocks := by
  obtain ⟨p, s1, e1, -, -, h3, -⟩ := pass_spec A phoneNumber s h1
  refine ⟨p, s1, ?_, by simp [h3, block, hp]⟩
  have hm : passArray8ToWasm A seed s1 = (.throws, s1) := by
    have : s1.blocks = (p, phoneNumber) :: s.blocks := by simp [h3, block, hp]
    simp [passArray8ToWasm, bind, malloc, hs, this, h2 p]
  simp only [Request.invoke, Glue.issuerIssue, bind, e1, hm]

/-- An allocator with room for one block. -/
def single : Alloc where
  malloc blocks _ := if blocks = [] then some (8, false) else none
  fresh := by
    intro blocks n p g h b hb
    split at h
    · simp_all
    · simp at h

example : single.malloc State.initial.blocks 1 ≠ none ∧
    ∀ p, single.malloc ((p, [1]) :: State.initial.blocks) 32 = none := by
  simp [single, State.initial]

end Verif
