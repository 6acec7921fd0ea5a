import Verif.Model.Signal

/-! # Slicing lemmas -/

namespace Verif

variable {ε : Type}

theorem exists_split {b : Bytes} {n : ℕ} (h : n ≤ b.length) :
    ∃ x y, b = x ++ y ∧ x.length = n :=
  ⟨b.take n, b.drop n, (List.take_append_drop n b).symm, by rw [List.length_take]; omega⟩

theorem slice_left {x y : Bytes} {n : ℕ} (h : x.length = n) :
    (slice (x ++ y) 0 n : Res ε Bytes) = .ok x := by
  subst h
  rw [slice_ok (by omega) (by simp)]
  simp

theorem slice_all {x : Bytes} {n : ℕ} (h : x.length = n) :
    (slice x 0 n : Res ε Bytes) = .ok x := by
  subst h
  rw [slice_ok (by omega) (by simp)]
  simp

theorem slice_mid {x y z : Bytes} {a b : ℕ} (hx : x.length = a) (hy : a + y.length = b) :
    (slice (x ++ (y ++ z)) a b : Res ε Bytes) = .ok y := by
  subst hx hy
  rw [slice_ok (by omega) (by simp)]
  simp

theorem slice_right {x y : Bytes} {a b : ℕ} (hx : x.length = a) (hy : a + y.length = b) :
    (slice (x ++ y) a b : Res ε Bytes) = .ok y := by
  subst hx hy
  rw [slice_ok (by omega) (by simp)]
  simp

theorem sliceFrom_right {x y : Bytes} {a : ℕ} (hx : x.length = a) :
    (sliceFrom (x ++ y) a : Res ε Bytes) = .ok y := by
  subst hx
  rw [sliceFrom_ok (by simp)]
  simp

theorem slice_panic {x : Bytes} {a b : ℕ} (h : x.length < b) :
    (slice x a b : Res ε Bytes) = .panic := by
  rw [slice, if_neg (by omega)]

theorem slice_eq_ok {x y : Bytes} {a b : ℕ} :
    (slice x a b : Res ε Bytes) = .ok y ↔ (a ≤ b ∧ b ≤ x.length) ∧ (x.drop a).take (b - a) = y := by
  rw [slice]
  split <;> simp_all

theorem slice_ne_err {x : Bytes} {a b : ℕ} {e : ε} : slice x a b ≠ .err e := by
  rw [slice]; split <;> simp

theorem sliceFrom_ne_err {x : Bytes} {a : ℕ} {e : ε} : sliceFrom x a ≠ .err e := by
  rw [sliceFrom]; split <;> simp

theorem append_eq_iff {x y x' y' : Bytes} (h : x.length = x'.length) :
    x ++ y = x' ++ y' ↔ x = x' ∧ y = y' :=
  ⟨fun he => List.append_inj he h, fun ⟨h1, h2⟩ => by rw [h1, h2]⟩

/-- Concatenations of fixed-width encodings determine the list. -/
theorem flatten_map_inj {α : Type} {f : α → Bytes} {n : ℕ} (hn : 0 < n) (hf : ∀ a, (f a).length = n)
    (hinj : ∀ a b, f a = f b → a = b) :
    ∀ {xs ys : List α}, (xs.map f).flatten = (ys.map f).flatten → xs = ys
  | [], [], _ => rfl
  | [], y :: ys, h => by
    have := congrArg List.length h
    simp [hf] at this
    omega
  | x :: xs, [], h => by
    have := congrArg List.length h
    simp [hf] at this
    omega
  | x :: xs, y :: ys, h => by
    simp only [List.map_cons, List.flatten_cons] at h
    rw [append_eq_iff (by rw [hf, hf])] at h
    rw [hinj _ _ h.1, flatten_map_inj hn hf hinj h.2]

theorem flatten_map_length {α : Type} {f : α → Bytes} {n : ℕ} (hf : ∀ a, (f a).length = n)
    (xs : List α) : (xs.map f).flatten.length = n * xs.length := by
  induction xs with
  | nil => simp
  | cons x xs ih =>
    rw [List.map_cons, List.flatten_cons, List.length_append, hf, ih, List.length_cons]; ring

/-- A decoding loop over the 32-byte chunks of the input, characterised: the per-chunk decoder
accepts exactly the encodings. -/
theorem mapM_chunks_eq_ok {α : Type} {f : Bytes → Res ε α} {e : α → Bytes} {P : α → Prop}
    (he : ∀ a, (e a).length = 32)
    (hf : ∀ c : Bytes, c.length = 32 → ∀ a, f c = .ok a ↔ P a ∧ e a = c)
    {b : Bytes} (hb : b.length % 32 = 0) {xs : List α} :
    Res.mapM f (chunks32 b) = .ok xs ↔ (∀ x ∈ xs, P x) ∧ (xs.map e).flatten = b := by
  rw [Res.mapM_eq_ok]
  constructor
  · intro h
    have hlen := chunks32_length_of_dvd b hb
    have key : ∀ (cs : List Bytes) (ys : List α), (∀ c ∈ cs, c.length = 32) →
        List.Forall₂ (fun c a => f c = .ok a) cs ys → (∀ x ∈ ys, P x) ∧ ys.map e = cs := by
      intro cs ys hcs hall
      induction hall with
      | nil => simp
      | cons h1 _ ih =>
        obtain ⟨hp, hq⟩ := ih (fun c hc => hcs c (by simp [hc]))
        obtain ⟨h2, h3⟩ := (hf _ (hcs _ (by simp)) _).1 h1
        refine ⟨?_, by simp [hq, h3]⟩
        intro x hx
        rcases List.mem_cons.1 hx with rfl | hx
        · exact h2
        · exact hp x hx
    obtain ⟨h1, h2⟩ := key _ _ hlen h
    exact ⟨h1, by rw [h2, flatten_chunks32]⟩
  · rintro ⟨hP, rfl⟩
    rw [chunks32_flatten (by
      intro c hc
      obtain ⟨a, _, rfl⟩ := List.mem_map.1 hc
      exact he a)]
    clear hb
    induction xs with
    | nil => exact .nil
    | cons x xs ih =>
      exact .cons ((hf _ (he x) _).2 ⟨hP x (by simp), rfl⟩) (ih fun y hy => hP y (by simp [hy]))

/-- When the loop fails, the error is the per-chunk one. -/
theorem mapM_chunks_err {α : Type} {f : Bytes → Res ε α} {err : ε}
    (hf : ∀ c : Bytes, c.length = 32 → (∃ a, f c = .ok a) ∨ f c = .err err)
    {b : Bytes} (hb : b.length % 32 = 0) (hno : ∀ xs, Res.mapM f (chunks32 b) ≠ .ok xs) :
    Res.mapM f (chunks32 b) = .err err := by
  cases hres : Res.mapM f (chunks32 b) with
  | ok xs => exact absurd hres (hno xs)
  | err e =>
    obtain ⟨c, hc, he⟩ := Res.mapM_err_of hres
    rcases hf c (chunks32_length_of_dvd b hb c hc) with ⟨a, ha⟩ | h
    · rw [ha] at he; cases he
    · rw [h] at he; cases he; rfl
  | panic =>
    exfalso
    refine Res.mapM_ne_panic ?_ hres
    intro c hc hp
    rcases hf c (chunks32_length_of_dvd b hb c hc) with ⟨a, ha⟩ | h
    · rw [ha] at hp; cases hp
    · rw [h] at hp; cases hp

theorem Res.cases_ok_err {α : Type} {x : Res ε α} {e : ε} (h : (∃ a, x = .ok a) ∨ x = .err e) :
    x ≠ .panic := by
  rcases h with ⟨a, rfl⟩ | rfl <;> simp

end Verif
