import Verif.Model.Signal
import Verif.Lemmas.Bytes

/-!
# Helper lemmas about phone number encoding
-/

namespace Verif

namespace PhoneNumber

theorem arraySet_append {ε : Type} {pre post : Bytes} {x v : UInt8} {i : ℕ} (h : pre.length = i) :
    (arraySet (pre ++ x :: post) i v : Res ε Bytes) = .ok (pre ++ v :: post) := by
  rw [arraySet, if_pos (by simp; omega)]
  subst h
  simp

theorem arraySet_panic {ε : Type} {a : Bytes} {i : ℕ} {v : UInt8} (h : a.length ≤ i) :
    (arraySet a i v : Res ε Bytes) = .panic := by
  rw [arraySet, if_neg (by omega)]

theorem arraySet_length {ε : Type} {a b : Bytes} {i : ℕ} {v : UInt8}
    (h : (arraySet a i v : Res ε Bytes) = .ok b) : b.length = a.length := by
  rw [arraySet] at h
  split at h
  · cases h; simp
  · cases h

theorem writeDigits_append {ε : Type} (f : UInt8 → UInt8) : ∀ (ds pre mid post : Bytes) (i : ℕ),
    pre.length = i → mid.length = ds.length →
    (writeDigits f ds i (pre ++ mid ++ post) : Res ε Bytes) = .ok (pre ++ ds.map f ++ post)
  | [], pre, mid, post, i, _, h2 => by
    have : mid = [] := List.length_eq_zero_iff.1 (by simpa using h2)
    simp [writeDigits, this]
  | d :: ds, pre, [], post, i, _, h2 => by simp at h2
  | d :: ds, pre, m :: mid, post, i, h1, h2 => by
    rw [writeDigits]
    have e : pre ++ m :: mid ++ post = pre ++ m :: (mid ++ post) := by simp
    rw [e, arraySet_append h1, Res.ok_bind]
    have e2 : pre ++ f d :: (mid ++ post) = (pre ++ [f d]) ++ mid ++ post := by simp
    rw [e2, writeDigits_append f ds (pre ++ [f d]) mid post (i + 1) (by simp [h1]) (by simpa using h2)]
    simp

theorem writeDigits_length {ε : Type} (f : UInt8 → UInt8) : ∀ (ds bits out : Bytes) (i : ℕ),
    (writeDigits f ds i bits : Res ε Bytes) = .ok out → out.length = bits.length
  | [], bits, out, i, h => by cases h; rfl
  | d :: ds, bits, out, i, h => by
    rw [writeDigits, Res.bind_eq_ok] at h
    obtain ⟨b, h1, h2⟩ := h
    rw [writeDigits_length f ds b out (i + 1) h2, arraySet_length h1]

theorem writeDigits_ne_err {ε : Type} (f : UInt8 → UInt8) (e : ε) : ∀ (ds bits : Bytes) (i : ℕ),
    (writeDigits f ds i bits : Res ε Bytes) ≠ .err e
  | [], bits, i => by simp [writeDigits]
  | d :: ds, bits, i => by
    rw [writeDigits]
    intro h
    rw [Res.bind_eq_err] at h
    rcases h with h | ⟨b, h1, h2⟩
    · rw [arraySet] at h
      split at h <;> cases h
    · exact writeDigits_ne_err f e ds b (i + 1) h2

/-- The 32 bytes written for accepted numbers. -/
def layout (ds : Bytes) : Bytes :=
  [15, 15] ++ ds ++ [15, 15, UInt8.ofNat ds.length] ++ List.replicate (27 - ds.length) 0

theorem layout_length {ds : Bytes} (h : ds.length ≤ 27) : (layout ds).length = 32 := by
  simp [layout]; omega

theorem encodeWith_ok (f : UInt8 → UInt8) (b : Bytes) (h : b.length ≤ 27) :
    encodeWith f b = .ok (Scalar.fromBytesModOrder (layout (b.map f))) := by
  rw [encodeWith]
  dsimp only
  rw [if_neg (by omega)]
  have e0 : List.replicate 32 (0 : UInt8) =
      [0, 0] ++ List.replicate b.length 0 ++ ([0, 0, 0] ++ List.replicate (27 - b.length) 0) := by
    have : [(0 : UInt8), 0] = List.replicate 2 0 := rfl
    have h3 : [(0 : UInt8), 0, 0] = List.replicate 3 0 := rfl
    rw [h3, this, ← List.replicate_add, ← List.replicate_add, ← List.replicate_add]
    congr 1; omega
  have e1 : [15, 0] ++ List.replicate b.length (0 : UInt8) ++
      ([0, 0, 0] ++ List.replicate (27 - b.length) 0) =
      [15] ++ 0 :: (List.replicate b.length 0 ++ ([0, 0, 0] ++ List.replicate (27 - b.length) 0)) := by
    simp
  have e2 : [15] ++ 15 :: (List.replicate b.length (0 : UInt8) ++
      ([0, 0, 0] ++ List.replicate (27 - b.length) 0)) =
      [15, 15] ++ List.replicate b.length 0 ++ ([0, 0, 0] ++ List.replicate (27 - b.length) 0) := by
    simp
  have e3 : [15, 15] ++ b.map f ++ ([0, 0, 0] ++ List.replicate (27 - b.length) 0) =
      ([15, 15] ++ b.map f) ++ 0 :: (0 :: 0 :: List.replicate (27 - b.length) 0) := by
    simp
  have e4 : ([15, 15] ++ b.map f) ++ 15 :: (0 :: 0 :: List.replicate (27 - b.length) 0) =
      ([15, 15] ++ b.map f ++ [15]) ++ 0 :: (0 :: List.replicate (27 - b.length) 0) := by
    simp
  have e5 : ([15, 15] ++ b.map f ++ [15]) ++ 15 :: (0 :: List.replicate (27 - b.length) 0) =
      ([15, 15] ++ b.map f ++ [15, 15]) ++ 0 :: List.replicate (27 - b.length) 0 := by
    simp
  have s1 : (arraySet (List.replicate 32 0) 0 15 : Res PhoneNumberError Bytes) =
      .ok ([15, 0] ++ List.replicate b.length (0 : UInt8) ++
        ([0, 0, 0] ++ List.replicate (27 - b.length) 0)) := by
    rw [e0]
    exact arraySet_append (pre := []) rfl
  rw [s1, Res.ok_bind, e1, arraySet_append (by rfl), Res.ok_bind, e2,
    writeDigits_append f b [15, 15] _ _ 2 rfl (by simp), Res.ok_bind, e3,
    arraySet_append (by simp), Res.ok_bind, e4, arraySet_append (by simp), Res.ok_bind, e5,
    arraySet_append (by simp), Res.ok_bind]
  congr 2
  simp [layout]

theorem encodeWith_panic (f : UInt8 → UInt8) (b : Bytes) (h1 : 28 ≤ b.length) (h2 : b.length ≤ 32) :
    encodeWith f b = .panic := by
  rw [encodeWith]
  dsimp only
  rw [if_neg (by omega)]
  have panic_or : ∀ {x : Res PhoneNumberError Scalar}, (∀ s, x ≠ .ok s) → (∀ e, x ≠ .err e) →
      x = .panic := by
    intro x h1 h2
    cases x with
    | ok s => exact absurd rfl (h1 s)
    | err e => exact absurd rfl (h2 e)
    | panic => rfl
  have ne_err : ∀ (a : Bytes) (i : ℕ) (v : UInt8) (e : PhoneNumberError), arraySet a i v ≠ .err e := by
    intro a i v e h
    rw [arraySet] at h
    split at h <;> cases h
  apply panic_or
  · intro s h
    rw [Res.bind_eq_ok] at h
    obtain ⟨b1, h3, h⟩ := h
    rw [Res.bind_eq_ok] at h
    obtain ⟨b2, h4, h⟩ := h
    rw [Res.bind_eq_ok] at h
    obtain ⟨b3, h5, h⟩ := h
    rw [Res.bind_eq_ok] at h
    obtain ⟨b4, h6, h⟩ := h
    rw [Res.bind_eq_ok] at h
    obtain ⟨b5, h7, h⟩ := h
    rw [Res.bind_eq_ok] at h
    obtain ⟨b6, h8, h⟩ := h
    have hl : b5.length = 32 := by
      rw [arraySet_length h7, arraySet_length h6, writeDigits_length _ _ _ _ _ h5,
        arraySet_length h4, arraySet_length h3]
      simp
    rw [arraySet_panic (by omega)] at h8
    cases h8
  · intro e h
    rw [Res.bind_eq_err] at h
    rcases h with h | ⟨b1, h3, h⟩
    · exact ne_err _ _ _ _ h
    rw [Res.bind_eq_err] at h
    rcases h with h | ⟨b1, h3, h⟩
    · exact ne_err _ _ _ _ h
    rw [Res.bind_eq_err] at h
    rcases h with h | ⟨b1, h3, h⟩
    · exact writeDigits_ne_err _ _ _ _ _ h
    rw [Res.bind_eq_err] at h
    rcases h with h | ⟨b1, h3, h⟩
    · exact ne_err _ _ _ _ h
    rw [Res.bind_eq_err] at h
    rcases h with h | ⟨b1, h3, h⟩
    · exact ne_err _ _ _ _ h
    rw [Res.bind_eq_err] at h
    rcases h with h | ⟨b1, h3, h⟩
    · exact ne_err _ _ _ _ h
    cases h

theorem encodeWith_err (f : UInt8 → UInt8) (b : Bytes) (h : 33 ≤ b.length) :
    encodeWith f b = .err .lengthExceeded := by
  rw [encodeWith]
  dsimp only
  rw [if_pos (by omega)]

theorem encodeWith_eq_ok {f : UInt8 → UInt8} {b : Bytes} {s : Scalar} (h : encodeWith f b = .ok s) :
    b.length ≤ 27 ∧ s = Scalar.fromBytesModOrder (layout (b.map f)) := by
  by_cases h27 : b.length ≤ 27
  · rw [encodeWith_ok f b h27] at h
    exact ⟨h27, (Res.ok.inj h).symm⟩
  · by_cases h32 : b.length ≤ 32
    · rw [encodeWith_panic f b (by omega) h32] at h; cases h
    · rw [encodeWith_err f b (by omega)] at h; cases h

theorem layout_eq {ds : Bytes} (n : ℕ) (hn : ds.length = n) :
    leVal (layout ds) = 15 + 256 * 15 + 256 ^ 2 * leVal ds + 256 ^ (n + 2) * (15 + 256 * 15) +
      256 ^ (n + 4) * (n % 256) := by
  subst hn
  rw [layout]
  simp only [leVal_append, leVal_replicate_zero, leVal_cons, leVal_nil, List.length_append,
    List.length_cons, List.length_nil]
  have : (UInt8.ofNat ds.length).toNat = ds.length % 256 := by simp
  rw [this]
  have h15 : (15 : UInt8).toNat = 15 := rfl
  rw [h15]
  ring

theorem layout_lt {ds : Bytes} (h : ds.length ≤ 26) : leVal (layout ds) < 256 ^ 31 := by
  have hl := leVal_lt ds
  have hp : (256 : ℕ) ^ ds.length ≤ 256 ^ 26 := Nat.pow_le_pow_right (by norm_num) h
  have hb : layout ds = ([15, 15] ++ ds ++ [15, 15, UInt8.ofNat ds.length]) ++
      List.replicate (27 - ds.length) 0 := rfl
  rw [hb, leVal_append, leVal_replicate_zero]
  have h1 := leVal_lt ([15, 15] ++ ds ++ [15, 15, UInt8.ofNat ds.length])
  have h2 : ([15, 15] ++ ds ++ [15, 15, UInt8.ofNat ds.length]).length = ds.length + 5 := by simp
  rw [h2] at h1
  have h3 : (256 : ℕ) ^ (ds.length + 5) ≤ 256 ^ 31 := Nat.pow_le_pow_right (by norm_num) (by omega)
  omega

/-- For 27 digits the value lies between `27 * 2^248` plus the `15,15` marker and `28 * 2^248`. -/
theorem layout_27 {ds : Bytes} (h : ds.length = 27) :
    27 * 256 ^ 31 + 15 * 256 ^ 30 ≤ leVal (layout ds) ∧
      leVal (layout ds) < 27 * 256 ^ 31 + 16 * 256 ^ 30 := by
  have hl := leVal_lt ds
  rw [h] at hl
  rw [layout_eq 27 h]
  have e30 : (256 : ℕ) ^ 30 = 256 * 256 ^ 29 := by rw [← pow_succ']
  have e31 : (256 : ℕ) ^ 31 = 65536 * 256 ^ 29 := by norm_num
  have e27 : (256 : ℕ) ^ 29 = 65536 * 256 ^ 27 := by norm_num
  have e2 : (256 : ℕ) ^ 2 = 65536 := by norm_num
  have em : 27 % 256 = 27 := by norm_num
  have hbig : 1 ≤ (256 : ℕ) ^ 27 := Nat.one_le_pow _ _ (by norm_num)
  rw [em, show 27 + 2 = 29 from rfl, show 27 + 4 = 31 from rfl, e30, e31, e27, e2]
  generalize (256 : ℕ) ^ 27 = c at *
  generalize leVal ds = v at *
  omega

theorem ell_val : ell = 2 ^ 252 + 27742317777372353535851937790883648493 := rfl

theorem layout_mod_small {ds : Bytes} (h : ds.length ≤ 26) :
    leVal (layout ds) % ell = leVal (layout ds) := by
  apply Nat.mod_eq_of_lt
  have := layout_lt h
  rw [ell_val]
  norm_num at this ⊢
  omega

theorem layout_mod_27 {ds : Bytes} (h : ds.length = 27) :
    leVal (layout ds) % ell = leVal (layout ds) - ell := by
  obtain ⟨h1, h2⟩ := layout_27 h
  have h3 : ell ≤ leVal (layout ds) := by
    rw [ell_val]; norm_num at h1 ⊢; omega
  rw [Nat.mod_eq_sub_mod h3, Nat.mod_eq_of_lt]
  rw [ell_val] at h3 ⊢
  norm_num at h2 h3 ⊢
  omega

theorem layout_inj {a b : Bytes} (ha : a.length ≤ 27) (hb : b.length ≤ 27)
    (h : leVal (layout a) = leVal (layout b)) : a = b := by
  have h1 : layout a = layout b := leVal_inj (by rw [layout_length ha, layout_length hb]) h
  -- the last non-zero byte is the length when positive
  have key : ∀ a b : Bytes, a.length ≤ 27 → b.length ≤ 27 → layout a = layout b →
      a.length ≤ b.length := by
    intro a b ha hb h
    by_contra hlt
    push Not at hlt
    have e := congrArg (fun l => l[a.length + 4]?) h
    simp only [layout] at e
    have e1 : ([15, 15] ++ a ++ [15, 15, UInt8.ofNat a.length] ++
        List.replicate (27 - a.length) (0 : UInt8))[a.length + 4]? = some (UInt8.ofNat a.length) := by
      rw [List.getElem?_append_left (by simp), List.getElem?_append_right (by simp)]
      have : a.length + 4 - ([15, 15] ++ a).length = 2 := by simp
      rw [this]; rfl
    have e2 : ([15, 15] ++ b ++ [15, 15, UInt8.ofNat b.length] ++
        List.replicate (27 - b.length) (0 : UInt8))[a.length + 4]? = some 0 := by
      rw [List.getElem?_append_right (by simp; omega), List.getElem?_replicate, if_pos]
      simp; omega
    rw [e1, e2] at e
    have e3 := congrArg UInt8.toNat (Option.some.inj e)
    simp at e3
    omega
  have hlen : a.length = b.length := le_antisymm (key a b ha hb h1) (key b a hb ha h1.symm)
  simp only [layout] at h1
  rw [List.append_assoc, List.append_assoc, List.append_assoc, List.append_assoc] at h1
  have h2 := List.append_cancel_left h1
  exact (append_eq_iff hlen).1 h2 |>.1

end PhoneNumber

end Verif
