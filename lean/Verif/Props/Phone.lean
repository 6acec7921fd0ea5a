import Verif.Lemmas.Phone
import Verif.Props.CodecComposite

/-!
# Phone number encoding (C16–C20)
-/

set_option maxRecDepth 100000

namespace Verif

open PhoneNumber

/-! ## C16 acceptance by length -/

/-- The bytes of the scalar for digits `ds`: marker `15,15`, digits, marker, length, zero padding. -/
def Spec.phoneBytes (ds : Bytes) : Bytes :=
  [15, 15] ++ ds ++ [15, 15, UInt8.ofNat ds.length] ++ List.replicate (27 - ds.length) 0

/-- `try_from_bytes`: the exact `Ok` set and value. -/
theorem C16_bytes_ok_iff (b : Bytes) (s : Scalar) :
    tryFromBytes b = .ok s ↔ b.length ≤ 27 ∧ s.n = leVal (Spec.phoneBytes b) % ell := by
  constructor
  · intro h
    obtain ⟨h1, rfl⟩ := encodeWith_eq_ok h
    refine ⟨h1, ?_⟩
    rw [Scalar.fromBytesModOrder_n, List.map_id]
    rfl
  · rintro ⟨h1, h2⟩
    rw [tryFromBytes, encodeWith_ok _ _ h1, List.map_id]
    congr 1
    apply Scalar.ext
    rw [h2, Scalar.fromBytesModOrder_n]
    rfl

example : ∃ s, tryFromBytes [1, 4, 1, 5, 5, 5, 5, 1, 2, 3, 4] = .ok s :=
  ⟨⟨leVal (Spec.phoneBytes [1, 4, 1, 5, 5, 5, 5, 1, 2, 3, 4]), by decide +kernel⟩,
    (C16_bytes_ok_iff _ _).2 ⟨by decide, by decide +kernel⟩⟩

/-- The claim "every number of at most 32 bytes is accepted" fails: these lengths panic. -/
theorem C16_bytes_panic_iff (b : Bytes) :
    tryFromBytes b = .panic ↔ 28 ≤ b.length ∧ b.length ≤ 32 := by
  constructor
  · intro h
    by_contra hc
    by_cases h1 : b.length ≤ 27
    · rw [tryFromBytes, encodeWith_ok _ _ h1] at h; cases h
    · rw [tryFromBytes, encodeWith_err _ _ (by omega)] at h; cases h
  · rintro ⟨h1, h2⟩
    exact encodeWith_panic _ _ h1 h2

example : tryFromBytes (List.replicate 28 1) = .panic := (C16_bytes_panic_iff _).2 (by decide)

theorem C16_bytes_err_iff (b : Bytes) (e : PhoneNumberError) :
    tryFromBytes b = .err e ↔ 33 ≤ b.length ∧ e = .lengthExceeded := by
  constructor
  · intro h
    by_cases h1 : b.length ≤ 27
    · rw [tryFromBytes, encodeWith_ok _ _ h1] at h; cases h
    · by_cases h2 : b.length ≤ 32
      · rw [tryFromBytes, encodeWith_panic _ _ (by omega) h2] at h; cases h
      · rw [tryFromBytes, encodeWith_err _ _ (by omega)] at h
        exact ⟨by omega, (Res.err.inj h).symm⟩
  · rintro ⟨h1, rfl⟩
    exact encodeWith_err _ _ h1

example : tryFromBytes (List.replicate 33 1) = .err .lengthExceeded :=
  (C16_bytes_err_iff _ _).2 (by decide)

/-- `try_from_string` has the same three outcomes. -/
theorem C16_string_outcome (b : Bytes) :
    ((∃ s, tryFromString b = .ok s) ↔ b.length ≤ 27) ∧
    (tryFromString b = .panic ↔ 28 ≤ b.length ∧ b.length ≤ 32) ∧
    (∀ e, tryFromString b = .err e ↔ 33 ≤ b.length ∧ e = .lengthExceeded) := by
  by_cases h1 : b.length ≤ 27
  · rw [tryFromString, encodeWith_ok _ _ h1]
    exact ⟨⟨fun _ => h1, fun _ => ⟨_, rfl⟩⟩, ⟨nofun, fun h => by omega⟩,
      fun e => ⟨nofun, fun h => by omega⟩⟩
  · by_cases h2 : b.length ≤ 32
    · rw [tryFromString, encodeWith_panic _ _ (by omega) h2]
      exact ⟨⟨nofun, fun h => by omega⟩, ⟨fun _ => by omega, fun _ => rfl⟩,
        fun e => ⟨nofun, fun h => by omega⟩⟩
    · rw [tryFromString, encodeWith_err _ _ (by omega)]
      refine ⟨⟨nofun, fun h => by omega⟩, ⟨nofun, fun h => by omega⟩, fun e => ?_⟩
      exact ⟨fun h => ⟨by omega, (Res.err.inj h).symm⟩, fun h => by rw [h.2]⟩

/-- The full claim of C16, refuted. -/
theorem C16_false :
    ¬ ∀ b : Bytes, (b.length ≤ 32 → ∃ s, tryFromBytes b = .ok s) ∧ tryFromBytes b ≠ .panic :=
  fun h => (h (List.replicate 30 7)).2 ((C16_bytes_panic_iff _).2 (by decide))

/-- What remains of C16: outside lengths 28 to 32 the claim holds. Missing: lengths 28 to 32, where
the code panics (`C16_bytes_panic_iff`). -/
theorem C16_lengths_partial (b : Bytes) (h : ¬ (28 ≤ b.length ∧ b.length ≤ 32)) :
    (b.length ≤ 32 → ∃ s, tryFromBytes b = .ok s) ∧
    (32 < b.length → tryFromBytes b = .err .lengthExceeded) ∧ tryFromBytes b ≠ .panic := by
  refine ⟨fun h1 => ⟨_, encodeWith_ok _ _ (by omega)⟩, fun h1 => (C16_bytes_err_iff _ _).2
    ⟨by omega, rfl⟩, fun h1 => h ((C16_bytes_panic_iff _).1 h1)⟩

example : ¬ (28 ≤ (List.replicate 27 (9 : UInt8)).length ∧
    (List.replicate 27 (9 : UInt8)).length ≤ 32) := by decide

/-! ## C17 injectivity -/

private theorem value_inj {a b : Bytes} (ha : a.length ≤ 27) (hb : b.length ≤ 27)
    (h : leVal (layout a) % ell = leVal (layout b) % ell) : a = b := by
  rcases Nat.lt_or_ge a.length 27 with h1 | h1 <;> rcases Nat.lt_or_ge b.length 27 with h2 | h2
  · rw [layout_mod_small (by omega), layout_mod_small (by omega)] at h
    exact layout_inj ha hb h
  · have h3 : b.length = 27 := by omega
    rw [layout_mod_small (by omega), layout_mod_27 h3] at h
    have h4 := layout_lt (ds := a) (by omega)
    have h5 := (layout_27 h3).1
    rw [ell_val] at h
    norm_num at h h4 h5
    omega
  · have h3 : a.length = 27 := by omega
    rw [layout_mod_small (ds := b) (by omega), layout_mod_27 h3] at h
    have h4 := layout_lt (ds := b) (by omega)
    have h5 := (layout_27 h3).1
    rw [ell_val] at h
    norm_num at h h4 h5
    omega
  · have h3 : a.length = 27 := by omega
    have h4 : b.length = 27 := by omega
    rw [layout_mod_27 h3, layout_mod_27 h4] at h
    have h5 := (layout_27 h3).1
    have h6 := (layout_27 h4).1
    apply layout_inj ha hb
    rw [ell_val] at h
    norm_num at h h5 h6
    omega

/-- Two accepted numbers with the same scalar value (even modulo the group order) are equal. -/
theorem C17_injective {a b : Bytes} {s t : Scalar} (ha : tryFromBytes a = .ok s)
    (hb : tryFromBytes b = .ok t) (h : s.val = t.val) : a = b := by
  obtain ⟨h1, h2⟩ := encodeWith_eq_ok ha
  obtain ⟨h3, h4⟩ := encodeWith_eq_ok hb
  rw [List.map_id] at h2 h4
  apply value_inj h1 h3
  subst h2 h4
  have h5 : ∀ l : Bytes, (Scalar.fromBytesModOrder l).val = ((leVal l : ℕ) : F) := by
    intro l
    rw [Scalar.val, Scalar.fromBytesModOrder_n]
    exact ZMod.natCast_mod _ _
  rw [h5, h5] at h
  exact (ZMod.natCast_eq_natCast_iff' _ _ _).1 h

/-- Numbers differing only in a leading zero both meet the hypotheses, so they stay distinct. -/
example : ∃ s t, tryFromBytes [0, 4, 1] = .ok s ∧ tryFromBytes [4, 1] = .ok t ∧ s.val ≠ t.val := by
  refine ⟨_, _, encodeWith_ok _ _ (by decide), encodeWith_ok _ _ (by decide), fun h => ?_⟩
  have := C17_injective (encodeWith_ok _ _ (by decide)) (encodeWith_ok _ _ (by decide)) h
  exact absurd this (by decide)

/-! ## C18 canonical and non-zero -/

private theorem layout_pos (ds : Bytes) : 0 < leVal (layout ds) := by
  simp only [layout, leVal_append, leVal_cons, List.cons_append]
  have : (15 : UInt8).toNat = 15 := rfl
  omega

private theorem encodeWith_good {f : UInt8 → UInt8} {b : Bytes} {s : Scalar}
    (h : encodeWith f b = .ok s) : s.Reduced ∧ s.val ≠ 0 := by
  obtain ⟨h1, rfl⟩ := encodeWith_eq_ok h
  have hr : (Scalar.fromBytesModOrder (layout (b.map f))).Reduced := by
    rw [Scalar.Reduced, Scalar.fromBytesModOrder_n]
    exact Nat.mod_lt _ ell_pos
  refine ⟨hr, ?_⟩
  intro h0
  rw [Scalar.val, Scalar.fromBytesModOrder_n, ZMod.natCast_mod, ZMod.natCast_eq_zero_iff] at h0
  have h0 := Nat.mod_eq_zero_of_dvd h0
  have hl : (b.map f).length ≤ 27 := by simpa using h1
  rcases Nat.lt_or_ge (b.map f).length 27 with h2 | h2
  · rw [layout_mod_small (by omega)] at h0
    have := layout_pos (b.map f)
    omega
  · have h3 : (b.map f).length = 27 := by omega
    rw [layout_mod_27 h3] at h0
    have h5 := (layout_27 h3).1
    rw [ell_val] at h0
    norm_num at h0 h5
    omega

theorem C18_canonical {b : Bytes} {s : Scalar}
    (h : tryFromBytes b = .ok s ∨ tryFromString b = .ok s) : s.n < ell ∧ s.val ≠ 0 := by
  rcases h with h | h <;> exact encodeWith_good h

example : ∃ s, tryFromBytes (List.replicate 27 9) = .ok s ∨
    tryFromString (List.replicate 27 9) = .ok s :=
  ⟨_, Or.inl (encodeWith_ok _ _ (by decide))⟩

/-- A user whose credential carries an accepted phone number gets the same credential back when
saved and loaded, whatever the tag; in particular it is not loaded as "no credential". -/
theorem C18_saved {G : Type} [AddCommGroup G] [Module F G] [Ristretto G] {b : Bytes} {s : Scalar}
    (h : tryFromBytes b = .ok s ∨ tryFromString b = .ok s) (sp : SystemParameters G) (X : G)
    (tag : Amacs.Tag G) :
    User.fromBytes (User.toBytes ⟨sp, ⟨[X]⟩, none, some ⟨tag, [s]⟩⟩) =
      .ok ⟨sp, ⟨[X]⟩, none, some ⟨tag, [s]⟩⟩ := by
  rw [C11_roundtrip_iff]
  refine ⟨rfl, nofun, ?_⟩
  intro c hc
  obtain rfl := Option.some.inj hc
  obtain ⟨h1, h2⟩ := C18_canonical h
  refine ⟨s, rfl, h1, fun h3 => h2 ?_⟩
  rw [h3.2.2]
  exact Scalar.val_zero

example : ∃ s, tryFromBytes [1, 2, 3] = .ok s ∧
    User.fromBytes (User.toBytes (⟨⟨1, 5⟩, ⟨[5]⟩, none, some ⟨⟨0, 0⟩, [s]⟩⟩ : User F)) =
      .ok (⟨⟨1, 5⟩, ⟨[5]⟩, none, some ⟨⟨0, 0⟩, [s]⟩⟩ : User F) :=
  ⟨_, rfl, C18_saved (b := [1, 2, 3]) (.inl rfl) _ _ _⟩

/-! ## C19 string round trip -/

theorem toBytes_small {ds : Bytes} (h : ds.length ≤ 26) :
    (Scalar.fromBytesModOrder (layout ds)).toBytes = layout ds := by
  rw [Scalar.toBytes, Scalar.fromBytesModOrder_n, layout_mod_small h]
  have := leBytes_leVal (layout ds)
  rwa [layout_length (by omega)] at this

theorem findLength_append (pre : Bytes) {x : UInt8} (k : ℕ) (hx : x ≠ 0) :
    findLength (pre ++ x :: List.replicate k 0) = x.toNat := by
  have h1 : (pre ++ x :: List.replicate k 0).reverse =
      List.replicate k 0 ++ (x :: pre.reverse) := by simp
  have h2 : (List.replicate k (0 : UInt8)).find? (fun b => decide (b ≠ 0)) = none := by
    rw [List.find?_eq_none]
    intro y hy
    simp [List.eq_of_mem_replicate hy]
  rw [findLength, h1, List.find?_append, h2, List.find?_cons_of_pos (by simp [hx])]
  rfl

theorem readDigits_append {ε : Type} : ∀ (ds pre post : Bytes) (i : ℕ), pre.length = i →
    (∀ d ∈ ds, d ≤ 9) →
    (readDigits (pre ++ ds ++ post) ds.length i : Res ε Bytes) = .ok (ds.map (· + 48))
  | [], pre, post, i, _, _ => rfl
  | d :: ds, pre, post, i, h1, h2 => by
    have hi : (index (pre ++ d :: ds ++ post) i : Res ε UInt8) = .ok d := by
      subst h1
      simp [index]
    have e : pre ++ d :: ds ++ post = (pre ++ [d]) ++ ds ++ post := by simp
    rw [List.length_cons, readDigits, hi, Res.ok_bind, e,
      readDigits_append ds (pre ++ [d]) post (i + 1) (by simp [h1])
        (fun x hx => h2 x (List.mem_cons_of_mem _ hx)), Res.ok_bind,
      if_pos (h2 d List.mem_cons_self)]
    rfl

theorem readDigits_ok {ε : Type} (bytes : Bytes) : ∀ (n i : ℕ), n = 0 ∨ i + n ≤ bytes.length →
    ∃ t, (readDigits bytes n i : Res ε Bytes) = .ok t ∧ t.length ≤ n
  | 0, i, _ => ⟨[], rfl, le_rfl⟩
  | n + 1, i, h => by
    have h : i + (n + 1) ≤ bytes.length := by omega
    obtain ⟨t, ht, htl⟩ := readDigits_ok (ε := ε) bytes n (i + 1) (by omega)
    have hi : (index bytes i : Res ε UInt8) = .ok (bytes[i]'(by omega)) := by
      simp [index, List.getElem?_eq_getElem (show i < bytes.length by omega)]
    rw [readDigits, hi, Res.ok_bind, ht, Res.ok_bind]
    split
    · exact ⟨_, rfl, by simpa using htl⟩
    · exact ⟨_, rfl, by omega⟩

theorem readDigits_panic {ε : Type} (bytes : Bytes) : ∀ (n i : ℕ), 0 < n → bytes.length < i + n →
    (readDigits bytes n i : Res ε Bytes) = .panic
  | 0, i, h, _ => by omega
  | n + 1, i, _, h => by
    rw [readDigits]
    by_cases hi : i < bytes.length
    · have hi' : (index bytes i : Res ε UInt8) = .ok bytes[i] := by
        simp [index, List.getElem?_eq_getElem hi]
      rw [hi', Res.ok_bind, readDigits_panic bytes n (i + 1) (by omega) (by omega)]
      rfl
    · have hi' : (index bytes i : Res ε UInt8) = .panic := by
        rw [index, List.getElem?_eq_none (by omega)]; rfl
      rw [hi']; rfl

private theorem forall_byte {P : UInt8 → Prop} (h : ∀ n < 256, P (UInt8.ofNat n)) (c : UInt8) :
    P c := by
  have := h c.toNat c.toNat_lt
  rwa [UInt8.ofNat_toNat] at this

/-- A digit of the string, `'0'..='9'`. -/
def Spec.Digit (c : UInt8) : Prop := 48 ≤ c ∧ c ≤ 57

private theorem digit_cases : ∀ c : UInt8, 48 ≤ c → c ≤ 57 →
    undoUtf8 c ≤ 9 ∧ undoUtf8 c + 48 = c := forall_byte (by decide +kernel)

private theorem ofNat_ne_zero {n : ℕ} (h1 : 1 ≤ n) (h2 : n ≤ 255) : UInt8.ofNat n ≠ 0 := by
  intro h
  have := congrArg UInt8.toNat h
  simp at this
  omega

/-- Digit strings of 1 to 26 characters survive the round trip. Missing from the full claim: the
empty string and 27 digits, where it is false (`C19_empty`, `C19_27`). -/
theorem C19_roundtrip_partial {ε : Type} (s : Bytes) (hd : ∀ c ∈ s, Spec.Digit c) (h1 : 1 ≤ s.length)
    (h2 : s.length ≤ 26) :
    ∃ p, tryFromString s = .ok p ∧ (toStr p : Res ε Bytes) = .ok s := by
  refine ⟨_, encodeWith_ok _ _ (by omega), ?_⟩
  have hl : (s.map undoUtf8).length = s.length := by simp
  rw [toStr, toBytes_small (by omega)]
  have hf : findLength (layout (s.map undoUtf8)) = (s.map undoUtf8).length := by
    have e : layout (s.map undoUtf8) = ([15, 15] ++ s.map undoUtf8 ++ [15, 15]) ++
        UInt8.ofNat (s.map undoUtf8).length :: List.replicate (27 - (s.map undoUtf8).length) 0 := by
      simp [layout]
    rw [e, findLength_append _ _ (ofNat_ne_zero (by omega) (by omega)), UInt8.toNat_ofNat']
    omega
  have e : layout (s.map undoUtf8) = [15, 15] ++ s.map undoUtf8 ++
      ([15, 15, UInt8.ofNat (s.map undoUtf8).length] ++
        List.replicate (27 - (s.map undoUtf8).length) 0) := by
    simp [layout]
  rw [hf, e, readDigits_append _ _ _ 2 rfl]
  · congr 1
    rw [List.map_map]
    conv_rhs => rw [← List.map_id s]
    apply List.map_congr_left
    intro c hc
    exact (digit_cases c (hd c hc).1 (hd c hc).2).2
  · intro d hd'
    obtain ⟨c, hc, rfl⟩ := List.mem_map.1 hd'
    exact (digit_cases c (hd c hc).1 (hd c hc).2).1

/-- "14155551234" meets the hypotheses. -/
example : let s : Bytes := [49, 52, 49, 53, 53, 53, 53, 49, 50, 51, 52]
    (∀ c ∈ s, 48 ≤ c ∧ c ≤ 57) ∧ 1 ≤ s.length ∧ s.length ≤ 26 := by decide

/-- The empty string is accepted and comes back as thirteen zeroes. -/
theorem C19_empty : ∃ p, tryFromString [] = .ok p ∧
    (toStr p : Res Unit Bytes) = .ok (List.replicate 13 48) :=
  ⟨_, encodeWith_ok _ _ (by decide), by decide +kernel⟩

/-- No string of 27 bytes survives: what comes back has at most 11 characters. -/
theorem C19_27 {ε : Type} (s : Bytes) (h : s.length = 27) :
    ∃ p t, tryFromString s = .ok p ∧ (toStr p : Res ε Bytes) = .ok t ∧ t.length ≤ 11 := by
  have hl : (s.map undoUtf8).length = 27 := by simpa using h
  set p := Scalar.fromBytesModOrder (layout (s.map undoUtf8)) with hp
  have hn : p.n = leVal (layout (s.map undoUtf8)) - ell := by
    rw [hp, Scalar.fromBytesModOrder_n, layout_mod_27 hl]
  obtain ⟨a, c, hac, ha⟩ := exists_split (b := p.toBytes) (n := 31) (by simp)
  have hc : c.length = 1 := by
    have := congrArg List.length hac
    simp only [Scalar.toBytes_length, List.length_append] at this
    omega
  obtain ⟨x, rfl⟩ := List.length_eq_one_iff.1 hc
  have hx : x.toNat = 11 := by
    have h1 := congrArg leVal hac
    rw [Scalar.leVal_toBytes, hn, leVal_append, ha] at h1
    simp only [leVal_cons, leVal_nil] at h1
    have h2 := leVal_lt a
    rw [ha] at h2
    obtain ⟨h3, h4⟩ := layout_27 hl
    rw [ell_val] at h1
    norm_num at h1 h2 h3 h4
    omega
  have hf : findLength p.toBytes = 11 := by
    rw [hac]
    have := findLength_append a (x := x) 0 (by rintro rfl; simp at hx)
    simpa [hx] using this
  obtain ⟨t, ht, htl⟩ := readDigits_ok (ε := ε) p.toBytes 11 2 (by simp)
  exact ⟨p, t, encodeWith_ok _ _ (by omega), by rw [toStr, hf, ht], htl⟩

example : (List.replicate 27 (49 : UInt8)).length = 27 := rfl

/-- The full claim of C19, refuted. -/
theorem C19_false : ¬ ∀ (s : Bytes) (p : Scalar), (∀ c ∈ s, Spec.Digit c) → tryFromString s = .ok p →
    (toStr p : Res Unit Bytes) = .ok s := by
  intro h
  obtain ⟨p, h1, h2⟩ := C19_empty
  have := h [] p (by simp) h1
  rw [h2] at this
  cases this

/-- The round trip characterised: for digit strings it holds exactly for lengths 1 to 26. -/
theorem C19_roundtrip_iff {ε : Type} (s : Bytes) (hd : ∀ c ∈ s, Spec.Digit c) :
    (∃ p, tryFromString s = .ok p ∧ (toStr p : Res ε Bytes) = .ok s) ↔
      1 ≤ s.length ∧ s.length ≤ 26 := by
  constructor
  · rintro ⟨p, h1, h2⟩
    have h27 := (encodeWith_eq_ok h1).1
    constructor
    · by_contra h0
      have hs : s = [] := List.length_eq_zero_iff.1 (by omega)
      subst hs
      rw [tryFromString, encodeWith_ok _ _ (by decide)] at h1
      have h1 := Res.ok.inj h1
      subst h1
      have h3 : (toStr (Scalar.fromBytesModOrder (layout (List.map undoUtf8 []))) : Res ε Bytes) =
          .ok (List.replicate 13 48) := by rfl
      rw [h3] at h2
      cases h2
    · by_contra h0
      obtain ⟨p', t, h3, h4, h5⟩ := C19_27 (ε := ε) s (by omega)
      rw [h1] at h3
      obtain rfl := Res.ok.inj h3
      rw [h2] at h4
      obtain rfl := Res.ok.inj h4
      omega
  · rintro ⟨h1, h2⟩
    exact C19_roundtrip_partial s hd h1 h2

example : ∃ p, tryFromString [49, 52, 49, 53] = .ok p ∧ (toStr p : Res Unit Bytes) = .ok [49, 52, 49, 53] :=
  (C19_roundtrip_iff _ (by simp [Spec.Digit])).2 (by decide)

/-- `String::from` of a decoded phone number panics exactly when the last non-zero byte is ≥ 31. -/
theorem C19_display_panic_iff {ε : Type} (p : Scalar) : (toStr p : Res ε Bytes) = .panic ↔
    ∃ (pre : Bytes) (x : UInt8) (k : ℕ), p.toBytes = pre ++ x :: List.replicate k 0 ∧ 31 ≤ x := by
  constructor
  · intro h
    rw [toStr] at h
    have h31 : 31 ≤ findLength p.toBytes := by
      by_contra hc
      obtain ⟨t, ht, _⟩ := readDigits_ok (ε := ε) p.toBytes (findLength p.toBytes) 2
        (by simp; omega)
      rw [ht] at h
      cases h
    rw [findLength] at h31
    split at h31
    · omega
    · rename_i x hx
      rw [List.find?_eq_some_iff_append] at hx
      obtain ⟨hx0, as, bs, hab, has⟩ := hx
      refine ⟨bs.reverse, x, as.length, ?_, ?_⟩
      · have := congrArg List.reverse hab
        rw [List.reverse_reverse] at this
        rw [this, List.reverse_append, List.reverse_cons]
        have h0 : as = List.replicate as.length 0 := by
          rw [List.eq_replicate_iff]
          refine ⟨rfl, fun y hy => ?_⟩
          have := has y hy
          simpa using this
        rw [List.append_assoc]
        congr 1
        conv_lhs => rw [h0]
        simp
      · exact UInt8.le_iff_toNat_le.2 (by simpa using h31)
  · rintro ⟨pre, x, k, hp, hx⟩
    have hx' : 31 ≤ x.toNat := by simpa using UInt8.le_iff_toNat_le.1 hx
    rw [toStr, hp, findLength_append _ _ (by rintro rfl; simp at hx')]
    apply readDigits_panic _ _ _ (by omega)
    have := congrArg List.length hp
    rw [Scalar.toBytes_length] at this
    omega

/-- Such phone numbers can be decoded from bytes. -/
example : ∃ p, PhoneNumber.fromBytes (List.replicate 31 0 ++ [31]) = .ok p ∧
    (toStr p : Res Unit Bytes) = .panic := by
  refine ⟨_, rfl, ?_⟩
  decide +kernel

theorem readDigits_eq {ε : Type} (b : Bytes) : ∀ (n i : ℕ), i + n ≤ b.length →
    (readDigits b n i : Res ε Bytes) = .ok ((((b.drop i).take n).filter (· ≤ 9)).map (· + 48))
  | 0, i, _ => by simp [readDigits]
  | n + 1, i, h => by
    have hi : (index b i : Res ε UInt8) = .ok (b[i]'(by omega)) := by
      simp [index, List.getElem?_eq_getElem (show i < b.length by omega)]
    rw [readDigits, hi, Res.ok_bind, readDigits_eq b n (i + 1) (by omega), Res.ok_bind,
      List.drop_eq_getElem_cons (show i < b.length by omega), List.take_succ_cons]
    split
    · rename_i h9
      rw [List.filter_cons_of_pos (by simpa using h9)]
      rfl
    · rename_i h9
      rw [List.filter_cons_of_neg (by simpa using h9)]

/-- What is displayed for any number that was decoded: nothing for zero; else, if the last non-zero byte `x` is at most 30,
the digits among the `x` bytes after the first two, as characters. (For larger `x` it panics, `C19_display_panic_iff`.) -/
theorem C19_display {ε : Type} (p : Scalar) :
    (p.toBytes = List.replicate 32 0 → (toStr p : Res ε Bytes) = .ok []) ∧
    ∀ (pre : Bytes) (x : UInt8) (k : ℕ), p.toBytes = pre ++ x :: List.replicate k 0 → x ≠ 0 → x ≤ 30 →
      (toStr p : Res ε Bytes) = .ok ((((p.toBytes.drop 2).take x.toNat).filter (· ≤ 9)).map (· + 48)) := by
  refine ⟨fun h => ?_, fun pre x k h h0 h30 => ?_⟩
  · rw [toStr, h]
    rfl
  · have hx : x.toNat ≤ 30 := by simpa using UInt8.le_iff_toNat_le.1 h30
    rw [toStr, show findLength p.toBytes = x.toNat by rw [h, findLength_append _ _ h0]]
    exact readDigits_eq _ _ _ (by rw [Scalar.toBytes_length]; omega)

/-- Zero, and the number with bytes 5, 6, 7, 200, 8, 3: the `x = 3` bytes are 7, 200, 8. -/
example : (toStr 0 : Res Unit Bytes) = .ok [] ∧
    (toStr (Scalar.fromBytesModOrder ([5, 6, 7, 200, 8, 3] ++ List.replicate 26 0)) : Res Unit Bytes) = .ok [55, 56] :=
  ⟨(C19_display 0).1 rfl, (C19_display _).2 [5, 6, 7, 200, 8] 3 26 rfl (by decide) (by decide)⟩

/-! ## C20 strings -/

/-- The digit value of a character; everything else is 15. -/
def Spec.digitValue (c : UInt8) : UInt8 := if 48 ≤ c ∧ c ≤ 57 then c - 48 else 15

private theorem undo_eq : ∀ c : UInt8, undoUtf8 c = if 48 ≤ c ∧ c ≤ 57 then c - 48 else 15 :=
  forall_byte (by decide +kernel)

/-- `try_from_string` is `try_from_bytes` on the digit values. -/
theorem C20_consistent (s : Bytes) :
    tryFromString s = tryFromBytes (s.map Spec.digitValue) := by
  have e : s.map undoUtf8 = s.map Spec.digitValue := List.map_congr_left fun c _ => undo_eq c
  rw [tryFromString, tryFromBytes]
  by_cases h1 : s.length ≤ 27
  · rw [encodeWith_ok _ _ h1, encodeWith_ok _ _ (by simpa using h1), List.map_id, e]
  · by_cases h2 : s.length ≤ 32
    · rw [encodeWith_panic _ _ (by omega) h2, encodeWith_panic _ _ (by simp; omega) (by simpa using h2)]
    · rw [encodeWith_err _ _ (by omega), encodeWith_err _ _ (by simp; omega)]

/-- Two accepted strings collide exactly when their digit values agree, so exactly when they differ
only in which non-digit characters they contain. -/
theorem C20_collision_iff {a b : Bytes} {s t : Scalar} (ha : tryFromString a = .ok s)
    (hb : tryFromString b = .ok t) : s = t ↔ a.map Spec.digitValue = b.map Spec.digitValue := by
  rw [C20_consistent] at ha hb
  constructor
  · rintro rfl
    exact C17_injective ha hb rfl
  · intro h
    rw [h, hb] at ha
    exact (Res.ok.inj ha).symm

example : ∃ s t, tryFromString [49, 50] = .ok s ∧ tryFromString [49, 51] = .ok t :=
  ⟨_, _, encodeWith_ok _ _ (by decide), encodeWith_ok _ _ (by decide)⟩

/-- Distinct digit strings give distinct numbers. Missing from the full claim: strings with
non-digits, where it is false (`C20_false`). -/
theorem C20_injective_partial {a b : Bytes} {s : Scalar} (ha : tryFromString a = .ok s)
    (hb : tryFromString b = .ok s) (hda : ∀ c ∈ a, Spec.Digit c) (hdb : ∀ c ∈ b, Spec.Digit c) :
    a = b := by
  have h := (C20_collision_iff ha hb).1 rfl
  have inv : ∀ l : Bytes, (∀ c ∈ l, Spec.Digit c) → (l.map Spec.digitValue).map (· + 48) = l := by
    intro l hl
    rw [List.map_map]
    conv_rhs => rw [← List.map_id l]
    apply List.map_congr_left
    intro c hc
    have h1 := hl c hc
    have h2 := digit_cases c h1.1 h1.2
    have h3 : Spec.digitValue c = undoUtf8 c := (undo_eq c).symm
    simp only [Function.comp, h3, id]
    exact h2.2
  rw [← inv a hda, ← inv b hdb, h]

example : ∃ s, tryFromString [48, 50] = .ok s ∧ ∀ c ∈ ([48, 50] : Bytes), 48 ≤ c ∧ c ≤ 57 :=
  ⟨_, encodeWith_ok _ _ (by decide), by decide⟩

/-- "A" and "B" are both accepted, as the same phone number. -/
theorem C20_false : ∃ s, tryFromString [65] = .ok s ∧ tryFromString [66] = .ok s :=
  ⟨_, encodeWith_ok _ _ (by decide), by
    rw [tryFromString, encodeWith_ok _ _ (by decide)]; rfl⟩

/-- The same characters given to the two constructors never agree on a digit string: `try_from_bytes`
stores the ASCII codes, `try_from_string` the digit values. -/
theorem C20_constructors_differ {s : Bytes} {p q : Scalar} (hs : s ≠ [])
    (h1 : tryFromString s = .ok p) (h2 : tryFromBytes s = .ok q) (hd : ∀ c ∈ s, Spec.Digit c) :
    p ≠ q := by
  rintro rfl
  rw [C20_consistent] at h1
  have h := C17_injective h1 h2 rfl
  cases s with
  | nil => exact hs rfl
  | cons c s =>
    have hc := hd c List.mem_cons_self
    have h3 : Spec.digitValue c = c := by
      rw [List.map_cons] at h
      exact (List.cons.inj h).1
    rw [Spec.digitValue, if_pos (show 48 ≤ c ∧ c ≤ 57 from hc)] at h3
    have : ∀ c : UInt8, 48 ≤ c → c ≤ 57 → c - 48 ≠ c :=
      forall_byte (by decide +kernel)
    exact this c hc.1 hc.2 h3

example : ∃ p q, tryFromString [48] = .ok p ∧ tryFromBytes [48] = .ok q :=
  ⟨_, _, encodeWith_ok _ _ (by decide), encodeWith_ok _ _ (by decide)⟩

end Verif
