import Mathlib.Data.List.Basic
import Mathlib.Tactic.Ring
import Mathlib.Tactic.Linarith
import Mathlib.Algebra.Order.Ring.Nat

/-!
# Results, panics, byte strings

Conventions used by the whole model (`DESIGN.md`, section 2.1).
-/

namespace Verif

/-- Outcome of a Rust function returning `Result<a, e>` (as `SecretKey::mac`, aeonflux/src/amacs.rs:303-306),
with panics as an explicit value. -/
inductive Res (ε α : Type) where
  | ok (a : α)
  | err (e : ε)
  | panic
  deriving DecidableEq, Repr

namespace Res

variable {ε ε' α β γ : Type}

/-- Sequencing: the `?` operator (as in aeonflux/src/amacs.rs:363; error types equal) and plain
statement order (panics). -/
def bind : Res ε α → (α → Res ε β) → Res ε β
  | ok a, f => f a
  | err e, _ => err e
  | panic, _ => panic

instance : Monad (Res ε) where
  pure := ok
  bind := bind

@[simp] theorem pure_eq (a : α) : (pure a : Res ε α) = ok a := rfl
@[simp] theorem ok_bind (a : α) (f : α → Res ε β) : (ok a >>= f) = f a := rfl
@[simp] theorem err_bind (e : ε) (f : α → Res ε β) : (err e >>= f) = err e := rfl
@[simp] theorem panic_bind (f : α → Res ε β) : ((panic : Res ε α) >>= f) = panic := rfl

/-- `Result::map_err` (Rust standard library), here always the implicit `From::from` conversion of `?`
(as in aeonflux/src/issuer.rs:57). -/
def mapErr (g : ε → ε') : Res ε α → Res ε' α
  | ok a => ok a
  | err e => err (g e)
  | panic => panic

/-- `Result::map` (Rust standard library; a result wrapped in `Ok(..)`, as in
signal-credential/src/phone_number.rs:77). -/
def map (f : α → β) : Res ε α → Res ε β
  | ok a => ok (f a)
  | err e => err e
  | panic => panic

/-- `?` on an `Option` with a fixed conversion of `NoneError` (aeonflux/src/errors.rs:56-60), and the
matches of the same shape (as in aeonflux/src/amacs.rs:177-180). -/
def ofOption (e : ε) : Option α → Res ε α
  | some a => ok a
  | none => err e

/-- `Option::unwrap` (Rust standard library), for the index checks below. -/
def unwrap : Option α → Res ε α
  | some a => ok a
  | none => panic

@[simp] theorem mapErr_ok (g : ε → ε') (a : α) : (ok a).mapErr g = ok a := rfl
@[simp] theorem mapErr_err (g : ε → ε') (e : ε) : (err e : Res ε α).mapErr g = err (g e) := rfl
@[simp] theorem mapErr_panic (g : ε → ε') : (panic : Res ε α).mapErr g = panic := rfl
@[simp] theorem map_ok (f : α → β) (a : α) : (ok a : Res ε α).map f = ok (f a) := rfl
@[simp] theorem map_err (f : α → β) (e : ε) : (err e : Res ε α).map f = err e := rfl
@[simp] theorem map_panic (f : α → β) : (panic : Res ε α).map f = panic := rfl
@[simp] theorem ofOption_some (e : ε) (a : α) : ofOption e (some a) = ok a := rfl
@[simp] theorem ofOption_none (e : ε) : ofOption e (none : Option α) = err e := rfl
@[simp] theorem unwrap_some (a : α) : (unwrap (some a) : Res ε α) = ok a := rfl
@[simp] theorem unwrap_none : (unwrap none : Res ε α) = panic := rfl

/-- Length and index checks of the Rust standard library that panic. -/
@[simp] def assert (p : Prop) [Decidable p] : Res ε Unit := if p then ok () else panic

/-- The call succeeded. -/
def isOk : Res ε α → Bool
  | ok _ => true
  | _ => false

@[simp] theorem isOk_ok (a : α) : (ok a : Res ε α).isOk = true := rfl
@[simp] theorem isOk_err (e : ε) : (err e : Res ε α).isOk = false := rfl
@[simp] theorem isOk_panic : (panic : Res ε α).isOk = false := rfl

theorem bind_eq_ok {x : Res ε α} {f : α → Res ε β} {b : β} :
    (x >>= f) = ok b ↔ ∃ a, x = ok a ∧ f a = ok b := by
  cases x <;> simp

theorem bind_eq_err {x : Res ε α} {f : α → Res ε β} {e : ε} :
    (x >>= f) = err e ↔ x = err e ∨ ∃ a, x = ok a ∧ f a = err e := by
  cases x <;> simp

theorem bind_eq_panic {x : Res ε α} {f : α → Res ε β} :
    (x >>= f) = panic ↔ x = panic ∨ ∃ a, x = ok a ∧ f a = panic := by
  cases x <;> simp

theorem mapErr_eq_ok {g : ε → ε'} {x : Res ε α} {a : α} : x.mapErr g = ok a ↔ x = ok a := by
  cases x <;> simp

theorem mapErr_eq_err {g : ε → ε'} {x : Res ε α} {e : ε'} :
    x.mapErr g = err e ↔ ∃ e0, x = err e0 ∧ g e0 = e := by
  cases x <;> simp

theorem mapErr_eq_panic {g : ε → ε'} {x : Res ε α} : x.mapErr g = panic ↔ x = panic := by
  cases x <;> simp

theorem map_eq_ok {f : α → β} {x : Res ε α} {b : β} : x.map f = ok b ↔ ∃ a, x = ok a ∧ f a = b := by
  cases x <;> simp

theorem map_eq_panic {f : α → β} {x : Res ε α} : x.map f = panic ↔ x = panic := by
  cases x <;> simp

theorem ofOption_eq_ok {e : ε} {x : Option α} {a : α} :
    (ofOption e x = ok a) ↔ x = some a := by
  cases x <;> simp

theorem ofOption_eq_err {e e' : ε} {x : Option α} :
    (ofOption e x = err e') ↔ x = none ∧ e = e' := by
  cases x <;> simp

theorem ofOption_ne_panic {e : ε} {x : Option α} : (ofOption e x) ≠ (panic : Res ε α) := by
  cases x <;> simp

/-- A loop over a list, left to right, stopping at the first error or panic (as in
aeonflux/src/amacs.rs:176-183). -/
def mapM (f : α → Res ε β) : List α → Res ε (List β)
  | [] => ok []
  | a :: as => do
    let b ← f a
    let bs ← mapM f as
    ok (b :: bs)

@[simp] theorem mapM_nil (f : α → Res ε β) : mapM f [] = ok [] := rfl

theorem mapM_cons (f : α → Res ε β) (a : α) (as : List α) :
    mapM f (a :: as) = (f a >>= fun b => mapM f as >>= fun bs => ok (b :: bs)) := rfl

theorem mapM_eq_ok {f : α → Res ε β} : ∀ {as : List α} {bs : List β},
    mapM f as = ok bs ↔ List.Forall₂ (fun a b => f a = ok b) as bs
  | [], [] => by simp
  | [], _ :: _ => by
    simp only [mapM_nil, Res.ok.injEq, List.nil_eq, reduceCtorEq, false_iff]
    rintro ⟨⟩
  | a :: as, bs => by
    rw [mapM_cons, bind_eq_ok]
    constructor
    · rintro ⟨b, hb, h⟩
      rw [bind_eq_ok] at h
      obtain ⟨bs', hbs, h⟩ := h
      cases h
      exact List.Forall₂.cons hb (mapM_eq_ok.1 hbs)
    · intro h
      cases h with
      | cons h1 h2 => exact ⟨_, h1, by rw [mapM_eq_ok.2 h2]; simp⟩

theorem mapM_ne_panic {f : α → Res ε β} {as : List α} (h : ∀ a ∈ as, f a ≠ panic) :
    mapM f as ≠ panic := by
  induction as with
  | nil => simp
  | cons a as ih =>
    rw [mapM_cons]
    intro hp
    rw [bind_eq_panic] at hp
    rcases hp with hp | ⟨b, _, hp⟩
    · exact h a (by simp) hp
    · rw [bind_eq_panic] at hp
      rcases hp with hp | ⟨_, _, hp⟩
      · exact ih (fun a ha => h a (by simp [ha])) hp
      · cases hp

theorem mapM_err_of {f : α → Res ε β} {as : List α} {e : ε} (h : mapM f as = err e) :
    ∃ a ∈ as, f a = err e := by
  induction as with
  | nil => simp at h
  | cons a as ih =>
    rw [mapM_cons, bind_eq_err] at h
    rcases h with h | ⟨b, _, h⟩
    · exact ⟨a, by simp, h⟩
    · rw [bind_eq_err] at h
      rcases h with h | ⟨_, _, h⟩
      · obtain ⟨x, hx, hxe⟩ := ih h
        exact ⟨x, by simp [hx], hxe⟩
      · cases h

end Res

/-! ## Byte strings -/

/-- `&[u8]`, `Vec<u8>` and `[u8; N]` (Rust types, not in /repo). -/
abbrev Bytes := List UInt8

/-- The number denoted by a little-endian byte string. -/
def leVal : Bytes → ℕ
  | [] => 0
  | b :: bs => b.toNat + 256 * leVal bs

/-- The `k`-byte little-endian representation of `n` (modulo `256^k`). -/
def leBytes : ℕ → ℕ → Bytes
  | 0, _ => []
  | k + 1, n => UInt8.ofNat n :: leBytes k (n / 256)

@[simp] theorem leVal_nil : leVal [] = 0 := rfl
@[simp] theorem leVal_cons (b : UInt8) (bs : Bytes) : leVal (b :: bs) = b.toNat + 256 * leVal bs :=
  rfl

@[simp] theorem leBytes_length (k n : ℕ) : (leBytes k n).length = k := by
  induction k generalizing n with
  | zero => rfl
  | succ k ih => simp [leBytes, ih]

theorem leVal_lt (b : Bytes) : leVal b < 256 ^ b.length := by
  induction b with
  | nil => simp
  | cons x xs ih =>
    have hx : x.toNat < 256 := x.toNat_lt
    simp only [leVal_cons, List.length_cons, pow_succ]
    omega

theorem leVal_leBytes (k n : ℕ) : leVal (leBytes k n) = n % 256 ^ k := by
  induction k generalizing n with
  | zero => simp [leBytes, Nat.mod_one]
  | succ k ih =>
    have h1 : (UInt8.ofNat n).toNat = n % 256 := by simp
    rw [leBytes, leVal_cons, ih, h1, pow_succ, mul_comm (256 ^ k) 256, Nat.mod_mul]

theorem leVal_leBytes_of_lt {k n : ℕ} (h : n < 256 ^ k) : leVal (leBytes k n) = n := by
  rw [leVal_leBytes, Nat.mod_eq_of_lt h]

theorem leBytes_leVal (b : Bytes) : leBytes b.length (leVal b) = b := by
  induction b with
  | nil => rfl
  | cons x xs ih =>
    have hx : x.toNat < 256 := x.toNat_lt
    have h1 : (x.toNat + 256 * leVal xs) / 256 = leVal xs := by omega
    have h2 : UInt8.ofNat (x.toNat + 256 * leVal xs) = x := by
      apply UInt8.toNat_inj.1
      simp
    simp [leBytes, h1, h2, ih]

theorem leVal_inj {a b : Bytes} (hlen : a.length = b.length) (h : leVal a = leVal b) : a = b := by
  rw [← leBytes_leVal a, ← leBytes_leVal b, hlen, h]

theorem leBytes_inj {k m n : ℕ} (hm : m < 256 ^ k) (hn : n < 256 ^ k)
    (h : leBytes k m = leBytes k n) : m = n := by
  rw [← leVal_leBytes_of_lt hm, ← leVal_leBytes_of_lt hn, h]

theorem leVal_append (a b : Bytes) : leVal (a ++ b) = leVal a + 256 ^ a.length * leVal b := by
  induction a with
  | nil => simp
  | cons x xs ih =>
    simp only [List.cons_append, leVal_cons, ih, List.length_cons, pow_succ]
    ring

theorem leVal_replicate_zero (n : ℕ) : leVal (List.replicate n 0) = 0 := by
  induction n with
  | zero => rfl
  | succ n ih => simp [List.replicate_succ, ih]

theorem leBytes_zero (k : ℕ) : leBytes k 0 = List.replicate k 0 := by
  induction k with
  | zero => rfl
  | succ k ih => simp [leBytes, ih, List.replicate_succ]

/-- `&bytes[a..b]` (as in aeonflux/src/amacs.rs:134): panics unless `a ≤ b ≤ len`. -/
def slice {ε : Type} (bytes : Bytes) (a b : ℕ) : Res ε Bytes :=
  if a ≤ b ∧ b ≤ bytes.length then .ok ((bytes.drop a).take (b - a)) else .panic

/-- `&bytes[a..]` (as in aeonflux/src/credential.rs:90): panics unless `a ≤ len`. -/
def sliceFrom {ε : Type} (bytes : Bytes) (a : ℕ) : Res ε Bytes :=
  if a ≤ bytes.length then .ok (bytes.drop a) else .panic

/-- `array.copy_from_slice(src)` into a fresh `[0u8; n]` (as in aeonflux/src/amacs.rs:134): panics
unless the lengths agree. -/
def copyFromSlice {ε : Type} (n : ℕ) (src : Bytes) : Res ε Bytes :=
  if src.length = n then .ok src else .panic

theorem slice_ok {ε : Type} {bytes : Bytes} {a b : ℕ} (h1 : a ≤ b) (h2 : b ≤ bytes.length) :
    (slice bytes a b : Res ε Bytes) = .ok ((bytes.drop a).take (b - a)) := by
  simp [slice, h1, h2]

theorem sliceFrom_ok {ε : Type} {bytes : Bytes} {a : ℕ} (h : a ≤ bytes.length) :
    (sliceFrom bytes a : Res ε Bytes) = .ok (bytes.drop a) := by
  simp [sliceFrom, h]

theorem copyFromSlice_ok {ε : Type} {n : ℕ} {src : Bytes} (h : src.length = n) :
    (copyFromSlice n src : Res ε Bytes) = .ok src := by
  simp [copyFromSlice, h]

/-- `v[i]` on a vector (as in aeonflux/src/issuer.rs:206): panics when out of range. -/
def index {ε α : Type} (l : List α) (i : ℕ) : Res ε α := Res.unwrap l[i]?

theorem index_ok {ε α : Type} {l : List α} {i : ℕ} (h : i < l.length) :
    (index l i : Res ε α) = .ok l[i] := by
  simp [index, h]

/-- `bytes.chunks(32)` (as in aeonflux/src/amacs.rs:176): consecutive 32-byte pieces, the last one possibly shorter. -/
def chunks32 (b : Bytes) : List Bytes :=
  if _h : b = [] then [] else b.take 32 :: chunks32 (b.drop 32)
termination_by b.length
decreasing_by
  have := List.length_pos_iff.2 _h
  simp only [List.length_drop]
  omega

@[simp] theorem chunks32_nil : chunks32 [] = [] := by
  rw [chunks32]; simp

theorem chunks32_append {x : Bytes} (hx : x.length = 32) (rest : Bytes) :
    chunks32 (x ++ rest) = x :: chunks32 rest := by
  have hne : x ++ rest ≠ [] := by
    intro h
    have := congrArg List.length h
    simp [hx] at this
  rw [chunks32, dif_neg hne]
  congr 1
  · rw [List.take_append_of_le_length (by omega), List.take_of_length_le (by omega)]
  · rw [List.drop_append_of_le_length (by omega), List.drop_of_length_le (by omega)]
    simp

theorem chunks32_flatten {xs : List Bytes} (h : ∀ x ∈ xs, x.length = 32) :
    chunks32 xs.flatten = xs := by
  induction xs with
  | nil => simp
  | cons x xs ih =>
    rw [List.flatten_cons, chunks32_append (h x (by simp)), ih (fun y hy => h y (by simp [hy]))]

theorem flatten_chunks32 (b : Bytes) : (chunks32 b).flatten = b := by
  induction hn : b.length using Nat.strong_induction_on generalizing b with
  | _ n ih =>
    by_cases hb : b = []
    · simp [hb]
    · rw [chunks32, dif_neg hb, List.flatten_cons]
      have hpos := List.length_pos_iff.2 hb
      rw [ih (b.drop 32).length (by rw [List.length_drop]; omega) _ rfl]
      exact List.take_append_drop 32 b

theorem chunks32_length_of_dvd (b : Bytes) (h : b.length % 32 = 0) :
    ∀ c ∈ chunks32 b, c.length = 32 := by
  induction hn : b.length using Nat.strong_induction_on generalizing b with
  | _ n ih =>
    by_cases hb : b = []
    · simp [hb]
    · rw [chunks32, dif_neg hb]
      have hpos := List.length_pos_iff.2 hb
      have h32 : 32 ≤ b.length := by omega
      intro c hc
      rcases List.mem_cons.1 hc with rfl | hc
      · rw [List.length_take]; omega
      · refine ih (b.drop 32).length (by rw [List.length_drop]; omega) _ ?_ rfl c hc
        rw [List.length_drop]; omega

theorem chunks32_ne_nil {b : Bytes} (h : b ≠ []) : chunks32 b ≠ [] := by
  rw [chunks32, dif_neg h]; simp

theorem chunks32_count (b : Bytes) (h : b.length % 32 = 0) :
    b.length = 32 * (chunks32 b).length := by
  have h1 := congrArg List.length (flatten_chunks32 b)
  rw [← h1, List.length_flatten]
  have : (chunks32 b).map List.length = List.replicate (chunks32 b).length 32 := by
    apply List.eq_replicate_iff.2
    refine ⟨by simp, ?_⟩
    intro n hn
    obtain ⟨c, hc, rfl⟩ := List.mem_map.1 hn
    exact chunks32_length_of_dvd b h c hc
  rw [this]; simp [mul_comm]

end Verif
