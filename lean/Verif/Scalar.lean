import Verif.Basic
import Verif.Prime
import Mathlib.Algebra.Module.Basic

/-!
# curve25519-dalek `Scalar` (external crate, modelled)

A `Scalar` is 32 bytes with the top bit clear. Arithmetic always returns the reduced representative
modulo the group order; `from_bits` can create unreduced values. Equality in dalek is equality of
the 32 bytes, which is equality of the number `n` here.
-/

namespace Verif

/-- The prime field of scalars (mathematics, not in /repo). -/
abbrev F := ZMod ell

/-- curve25519-dalek `Scalar` (external, not in /repo): the number denoted by its 32 bytes, always below `2^255`. -/
@[ext] structure Scalar where
  n : ℕ
  lt : n < 2 ^ 255
  deriving DecidableEq

namespace Scalar

/-- The residue denoted by a scalar (not in /repo). -/
def val (s : Scalar) : F := (s.n : F)

/-- The reduced representative of a residue (what every arithmetic operation of curve25519-dalek
returns). -/
def ofF (x : F) : Scalar := ⟨x.val, lt_trans (ZMod.val_lt x) (by norm_num [ell])⟩

/-- The bytes are the canonical (reduced) representative, as checked by curve25519-dalek's
`from_canonical_bytes`. -/
def Reduced (s : Scalar) : Prop := s.n < ell

instance (s : Scalar) : Decidable s.Reduced := inferInstanceAs (Decidable (s.n < ell))

@[simp] theorem val_ofF (x : F) : (ofF x).val = x := by
  simp [val, ofF]

@[simp] theorem reduced_ofF (x : F) : (ofF x).Reduced := ZMod.val_lt x

theorem ofF_val {s : Scalar} (h : s.Reduced) : ofF s.val = s := by
  apply Scalar.ext
  simp only [ofF, val]
  exact ZMod.val_cast_of_lt h

theorem ofF_inj {x y : F} (h : ofF x = ofF y) : x = y := by
  rw [← val_ofF x, h, val_ofF]

@[simp] theorem ofF_inj_iff {x y : F} : ofF x = ofF y ↔ x = y := ⟨ofF_inj, fun h => by rw [h]⟩

theorem val_inj_of_reduced {s t : Scalar} (hs : s.Reduced) (ht : t.Reduced) (h : s.val = t.val) :
    s = t := by
  rw [← ofF_val hs, ← ofF_val ht, h]

/-- `Scalar::zero()` (external). -/
instance : Zero Scalar := ⟨⟨0, by norm_num⟩⟩
/-- `Scalar::one()` (external). -/
instance : One Scalar := ⟨⟨1, by norm_num⟩⟩
/-- `&a + &b` and the other operators (external; used as in aeonflux/src/proofs.rs:128-133). -/
instance : Add Scalar := ⟨fun a b => ofF (a.val + b.val)⟩
instance : Sub Scalar := ⟨fun a b => ofF (a.val - b.val)⟩
instance : Mul Scalar := ⟨fun a b => ofF (a.val * b.val)⟩
instance : Neg Scalar := ⟨fun a => ofF (-a.val)⟩
instance : Inhabited Scalar := ⟨0⟩

@[simp] theorem n_zero : (0 : Scalar).n = 0 := rfl
@[simp] theorem n_one : (1 : Scalar).n = 1 := rfl
@[simp] theorem val_zero : (0 : Scalar).val = 0 := by simp [val]
@[simp] theorem val_one : (1 : Scalar).val = 1 := by simp [val]
theorem add_def (a b : Scalar) : a + b = ofF (a.val + b.val) := rfl
theorem sub_def (a b : Scalar) : a - b = ofF (a.val - b.val) := rfl
theorem mul_def (a b : Scalar) : a * b = ofF (a.val * b.val) := rfl
theorem neg_def (a : Scalar) : -a = ofF (-a.val) := rfl
@[simp] theorem val_add (a b : Scalar) : (a + b).val = a.val + b.val := val_ofF _
@[simp] theorem val_sub (a b : Scalar) : (a - b).val = a.val - b.val := val_ofF _
@[simp] theorem val_mul (a b : Scalar) : (a * b).val = a.val * b.val := val_ofF _
@[simp] theorem val_neg (a : Scalar) : (-a).val = -a.val := val_ofF _
@[simp] theorem reduced_zero : (0 : Scalar).Reduced := ell_pos
@[simp] theorem reduced_one : (1 : Scalar).Reduced := ell_prime.one_lt
@[simp] theorem reduced_add (a b : Scalar) : (a + b).Reduced := reduced_ofF _
@[simp] theorem reduced_sub (a b : Scalar) : (a - b).Reduced := reduced_ofF _
@[simp] theorem reduced_mul (a b : Scalar) : (a * b).Reduced := reduced_ofF _
@[simp] theorem reduced_neg (a : Scalar) : (-a).Reduced := reduced_ofF _

/-- `Scalar::to_bytes` / `as_bytes` (external; used in signal-credential/src/phone_number.rs:81). -/
def toBytes (s : Scalar) : Bytes := leBytes 32 s.n

@[simp] theorem toBytes_length (s : Scalar) : s.toBytes.length = 32 := leBytes_length _ _

theorem leVal_toBytes (s : Scalar) : leVal s.toBytes = s.n :=
  leVal_leBytes_of_lt (lt_trans s.lt (by norm_num))

theorem toBytes_inj {s t : Scalar} (h : s.toBytes = t.toBytes) : s = t := by
  apply Scalar.ext
  rw [← leVal_toBytes, h, leVal_toBytes]

/-- `Scalar::from_bits([u8; 32])` (external; used in signal-credential/src/phone_number.rs:77): clears the top bit, does not reduce. -/
def fromBits (b : Bytes) : Scalar := ⟨leVal b % 2 ^ 255, Nat.mod_lt _ (by norm_num)⟩

/-- `Scalar::from_canonical_bytes([u8; 32])` (external; used in aeonflux/src/amacs.rs:256). -/
def fromCanonical (b : Bytes) : Option Scalar :=
  if h : leVal b < ell then some ⟨leVal b, lt_trans h (by norm_num [ell])⟩ else none

/-- `Scalar::from_bytes_mod_order([u8; 32])` (external; used in
signal-credential/src/phone_number.rs:170). -/
def fromBytesModOrder (b : Bytes) : Scalar := ofF (leVal b : F)

/-- `Scalar::from_bytes_mod_order_wide(&[u8; 64])` (external; used in aeonflux/src/proofs.rs:126). -/
def fromWide (b : Bytes) : Scalar := ofF (leVal b : F)

@[simp] theorem fromBits_toBytes (s : Scalar) : fromBits s.toBytes = s := by
  apply Scalar.ext
  simp only [fromBits, leVal_toBytes]
  exact Nat.mod_eq_of_lt s.lt

theorem toBytes_fromBits {b : Bytes} (hlen : b.length = 32) (h : leVal b < 2 ^ 255) :
    (fromBits b).toBytes = b := by
  simp only [toBytes, fromBits]
  rw [Nat.mod_eq_of_lt h, ← hlen, leBytes_leVal]

theorem fromCanonical_toBytes {s : Scalar} (h : s.Reduced) : fromCanonical s.toBytes = some s := by
  have h' : leVal s.toBytes < ell := by rw [leVal_toBytes]; exact h
  rw [fromCanonical, dif_pos h']
  exact congrArg some (Scalar.ext (leVal_toBytes s))

theorem fromCanonical_eq_some {b : Bytes} (hlen : b.length = 32) {s : Scalar} :
    fromCanonical b = some s ↔ s.Reduced ∧ s.toBytes = b := by
  constructor
  · intro h
    rw [fromCanonical] at h
    split at h
    · rename_i hlt
      cases h
      refine ⟨hlt, ?_⟩
      simp only [toBytes]
      rw [← hlen, leBytes_leVal]
    · cases h
  · rintro ⟨hr, rfl⟩
    exact fromCanonical_toBytes hr

@[simp] theorem reduced_fromWide (b : Bytes) : (fromWide b).Reduced := reduced_ofF _
@[simp] theorem reduced_fromBytesModOrder (b : Bytes) : (fromBytesModOrder b).Reduced :=
  reduced_ofF _

theorem fromBytesModOrder_n (b : Bytes) : (fromBytesModOrder b).n = leVal b % ell := by
  simp [fromBytesModOrder, ofF, ZMod.val_natCast]

theorem fromWide_n (b : Bytes) : (fromWide b).n = leVal b % ell := by
  simp [fromWide, ofF, ZMod.val_natCast]

theorem ofF_eq_zero_iff {x : F} : ofF x = 0 ↔ x = 0 := by
  constructor
  · intro h
    have := congrArg val h
    simpa using this
  · rintro rfl
    apply Scalar.ext
    simp [ofF]

/-- `&scalar * &point` (and `&point * &scalar`) (external; used in aeonflux/src/amacs.rs:312). -/
instance {G : Type} [SMul F G] : SMul Scalar G := ⟨fun s P => s.val • P⟩

theorem smul_def {G : Type} [SMul F G] (s : Scalar) (P : G) : s • P = s.val • P := rfl

end Scalar

end Verif
