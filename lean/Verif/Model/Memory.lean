import Verif.Model.Amacs
import Verif.Model.Parameters

/-!
# Memory

A byte-addressed memory, used for the erasing `Drop` implementations (C59) and for the C interface
(C51–C56). Address 0 is the null pointer. Simplification: addresses are unbounded naturals; the
width of `usize` enters only where `ffi` casts a length (`Verif/Model/Ffi.lean`).
-/

namespace Verif

/-- The byte at each address (the machine, not in /repo); `none` where the program has no right to read (never allocated, or
already freed). -/
abbrev Mem := ℕ → Option UInt8

namespace Mem

/-- Read `n` bytes (the machine, not in /repo); `none` if one of them is not readable. -/
def read (m : Mem) (p : ℕ) : ℕ → Option Bytes
  | 0 => some []
  | n + 1 => do
    let b ← m p
    let bs ← read m (p + 1) n
    some (b :: bs)

/-- Write bytes at an address (the machine, not in /repo). -/
def write (m : Mem) (p : ℕ) (b : Bytes) : Mem := fun a =>
  if p ≤ a ∧ a < p + b.length then b[a - p]? else m a

/-- Deallocate `n` bytes (the machine, not in /repo). -/
def free (m : Mem) (p n : ℕ) : Mem := fun a => if p ≤ a ∧ a < p + n then none else m a

/-- `clear_on_drop`'s `Clear::clear` (called in amacs.rs:215) on a 32-byte `Scalar` stored at `p`: overwritten by
`Scalar::default()`, i.e. zero bytes. -/
def clearScalar (m : Mem) (p : ℕ) : Mem := m.write p (List.replicate 32 0)

/-- `for scalar in v.iter_mut() { scalar.clear(); }` (amacs.rs:217-219) on a vector of `n` scalars stored at `p`. -/
def clearScalars (m : Mem) (p : ℕ) : ℕ → Mem
  | 0 => m
  | n + 1 => clearScalars (m.clearScalar p) (p + 32) n

/-- `Drop for amacs::SecretKey` (amacs.rs:212-221): `x0` is stored at `px0`, the buffer of the vector
`xn` of length `n` at `pxn`. -/
def dropMacSecretKey (m : Mem) (px0 pxn n : ℕ) : Mem := (m.clearScalar px0).clearScalars pxn n

/-- `Drop for Rerandomization` (amacs.rs:437-441), `Drop for elgamal::SecretKey`
(elgamal.rs:191-195), `Drop for Ephemeral` (nonces.rs:63-67): all three clear their one scalar. -/
def dropScalar (m : Mem) (p : ℕ) : Mem := m.clearScalar p

/-- `Drop for Nonces` (nonces.rs:160-166) followed by the compiler-generated drops of the elements,
each of which runs `Drop for Ephemeral` again. -/
def dropNonces (m : Mem) (p n : ℕ) : Mem := (m.clearScalars p n).clearScalars p n

end Mem

end Verif
