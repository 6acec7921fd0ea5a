import Verif.Scalar

/-!
# curve25519-dalek `RistrettoPoint` (external crate, assumed)

The laws the model needs from the Ristretto group. They are class fields, i.e. hypotheses visible
in every theorem that uses them, never axioms; `Verif/Toy.lean` gives an instance.
-/

namespace Verif

/-- A group of prime order `ell` with the Ristretto encoding laws (external, not in /repo;
aeonflux/Cargo.toml:30 names the crate). -/
class Ristretto (G : Type) [AddCommGroup G] [Module F G] where
  /-- `RISTRETTO_BASEPOINT_POINT`. -/
  base : G
  base_ne : base ≠ 0
  /-- the group is generated by the basepoint -/
  gen : ∀ P : G, ∃ s : F, P = s • base
  /-- `RistrettoPoint::compress().to_bytes()` -/
  enc : G → Bytes
  /-- `CompressedRistretto(bytes).decompress()` on a 32-byte array -/
  dec : Bytes → Option G
  enc_length : ∀ P, (enc P).length = 32
  dec_enc : ∀ P, dec (enc P) = some P
  enc_of_dec : ∀ b P, dec b = some P → enc P = b
  enc_zero : enc 0 = List.replicate 32 0

export Ristretto (enc dec)

variable {G : Type} [AddCommGroup G] [Module F G] [Ristretto G]

/-- `RISTRETTO_BASEPOINT_POINT` (used in aeonflux/src/parameters.rs:121). -/
abbrev basepoint (G : Type) [AddCommGroup G] [Module F G] [Ristretto G] : G := Ristretto.base

@[simp] theorem enc_length (P : G) : (enc P).length = 32 := Ristretto.enc_length P
@[simp] theorem dec_enc (P : G) : dec (enc P) = some P := Ristretto.dec_enc P
theorem dec_eq_some {b : Bytes} {P : G} : dec b = some P ↔ enc P = b :=
  ⟨Ristretto.enc_of_dec b P, fun h => h ▸ dec_enc P⟩
theorem enc_inj {P Q : G} (h : enc P = enc Q) : P = Q := by
  have := dec_enc P
  rw [h, dec_enc] at this
  exact (Option.some.inj this).symm
@[simp] theorem enc_inj_iff {P Q : G} : enc P = enc Q ↔ P = Q := ⟨enc_inj, fun h => h ▸ rfl⟩

theorem dec_length {b : Bytes} {P : G} (h : dec b = some P) : b.length = 32 := by
  rw [← dec_eq_some.1 h, enc_length]

/-- Any non-identity point generates the group. -/
theorem exists_smul_of_ne_zero {P : G} (hP : P ≠ 0) (Q : G) : ∃ s : F, Q = s • P := by
  obtain ⟨p, rfl⟩ := Ristretto.gen P
  obtain ⟨q, rfl⟩ := Ristretto.gen Q
  have hp : p ≠ 0 := by
    rintro rfl
    exact hP (zero_smul _ _)
  exact ⟨q * p⁻¹, by rw [smul_smul, mul_assoc, inv_mul_cancel₀ hp, mul_one]⟩

omit [Ristretto G] in
theorem smul_right_inj' {P : G} (hP : P ≠ 0) {s t : F} : s • P = t • P ↔ s = t := by
  constructor
  · intro h
    have : (s - t) • P = 0 := by rw [sub_smul, h, sub_self]
    rcases smul_eq_zero.1 this with h | h
    · exact sub_eq_zero.1 h
    · exact absurd h hP
  · rintro rfl; rfl

/-- `CompressedRistretto::from_slice(bytes).decompress()` (aeonflux/src/amacs.rs:177): `from_slice` copies into a 32-byte array
and panics on any other length. -/
def decompressSlice {ε : Type} (bytes : Bytes) : Res ε (Option G) := do
  let arr ← copyFromSlice 32 bytes
  .ok (dec arr)

theorem decompressSlice_of_length {ε : Type} {b : Bytes} (h : b.length = 32) :
    (decompressSlice b : Res ε (Option G)) = .ok (dec b) := by
  simp [decompressSlice, copyFromSlice_ok h]

theorem decompressSlice_of_ne {ε : Type} {b : Bytes} (h : b.length ≠ 32) :
    (decompressSlice b : Res ε (Option G)) = .panic := by
  simp [decompressSlice, copyFromSlice, h]

/-- `RistrettoPoint::multiscalar_mul(scalars, points)` (aeonflux/src/proofs.rs:110; external, the code always passes lists of
equal length). -/
def msm (ss : List Scalar) (ps : List G) : G := (List.zipWith (fun s p => s • p) ss ps).sum

end Verif
