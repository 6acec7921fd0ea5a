import Verif.Group

/-!
# merlin transcripts and random number generators (external crates, abstract)

A `merlin::Transcript` is a STROBE sponge. It is modelled by the list of operations performed on it;
the sponge output is an arbitrary function of that list (`Oracle`), fixed for a run. Everything is
proved for all oracles, so no property of the hash is assumed except output lengths.
-/

namespace Verif

/-- `"...".as_bytes()` for an ASCII literal (as in aeonflux/src/proofs.rs:88). -/
def ascii (s : String) : Bytes := s.toList.map fun c => UInt8.ofNat c.toNat

/-- One operation on a merlin transcript (external; used in aeonflux/src/proofs.rs:88-127; labels are ASCII string literals in the code, kept as `String` here). -/
inductive Op where
  /-- `Transcript::new(label)` -/
  | init (label : String)
  /-- `commit_bytes(label, data)` -/
  | commit (label : String) (data : Bytes)
  /-- `challenge_bytes(label, &mut [u8; n])` -/
  | challenge (label : String) (n : ℕ)
  deriving DecidableEq

/-- A transcript (as created in aeonflux/src/issuer.rs:154): its operations, oldest first. -/
abbrev Transcript := List Op

/-- The sponge (external, not in /repo): challenge bytes, and the bytes of a transcript RNG. -/
structure Oracle where
  /-- output of `challenge_bytes(label, n)` after the given operations -/
  chal : Transcript → String → ℕ → Bytes
  chal_length : ∀ t l n, (chal t l n).length = n
  /-- output of `TranscriptRng::fill_bytes(n)` for an RNG forked from the given transcript, rekeyed
  with the given witnesses and 32 bytes of entropy, after the given sequence of earlier draws -/
  rng : Transcript → List (String × Bytes) → Bytes → List ℕ → ℕ → Bytes
  rng_length : ∀ t w e d n, (rng t w e d n).length = n

/-- `rand_core::RngCore` (external, not in /repo): `fill_bytes` on a buffer of `n` bytes. -/
class RngCore (R : Type) where
  fill : R → ℕ → Bytes × R
  fill_length : ∀ r n, (fill r n).1.length = n

/-- `merlin::TranscriptRng` (as obtained in aeonflux/src/proofs.rs:95-102). -/
structure TRng where
  oracle : Oracle
  ops : Transcript
  witnesses : List (String × Bytes)
  entropy : Bytes
  drawn : List ℕ

/-- Drawing from a `TranscriptRng` (external, not in /repo). -/
instance : RngCore TRng where
  fill r n := (r.oracle.rng r.ops r.witnesses r.entropy r.drawn n, { r with drawn := r.drawn ++ [n] })
  fill_length r _ := r.oracle.rng_length _ _ _ _ _

/-- `Scalar::random(&mut rng)` (as in aeonflux/src/amacs.rs:230): 64 bytes, reduced. -/
def Scalar.random {R : Type} [RngCore R] (r : R) : Scalar × R :=
  let (b, r') := RngCore.fill r 64
  (Scalar.fromWide b, r')

@[simp] theorem Scalar.reduced_random {R : Type} [RngCore R] (r : R) :
    (Scalar.random r).1.Reduced := by
  simp [Scalar.random]

/-- `transcript.fork_transcript().commit_witness_bytes(..)*.reseed_from_rng(rng)`
(aeonflux/src/proofs.rs:95-102): draws 32 bytes of
entropy from `rng`. -/
def forkReseed {R : Type} [RngCore R] (O : Oracle) (t : Transcript) (wits : List (String × Bytes))
    (rng : R) : TRng × R :=
  let (e, rng') := RngCore.fill rng 32
  ({ oracle := O, ops := t, witnesses := wits, entropy := e, drawn := [] }, rng')

end Verif
