import Verif.Vectors.Data

/-!
# Vectors: issuing and showing (`c.rs:459-527`)

Proofs are made with entropy from `thread_rng()`, so the tests of the repository only check the length
of what `issuer_issue` and `user_show` return. What comes before the proofs depends on `SEED` only.
-/

namespace Verif.Vectors

open Concrete Curve

set_option maxRecDepth 100000

/-- Some value for what `thread_rng()` yields. -/
def entropy : Bytes := List.replicate 32 7

/-- Length and first bytes of the result of a call. -/
def summary (n : ℕ) (r : Res Ffi.Exit Bytes) : Option (ℕ × Bytes) :=
  match r with
  | .ok b => some (b.length, b.take n)
  | _ => none

/-- `issuer_issue` (c.rs:459-473): the length, and the commitment, the MAC and the attribute in
`ISSUANCE`. -/
theorem vector_issuer_issue :
    summary 128 (Ffi.issuerIssueBody Pt ChaChaRng merlin platform memory 6144 160 2048 11 1024
      entropy) = some (328, issuance.take 128) := by
  decide +kernel

/-- `user_obtain_finish` accepts `ISSUANCE` and yields `USER_WITH_CREDENTIAL` (c.rs:494-507). -/
theorem vector_user_obtain_finish :
    Ffi.userObtainFinishBody Pt merlin platform memory 2048 11 3072 64 4096 32 7168 328 =
      .ok userWithCredential := by
  decide +kernel

/-- `roster_entry_commitment_create` and `user_show` (c.rs:510-527): the length, and the roster entry,
the rerandomized MAC and the commitment in `PRESENTATION`. -/
theorem vector_user_show :
    (match Ffi.rosterEntryCommitmentCreateBody Pt ChaChaRng platform memory 2048 11 3072 64 1024 with
      | .ok entry => summary 128 (Ffi.userShowBody Pt ChaChaRng merlin platform
          (memory.write 10240 entry) 8192 288 10240 64 1024 entropy entropy)
      | _ => none) = some (448, presentation.take 128) := by
  decide +kernel

end Verif.Vectors
