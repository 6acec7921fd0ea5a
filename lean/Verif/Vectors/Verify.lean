import Verif.Vectors.Data

/-!
# Vectors: presentations (`c.rs:477-490`)
-/

namespace Verif.Vectors

open Concrete Curve

set_option maxRecDepth 100000

/-- `issuer_verify` accepts `PRESENTATION` (c.rs:477-490). -/
theorem vector_issuer_verify :
    Ffi.issuerVerifyBody Pt merlin platform memory 6144 160 9216 448 = .ok presentation := by
  decide +kernel

/-- The proof of roster membership in `PRESENTATION` is accepted as well. -/
theorem vector_issuer_verify_roster_membership :
    Ffi.issuerVerifyRosterMembershipBody Pt merlin platform memory 6144 160 9216 448 =
      .ok (presentation.take 32) := by
  decide +kernel

/-- One bit of a response changed: `issuer_verify` returns the empty buffer. -/
theorem vector_issuer_verify_rejects :
    Ffi.issuerVerifyBody Pt merlin platform (memory.write (9216 + 200) [presentation[200] ^^^ 1])
      6144 160 9216 448 = .err .empty := by
  decide +kernel

end Verif.Vectors
