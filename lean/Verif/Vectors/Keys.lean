import Verif.Vectors.Data

/-!
# Vectors: parameters and keys (`c.rs:396-455`)
-/

namespace Verif.Vectors

open Concrete Curve

set_option maxRecDepth 100000

/-- The base point is the one of `c.rs:290-294`. -/
theorem vector_basepoint : Ristretto.enc (Ristretto.base : Pt) = basepoint := by decide +kernel

/-- `system_parameters_create` with `SEED` yields `SYSTEM_PARAMETERS` (c.rs:396-406). -/
theorem vector_system_parameters_create :
    Ffi.systemParametersCreateBody Pt ChaChaRng 64 memory 1024 = .ok systemParameters := by
  decide +kernel

/-- `issuer_create` yields `ISSUER_KEYPAIR` (c.rs:409-418). -/
theorem vector_issuer_create :
    Ffi.issuerCreateBody Pt ChaChaRng platform memory 3072 64 1024 = .ok issuerKeypair := by
  decide +kernel

/-- `issuer_new` (c.rs:421-435). -/
theorem vector_issuer_new :
    Ffi.issuerNewBody Pt platform memory 3072 64 5120 96 = .ok issuer := by
  decide +kernel

/-- `issuer_get_issuer_parameters` yields `ISSUER_PARAMETERS` (c.rs:439-455). -/
theorem vector_issuer_get_issuer_parameters :
    Ffi.issuerGetIssuerParametersBody Pt platform memory 6144 160 = .ok issuerParameters := by
  decide +kernel

end Verif.Vectors
