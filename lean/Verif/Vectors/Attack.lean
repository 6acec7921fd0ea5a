import Verif.Props.Soundness
import Verif.Vectors.Data

/-!
# A forged presentation, in bytes

`C41_signal_forgery` on the repository's own issuer: 448 bytes made from `SYSTEM_PARAMETERS` and
`ISSUER_PARAMETERS` only, without credential and without secret key, that `issuer_verify` and
`issuer_verify_roster_membership` accept, for the phone number of the tests. A demonstration, not a
property; not in the manifest.
-/

namespace Verif.Vectors

open Concrete Curve

set_option maxRecDepth 100000

/-- The forgery. Bytes 64 to 95 are the identity, as rerandomised nonce. -/
def forged : Bytes :=
  [238, 168, 152, 251, 29, 166, 37, 157, 143, 46, 253, 76, 187, 97, 153, 2, 139, 199, 217, 232,
    52, 152, 125, 56, 156, 233, 214, 27, 151, 5, 82, 100, 84, 181, 255, 94, 211, 25, 143, 102,
    144, 13, 244, 211, 90, 77, 172, 61, 200, 22, 214, 165, 250, 49, 46, 122, 45, 197, 20, 90,
    69, 43, 247, 67, 0, 0, 0, 0, 0, 0, 0, 0, 0, 0, 0, 0, 0, 0, 0, 0, 0, 0, 0, 0, 0, 0, 0, 0, 0,
    0, 0, 0, 0, 0, 0, 0, 80, 160, 83, 17, 229, 172, 128, 248, 90, 174, 62, 216, 171, 111, 48,
    71, 250, 224, 186, 52, 30, 124, 220, 10, 13, 120, 215, 128, 7, 36, 142, 84, 32, 0, 0, 0, 0,
    0, 0, 0, 24, 144, 28, 176, 125, 9, 129, 212, 81, 66, 110, 28, 179, 11, 223, 179, 121, 178,
    70, 85, 62, 123, 156, 161, 248, 166, 192, 64, 104, 174, 111, 9, 32, 0, 0, 0, 0, 0, 0, 0, 81,
    128, 107, 212, 52, 89, 137, 138, 106, 210, 61, 156, 119, 89, 209, 234, 177, 176, 254, 190,
    117, 67, 143, 214, 210, 99, 177, 168, 7, 244, 178, 2, 32, 0, 0, 0, 0, 0, 0, 0, 32, 211, 109,
    68, 216, 232, 204, 87, 143, 92, 179, 231, 237, 103, 20, 46, 44, 233, 21, 138, 179, 234, 105,
    105, 155, 114, 8, 120, 123, 146, 135, 3, 32, 0, 0, 0, 0, 0, 0, 0, 9, 238, 90, 55, 188, 68,
    112, 205, 15, 137, 56, 103, 199, 128, 5, 93, 2, 140, 237, 255, 38, 183, 177, 254, 217, 229,
    2, 158, 116, 180, 23, 15, 32, 0, 0, 0, 0, 0, 0, 0, 216, 50, 7, 230, 41, 207, 156, 76, 61,
    139, 8, 148, 141, 254, 246, 62, 167, 85, 145, 116, 189, 6, 225, 121, 162, 194, 123, 113, 91,
    243, 238, 13, 32, 0, 0, 0, 0, 0, 0, 0, 63, 186, 62, 36, 41, 108, 101, 147, 215, 8, 150, 153,
    185, 139, 209, 225, 169, 78, 155, 212, 12, 116, 44, 164, 37, 45, 253, 82, 165, 200, 243, 11,
    32, 0, 0, 0, 0, 0, 0, 0, 232, 214, 105, 174, 18, 186, 19, 146, 142, 133, 102, 224, 223, 225,
    7, 98, 224, 171, 72, 92, 128, 58, 180, 159, 83, 74, 117, 13, 103, 106, 102, 7, 32, 0, 0, 0,
    0, 0, 0, 0, 251, 21, 92, 87, 116, 61, 188, 253, 85, 1, 169, 53, 105, 73, 202, 90, 22, 167,
    41, 220, 183, 142, 177, 202, 8, 34, 204, 52, 34, 196, 113, 5]

/-- The forgery is what `Spec.forgedSignal` makes from the published parameters, with blindings 2, 3
and 4. -/
theorem forged_eq : (do
    let g ← (dec (systemParameters.take 32) : Option Pt)
    let h ← (dec (systemParameters.drop 32) : Option Pt)
    let X ← (dec issuerParameters : Option Pt)
    let .ok m := PhoneNumber.tryFromBytes number | none
    some (Spec.forgedSignal merlin ⟨g, h⟩ X m (Scalar.ofF 2) (Scalar.ofF 3) (Scalar.ofF 4)
      (List.replicate 32 5) (List.replicate 32 6)).toBytes) = some forged := by
  decide +kernel

/-- `issuer_verify` accepts the forgery. -/
theorem forged_issuer_verify :
    Ffi.issuerVerifyBody Pt merlin platform (memory.write 9216 forged) 6144 160 9216 448 =
      .ok forged := by
  decide +kernel

/-- `issuer_verify_roster_membership` accepts it too. -/
theorem forged_roster_membership :
    Ffi.issuerVerifyRosterMembershipBody Pt merlin platform (memory.write 9216 forged) 6144 160 9216
      448 = .ok (forged.take 32) := by
  decide +kernel

end Verif.Vectors
