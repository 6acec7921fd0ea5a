import Verif.Concrete.ChaCha
import Verif.Curve.Pt
import Verif.Model.Ffi

/-!
# The byte arrays of the repository's own tests (`ffi/src/c.rs:286-378`)

The files in this directory do not prove properties of the code for all inputs. They test the model:
they run it, inside the kernel, on the real group, the real transcript hash and the real random number
generator, and compare with the byte arrays that the repository contains. A model with a wrong label, a
wrong order of fields or a wrong equation does not reproduce them.
-/

namespace Verif.Vectors

open Concrete Curve

/-- `RISTRETTO_BASEPOINT_COMPRESSED` (c.rs:290-294). -/
def basepoint : Bytes :=
  [226, 242, 174, 10, 106, 188, 78, 113, 168, 132, 169, 97, 197, 0, 81, 95, 88, 227, 11, 106,
    165, 130, 221, 141, 182, 166, 89, 69, 224, 141, 45, 118]

/-- `SEED` (c.rs:296-299). -/
def seed : Bytes :=
  [0, 1, 2, 3, 4, 5, 6, 7, 8, 9, 10, 11, 12, 13, 14, 15, 16, 17, 18, 19, 20, 21, 22, 23, 24, 25,
    26, 27, 28, 29, 30, 31]

/-- `PHONE_NUMBER` (c.rs:300). -/
def number : Bytes :=
  [1, 4, 1, 5, 5, 5, 5, 1, 2, 3, 4]

/-- `SYSTEM_PARAMETERS` (c.rs:304-311). -/
def systemParameters : Bytes :=
  [226, 242, 174, 10, 106, 188, 78, 113, 168, 132, 169, 97, 197, 0, 81, 95, 88, 227, 11, 106,
    165, 130, 221, 141, 182, 166, 89, 69, 224, 141, 45, 118, 106, 145, 146, 226, 33, 103, 177,
    113, 120, 62, 220, 68, 45, 29, 235, 234, 53, 200, 198, 44, 210, 123, 226, 92, 205, 208, 203,
    136, 127, 196, 27, 83]

/-- `ISSUER_PARAMETERS` (c.rs:313-315). -/
def issuerParameters : Bytes :=
  [46, 15, 59, 90, 231, 240, 71, 218, 133, 156, 242, 69, 166, 177, 88, 83, 243, 194, 130, 14,
    169, 80, 206, 142, 125, 241, 187, 64, 51, 107, 169, 47]

/-- `ISSUER_KEYPAIR` (c.rs:317-322). -/
def issuerKeypair : Bytes :=
  [46, 15, 59, 90, 231, 240, 71, 218, 133, 156, 242, 69, 166, 177, 88, 83, 243, 194, 130, 14,
    169, 80, 206, 142, 125, 241, 187, 64, 51, 107, 169, 47, 54, 229, 180, 52, 25, 85, 26, 146,
    200, 9, 169, 149, 163, 210, 200, 23, 168, 108, 232, 245, 221, 151, 59, 6, 254, 156, 181, 163,
    240, 18, 135, 11, 97, 2, 57, 142, 254, 227, 59, 136, 111, 75, 183, 4, 43, 137, 125, 131, 219,
    89, 183, 26, 5, 175, 247, 110, 155, 99, 59, 135, 202, 222, 125, 0]

/-- `USER_WITH_CREDENTIAL` (c.rs:324-337). -/
def userWithCredential : Bytes :=
  [15, 15, 1, 4, 1, 5, 5, 5, 5, 1, 2, 3, 4, 15, 15, 11, 0, 0, 0, 0, 0, 0, 0, 0, 0, 0, 0, 0, 0, 0,
    0, 0, 226, 242, 174, 10, 106, 188, 78, 113, 168, 132, 169, 97, 197, 0, 81, 95, 88, 227, 11,
    106, 165, 130, 221, 141, 182, 166, 89, 69, 224, 141, 45, 118, 106, 145, 146, 226, 33, 103,
    177, 113, 120, 62, 220, 68, 45, 29, 235, 234, 53, 200, 198, 44, 210, 123, 226, 92, 205, 208,
    203, 136, 127, 196, 27, 83, 46, 15, 59, 90, 231, 240, 71, 218, 133, 156, 242, 69, 166, 177,
    88, 83, 243, 194, 130, 14, 169, 80, 206, 142, 125, 241, 187, 64, 51, 107, 169, 47, 0, 0, 0, 0,
    0, 0, 0, 0, 0, 0, 0, 0, 0, 0, 0, 0, 0, 0, 0, 0, 0, 0, 0, 0, 0, 0, 0, 0, 0, 0, 0, 0, 0, 0, 0,
    0, 0, 0, 0, 0, 0, 0, 0, 0, 0, 0, 0, 0, 0, 0, 0, 0, 0, 0, 0, 0, 0, 0, 0, 0, 0, 0, 0, 0, 122,
    76, 107, 20, 1, 73, 138, 242, 56, 18, 121, 38, 199, 0, 206, 64, 243, 30, 78, 222, 189, 130,
    97, 186, 212, 114, 87, 90, 66, 210, 80, 63, 116, 170, 255, 227, 219, 207, 210, 31, 147, 76,
    130, 38, 159, 252, 57, 29, 98, 221, 229, 146, 76, 226, 65, 134, 228, 8, 25, 134, 11, 151, 89,
    60, 15, 15, 1, 4, 1, 5, 5, 5, 5, 1, 2, 3, 4, 15, 15, 11, 0, 0, 0, 0, 0, 0, 0, 0, 0, 0, 0, 0,
    0, 0, 0, 0]

/-- `ISSUANCE` (c.rs:339-354). -/
def issuance : Bytes :=
  [244, 21, 196, 237, 191, 59, 210, 143, 229, 70, 189, 0, 157, 125, 163, 254, 183, 147, 38, 37,
    34, 117, 65, 172, 102, 134, 221, 10, 12, 146, 206, 72, 122, 76, 107, 20, 1, 73, 138, 242, 56,
    18, 121, 38, 199, 0, 206, 64, 243, 30, 78, 222, 189, 130, 97, 186, 212, 114, 87, 90, 66, 210,
    80, 63, 116, 170, 255, 227, 219, 207, 210, 31, 147, 76, 130, 38, 159, 252, 57, 29, 98, 221,
    229, 146, 76, 226, 65, 134, 228, 8, 25, 134, 11, 151, 89, 60, 15, 15, 1, 4, 1, 5, 5, 5, 5, 1,
    2, 3, 4, 15, 15, 11, 0, 0, 0, 0, 0, 0, 0, 0, 0, 0, 0, 0, 0, 0, 0, 0, 32, 0, 0, 0, 0, 0, 0, 0,
    49, 60, 77, 112, 78, 178, 70, 94, 208, 141, 192, 221, 54, 143, 148, 248, 125, 149, 135, 97,
    163, 47, 126, 63, 133, 73, 107, 70, 210, 157, 147, 0, 32, 0, 0, 0, 0, 0, 0, 0, 175, 231, 41,
    99, 155, 44, 234, 165, 190, 113, 68, 166, 29, 229, 114, 89, 30, 244, 86, 146, 57, 160, 55, 60,
    246, 67, 19, 131, 109, 235, 31, 14, 32, 0, 0, 0, 0, 0, 0, 0, 92, 205, 217, 18, 252, 133, 24,
    164, 240, 216, 36, 26, 203, 198, 13, 61, 102, 226, 144, 117, 172, 219, 69, 101, 101, 250, 45,
    85, 83, 74, 85, 2, 32, 0, 0, 0, 0, 0, 0, 0, 237, 173, 233, 127, 230, 246, 150, 185, 10, 112,
    234, 213, 120, 72, 210, 70, 172, 194, 30, 94, 21, 54, 221, 238, 55, 98, 33, 92, 111, 205, 12,
    1, 32, 0, 0, 0, 0, 0, 0, 0, 141, 162, 73, 78, 206, 121, 204, 87, 103, 81, 19, 230, 107, 24,
    14, 85, 111, 11, 16, 146, 127, 238, 28, 47, 42, 16, 213, 67, 85, 27, 117, 3]

/-- `PRESENTATION` (c.rs:356-377). -/
def presentation : Bytes :=
  [248, 163, 151, 99, 15, 211, 184, 146, 98, 185, 185, 234, 81, 11, 77, 29, 213, 18, 4, 44, 126,
    117, 2, 56, 30, 52, 155, 212, 181, 85, 242, 38, 146, 66, 44, 178, 12, 119, 96, 57, 105, 194,
    58, 97, 59, 14, 109, 79, 103, 202, 97, 128, 134, 167, 190, 207, 115, 50, 142, 173, 50, 115,
    247, 34, 112, 66, 255, 34, 60, 11, 103, 241, 75, 146, 145, 252, 141, 140, 82, 77, 206, 158,
    248, 3, 171, 214, 36, 163, 123, 131, 100, 206, 191, 139, 201, 31, 142, 174, 47, 99, 85, 191,
    79, 157, 165, 214, 12, 190, 34, 126, 148, 132, 249, 199, 75, 153, 9, 28, 231, 135, 51, 234,
    170, 230, 186, 150, 209, 14, 32, 0, 0, 0, 0, 0, 0, 0, 120, 163, 143, 235, 243, 2, 155, 102,
    176, 140, 150, 9, 153, 105, 159, 250, 250, 94, 98, 243, 67, 121, 36, 137, 203, 181, 181, 219,
    79, 50, 185, 5, 32, 0, 0, 0, 0, 0, 0, 0, 238, 78, 222, 45, 89, 12, 191, 163, 207, 28, 202, 80,
    156, 68, 200, 50, 216, 123, 52, 56, 60, 21, 233, 87, 26, 189, 195, 45, 68, 212, 211, 0, 32, 0,
    0, 0, 0, 0, 0, 0, 22, 146, 55, 27, 75, 245, 255, 137, 5, 176, 171, 130, 19, 123, 165, 21, 155,
    165, 71, 208, 110, 205, 10, 212, 123, 96, 164, 253, 24, 22, 189, 3, 32, 0, 0, 0, 0, 0, 0, 0,
    87, 20, 92, 136, 108, 106, 141, 15, 237, 51, 82, 220, 125, 61, 252, 67, 133, 1, 26, 82, 201,
    73, 111, 33, 224, 19, 84, 18, 229, 155, 240, 9, 32, 0, 0, 0, 0, 0, 0, 0, 246, 227, 44, 155,
    172, 20, 30, 125, 6, 203, 95, 202, 118, 205, 113, 106, 246, 92, 227, 123, 180, 154, 248, 191,
    236, 114, 170, 164, 232, 49, 133, 2, 32, 0, 0, 0, 0, 0, 0, 0, 30, 34, 247, 213, 5, 244, 20, 7,
    13, 165, 187, 252, 119, 205, 2, 187, 16, 171, 230, 150, 136, 2, 10, 29, 137, 166, 211, 167,
    22, 175, 194, 4, 32, 0, 0, 0, 0, 0, 0, 0, 184, 204, 213, 5, 200, 136, 130, 26, 21, 94, 3, 236,
    24, 242, 209, 196, 244, 148, 250, 147, 10, 155, 25, 111, 4, 220, 1, 67, 2, 160, 61, 15, 32, 0,
    0, 0, 0, 0, 0, 0, 135, 114, 45, 215, 51, 118, 253, 18, 35, 42, 124, 109, 164, 181, 48, 152,
    22, 58, 145, 48, 181, 75, 151, 186, 49, 133, 213, 98, 138, 99, 83, 11]

/-- What `issuer_new` returns in the tests. -/
def issuer : Bytes := systemParameters ++ issuerKeypair

instance : SeedableRng ChaChaRng where
  fromSeed b := ⟨b, 0⟩

/-- A 64-bit platform without overflow checks whose allocator never has memory left; the functions
are run up to the point where they allocate the returned buffer. -/
def platform : Ffi.Platform where
  wide := true
  checks := false
  dangling := 1
  dangling_ne := by decide
  alloc := fun _ _ => none
  alloc_fresh := by simp

/-- The byte arrays in the memory of the test: the array number `k` starts at address `1024 k`. -/
def memory : Mem := fun a =>
  match a / 1024 with
  | 1 => seed[a % 1024]?
  | 2 => number[a % 1024]?
  | 3 => systemParameters[a % 1024]?
  | 4 => issuerParameters[a % 1024]?
  | 5 => issuerKeypair[a % 1024]?
  | 6 => issuer[a % 1024]?
  | 7 => issuance[a % 1024]?
  | 8 => userWithCredential[a % 1024]?
  | 9 => presentation[a % 1024]?
  | _ => none

end Verif.Vectors
