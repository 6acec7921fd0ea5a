import Verif.Model.Amacs

/-!
# `usize` of other sizes

`Amacs` takes `usize` to have 64 bits. The only arithmetic on it that can wrap is in `Keypair::from_bytes`
(amacs.rs:352-367); this is that function for any number of bits (32 on wasm32 and older phones).
-/

namespace Verif

/-- `usize` subtraction on a target with `bits` bits; `checks` as in `usizeSub` (as in amacs.rs:356). -/
def usizeSubOn {ε : Type} (bits : ℕ) (checks : Bool) (a b : ℕ) : Res ε ℕ :=
  if b ≤ a then .ok (a - b) else if checks then .panic else .ok (a + 2 ^ bits - b)

/-- `Keypair::from_bytes` (amacs.rs:352-367) on a target with `bits` bits. -/
def Amacs.Keypair.fromBytesOn {G : Type} [AddCommGroup G] [Module F G] [Ristretto G] (bits : ℕ)
    (checks : Bool) (bytes : Bytes) : Res MacError (Keypair G) := do
  let length := bytes.length
  let d ← usizeSubOn bits checks length 32
  let publicKeyLength := d / 2
  let secretKeyLength ← usizeSubOn bits checks length publicKeyLength
  if publicKeyLength % 32 ≠ 0 ∨ secretKeyLength % 32 ≠ 0 then .err .keypairDeserialisation else do
    let publicKey ← PublicKey.fromBytes (← slice bytes 0 publicKeyLength)
    let secretKey ← SecretKey.fromBytes (← sliceFrom bytes publicKeyLength)
    .ok { publicKey, secretKey }

end Verif
