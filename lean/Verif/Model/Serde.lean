import Verif.Basic

/-!
# The serde implementations (`aeonflux/src/macros.rs`)

`impl_serde_with_to_bytes_and_from_bytes!` gives every type of the two crates the same `Serialize` and
`Deserialize`. They are modelled for the `bincode` format, which the crates depend on; the JSON
format is in `Verif.Model.Wasm`.
-/

namespace Verif

namespace Serde

/-- `serialize` (macros.rs:13-20) through bincode 1: `serialize_bytes(&self.to_bytes()[..])` writes an
8-byte little-endian length and the bytes. -/
def serialize (toBytes : Bytes) : Bytes := leBytes 8 toBytes.length ++ toBytes

/-- `deserialize` (macros.rs:22-48) through bincode 1 reading from a slice: `deserialize_bytes` reads
the length, fails if fewer bytes are left, and hands exactly that many bytes to `visit_bytes`, which
calls `from_bytes` and turns any error into `invalid_length`. Also returns what is left of the input.
Simplification: all errors are `()`, and the `println!` of feature `std` is left out. -/
def deserialize {ε α : Type} (fromBytes : Bytes → Res ε α) (b : Bytes) : Res Unit (α × Bytes) :=
  if b.length < 8 then .err () else
    let len := leVal (b.take 8)
    let rest := b.drop 8
    if rest.length < len then .err () else do
      let x ← (fromBytes (rest.take len)).mapErr fun _ => ()
      .ok (x, rest.drop len)

end Serde

end Verif
