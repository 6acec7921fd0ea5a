import Verif.Model.Proofs

/-!
# bincode 1 encoding of proofs (external crate, modelled)

`bincode::serialize` with the default configuration writes struct fields in order without framing;
`serialize_bytes` writes an 8-byte little-endian length followed by the bytes. curve25519-dalek
serialises a `Scalar` with `serialize_bytes(self.reduce().as_bytes())` and deserialises with
`deserialize_bytes`, accepting exactly 32 canonical bytes. `bincode::deserialize` reads from the
front of the slice and ignores trailing bytes.
-/

namespace Verif

namespace Bincode

/-- Serialised scalar (bincode and curve25519-dalek, not in /repo). -/
def encScalar (s : Scalar) : Bytes := leBytes 8 32 ++ (Scalar.ofF s.val).toBytes

/-- Read one scalar from the front (bincode and curve25519-dalek, not in /repo); returns the rest of the input. -/
def decScalar (b : Bytes) : Option (Scalar × Bytes) :=
  if b.length < 8 then none else
    let len := leVal (b.take 8)
    let rest := b.drop 8
    if rest.length < len then none else
      if len ≠ 32 then none else
        match Scalar.fromCanonical (rest.take len) with
        | none => none
        | some s => some (s, rest.drop len)

/-- Serialised sequence of scalar fields (bincode, not in /repo). -/
def encScalars (ss : List Scalar) : Bytes := (ss.map encScalar).flatten

/-- Read `n` scalar fields, ignoring what follows (bincode, not in /repo). -/
def decScalars : ℕ → Bytes → Option (List Scalar)
  | 0, _ => some []
  | n + 1, b =>
    match decScalar b with
    | none => none
    | some (s, rest) =>
      match decScalars n rest with
      | none => none
      | some ss => some (s :: ss)

end Bincode

/-- `serialize(&issuance_revealed::Proof)`: field order of proofs.rs:70-82. -/
def IssuanceRevealed.Proof.serialize (p : IssuanceRevealed.Proof) : Bytes :=
  Bincode.encScalars [p.challenge, p.responses.x0, p.responses.x1, p.responses.x0_tilde,
    p.responses.m1x1]

/-- `deserialize::<issuance_revealed::Proof>` (aeonflux/src/credential.rs:215). -/
def IssuanceRevealed.Proof.deserialize (b : Bytes) : Option IssuanceRevealed.Proof :=
  match Bincode.decScalars 5 b with
  | some [c, x0, x1, x0_tilde, m1x1] => some ⟨c, ⟨x0, x1, x0_tilde, m1x1⟩⟩
  | _ => none

/-- `serialize(&valid_credential::Proof)`: field order of proofs.rs:627-637. -/
def ValidCredential.Proof.serialize (p : ValidCredential.Proof) : Bytes :=
  Bincode.encScalars [p.challenge, p.responses.m0, p.responses.z0, p.responses.minus_zQ]

/-- `deserialize::<valid_credential::Proof>` (aeonflux/src/credential.rs:306). -/
def ValidCredential.Proof.deserialize (b : Bytes) : Option ValidCredential.Proof :=
  match Bincode.decScalars 4 b with
  | some [c, m0, z0, minus_zQ] => some ⟨c, ⟨m0, z0, minus_zQ⟩⟩
  | _ => none

/-- `serialize(&committed_values_equal::Proof)`: field order of proofs.rs:755-765. -/
def CommittedValuesEqual.Proof.serialize (p : CommittedValuesEqual.Proof) : Bytes :=
  Bincode.encScalars [p.challenge, p.responses.m0, p.responses.z0, p.responses.z1]

/-- `deserialize::<committed_values_equal::Proof>` (signal-credential/src/credential.rs:78). -/
def CommittedValuesEqual.Proof.deserialize (b : Bytes) : Option CommittedValuesEqual.Proof :=
  match Bincode.decScalars 4 b with
  | some [c, m0, z0, z1] => some ⟨c, ⟨m0, z0, z1⟩⟩
  | _ => none

end Verif
