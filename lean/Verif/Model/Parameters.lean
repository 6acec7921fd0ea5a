import Verif.Model.Errors

/-!
# System parameters, nonces, Pedersen commitments, ElGamal
(`aeonflux/src/parameters.rs`, `nonces.rs`, `pedersen.rs`, `elgamal.rs`)
-/

namespace Verif

variable {G : Type} [AddCommGroup G] [Module F G]

/-! ## parameters.rs -/

/-- `SystemParameters` (parameters.rs:45-49). -/
@[ext] structure SystemParameters (G : Type) where
  g : G
  h : G
  deriving DecidableEq

namespace SystemParameters

variable [Ristretto G]

/-- `SystemParameters::from_bytes` (parameters.rs:52-81). -/
def fromBytes (bytes : Bytes) : Res CredentialError (SystemParameters G) :=
  if bytes.length ≠ 64 then .err .noSystemParameters else do
    let g_bytes ← copyFromSlice 32 (← slice bytes 0 32)
    let h_bytes ← copyFromSlice 32 (← slice bytes 32 64)
    let g ← Res.ofOption .pointDecompressionError (dec g_bytes)
    let h ← Res.ofOption .pointDecompressionError (dec h_bytes)
    .ok { g, h }

/-- `SystemParameters::to_bytes` (parameters.rs:83-90). -/
def toBytes (p : SystemParameters G) : Bytes := enc p.g ++ enc p.h

/-- One iteration of the loop of `hunt_and_peck` (parameters.rs:110-117): draw 32 bytes, reject the
compressed basepoint (`RISTRETTO_BASEPOINT_COMPRESSED`, i.e. the encoding of the basepoint),
otherwise try to decompress. -/
def huntStep {R : Type} [RngCore R] (r : R) : Option G × R :=
  let (tmp, r1) := RngCore.fill r 32
  if tmp ≠ enc (basepoint G) then (dec tmp, r1) else (none, r1)

/-- `SystemParameters::hunt_and_peck` (parameters.rs:102-124) run for at most `fuel` iterations of
the `while` loop; `none` means the loop is still running. -/
def huntAndPeck {R : Type} [RngCore R] : ℕ → R → Option (SystemParameters G × R)
  | 0, _ => none
  | fuel + 1, r =>
    match huntStep (G := G) r with
    | (some H, r1) => some ({ g := basepoint G, h := H }, r1)
    | (none, r1) => huntAndPeck fuel r1

/-- `From<RistrettoPoint> for SystemParameters` (parameters.rs:128-147); `debug` is
`debug_assertions`. -/
def ofPoint [DecidableEq G] (debug : Bool) (h : G) : Res Empty (SystemParameters G) := do
  Res.assert (debug = true → h ≠ basepoint G)
  .ok { g := basepoint G, h := h }

/-- `From<[u8; 32]> for SystemParameters` (parameters.rs:149-173). -/
def ofArray (debug : Bool) (h : Bytes) : Res Empty (SystemParameters G) := do
  Res.assert (debug = true → h ≠ enc (basepoint G))
  let H ← Res.unwrap (dec h)
  .ok { g := basepoint G, h := H }

end SystemParameters

/-! ## nonces.rs: an `Ephemeral` is a scalar, `Nonces` a list of them -/

/-- `Ephemeral::new` (nonces.rs:42-49). -/
def Ephemeral.new {R : Type} [RngCore R] (r : R) : Scalar × R := Scalar.random r

/-- `Ephemeral::to_bytes` (nonces.rs:51-53). -/
def Ephemeral.toBytes (e : Scalar) : Bytes := e.toBytes

/-- `Nonces::new` (nonces.rs:176-190). -/
def Nonces.new {R : Type} [RngCore R] (r : R) : ℕ → List Scalar × R
  | 0 => ([], r)
  | n + 1 =>
    let (z, r1) := Ephemeral.new r
    let (zs, r2) := Nonces.new r1 n
    (z :: zs, r2)

/-! ## pedersen.rs: a `Commitment` is a point -/

namespace Pedersen

/-- `Commitment::from_bytes` (pedersen.rs:67-73); bytes after the first 32 are ignored. -/
def fromBytes [Ristretto G] (bytes : Bytes) : Res CredentialError G := do
  let tmp ← copyFromSlice 32 (← slice bytes 0 32)
  Res.ofOption .ofNone (dec tmp)

/-- `Commitment::to_bytes` (pedersen.rs:75-81). -/
def toBytes [Ristretto G] (c : G) : Bytes := enc c

/-- `Commitment::to` (pedersen.rs:94-96). -/
def commit (value : G) (nonce : Scalar) (basepoint : G) : G := value + nonce • basepoint

/-- `Commitment::open(..).is_ok()` (pedersen.rs:98-109). -/
def «open» [DecidableEq G] (c : G) (value : G) (nonce : Scalar) (basepoint : G) : Bool :=
  decide (value = c - nonce • basepoint)

end Pedersen

/-! ## elgamal.rs -/

namespace Elgamal

/-- `Keypair` (elgamal.rs:50-55); a `SecretKey` is a scalar, a `PublicKey` a point. -/
@[ext] structure Keypair (G : Type) where
  secretKey : Scalar
  publicKey : G
  deriving DecidableEq

/-- `Encryption` (elgamal.rs:80-84). -/
@[ext] structure Encryption (G : Type) where
  commitment : G
  encryption : G
  deriving DecidableEq

/-- `Add for &Encryption` (elgamal.rs:86-95). -/
def Encryption.add (a b : Encryption G) : Encryption G :=
  { commitment := a.commitment + b.commitment, encryption := a.encryption + b.encryption }

/-- `From<&Scalar> for Message` (elgamal.rs:74-78). -/
def messageOfScalar [Ristretto G] (s : Scalar) : G := s • basepoint G

/-- `PublicKey::from_bytes` (elgamal.rs:98-108). -/
def PublicKey.fromBytes [Ristretto G] (bytes : Bytes) : Res CredentialError G := do
  Res.assert (bytes.length = 32)
  let tmp ← copyFromSlice 32 bytes
  Res.ofOption .ofNone (dec tmp)

/-- `PublicKey::to_bytes` (elgamal.rs:110-116). -/
def PublicKey.toBytes [Ristretto G] (k : G) : Bytes := enc k

/-- `SecretKey::from_bytes` (elgamal.rs:146-156). -/
def SecretKey.fromBytes (bytes : Bytes) : Res CredentialError Scalar := do
  Res.assert (bytes.length = 32)
  let tmp ← copyFromSlice 32 bytes
  Res.ofOption .ofNone (Scalar.fromCanonical tmp)

/-- `SecretKey::to_bytes` (elgamal.rs:158-164). -/
def SecretKey.toBytes (k : Scalar) : Bytes := k.toBytes

/-- `Keypair::from_bytes` (elgamal.rs:198-205). -/
def Keypair.fromBytes [Ristretto G] (bytes : Bytes) : Res CredentialError (Keypair G) := do
  Res.assert (bytes.length = 64)
  let secretKey ← SecretKey.fromBytes (← slice bytes 0 32)
  let publicKey ← PublicKey.fromBytes (← slice bytes 32 64)
  .ok { secretKey, publicKey }

/-- `Keypair::to_bytes` (elgamal.rs:207-214). -/
def Keypair.toBytes [Ristretto G] (k : Keypair G) : Bytes :=
  SecretKey.toBytes k.secretKey ++ PublicKey.toBytes k.publicKey

/-- `PublicKey::encrypt` (elgamal.rs:122-130). -/
def PublicKey.encrypt [Ristretto G] (k : G) (message : G) (nonce : Scalar) : Encryption G :=
  { commitment := nonce • basepoint G, encryption := message + nonce • k }

/-- `From<&SecretKey> for PublicKey` (elgamal.rs:139-143). -/
def publicOfSecret [Ristretto G] (s : Scalar) : G := s • basepoint G

/-- `SecretKey::decrypt` (elgamal.rs:177-181). -/
def SecretKey.decrypt (s : Scalar) (e : Encryption G) : G := e.encryption - s • e.commitment

/-- `Keypair::generate` (elgamal.rs:220-228). -/
def Keypair.generate [Ristretto G] {R : Type} [RngCore R] (r : R) : Keypair G × R :=
  let (secretKey, r1) := Scalar.random r
  ({ secretKey, publicKey := publicOfSecret secretKey }, r1)

/-- `Keypair::encrypt` (elgamal.rs:230-233). -/
def Keypair.encrypt [Ristretto G] (k : Keypair G) (message : G) (nonce : Scalar) : Encryption G :=
  PublicKey.encrypt k.publicKey message nonce

end Elgamal

end Verif
