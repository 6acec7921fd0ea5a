import Verif.Model.Errors

/-!
# Algebraic MACs (`aeonflux/src/amacs.rs`)
-/

namespace Verif

variable {G : Type} [AddCommGroup G] [Module F G]

/-- Number of `usize` values on a 64-bit target (Rust, not in /repo). -/
@[irreducible] def usizeCount : ℕ := 2 ^ 64

/-- `usize` subtraction on a 64-bit target (as in amacs.rs:248). `checks` is `true` in builds with overflow checks
(debug), where underflow panics; otherwise it wraps. -/
def usizeSub {ε : Type} (checks : Bool) (a b : ℕ) : Res ε ℕ :=
  if b ≤ a then .ok (a - b) else if checks then .panic else .ok (a + usizeCount - b)

/-- `parameters::NUMBER_OF_ATTRIBUTES` (aeonflux/src/parameters.rs:28). -/
def NUMBER_OF_ATTRIBUTES : ℕ := 1

namespace Amacs

/-- `Tag` (amacs.rs:117-123). -/
@[ext] structure Tag (G : Type) where
  nonce : G
  mac : G
  deriving DecidableEq

/-- `PublicKey`, also called `IssuerParameters` (amacs.rs:158-163, issuer.rs:16). -/
@[ext] structure PublicKey (G : Type) where
  Xn : List G
  deriving DecidableEq

/-- `SecretKey` (amacs.rs:205-210). -/
@[ext] structure SecretKey where
  x0 : Scalar
  xn : List Scalar
  deriving DecidableEq

/-- `Keypair` (amacs.rs:344-349). -/
@[ext] structure Keypair (G : Type) where
  publicKey : PublicKey G
  secretKey : SecretKey
  deriving DecidableEq

section Codec
variable [Ristretto G]

/-- `Tag::from_bytes` (amacs.rs:126-144). -/
def Tag.fromBytes (bytes : Bytes) : Res MacError (Tag G) :=
  if bytes.length ≠ 64 then .err .pointDecompressionError else do
    let P_bytes ← copyFromSlice 32 (← slice bytes 0 32)
    let Q_bytes ← copyFromSlice 32 (← slice bytes 32 64)
    let P ← Res.ofOption .ofNone (dec P_bytes)
    let Q ← Res.ofOption .ofNone (dec Q_bytes)
    .ok { nonce := P, mac := Q }

/-- `Tag::to_bytes` (amacs.rs:146-153). -/
def Tag.toBytes (t : Tag G) : Bytes := enc t.nonce ++ enc t.mac

/-- `PublicKey::from_bytes` (amacs.rs:166-185). -/
def PublicKey.fromBytes (bytes : Bytes) : Res MacError (PublicKey G) :=
  if bytes.length % 32 ≠ 0 then .err (.messageLengthError bytes.length) else do
    let Xn ← Res.mapM (fun chunk => do
      let X ← decompressSlice chunk
      Res.ofOption .pointDecompressionError X) (chunks32 bytes)
    .ok { Xn := Xn }

/-- `PublicKey::to_bytes` (amacs.rs:187-195). -/
def PublicKey.toBytes (k : PublicKey G) : Bytes := (k.Xn.map enc).flatten

/-- `SecretKey::from_bytes` (amacs.rs:240-270). `Vec::with_capacity((length / 32) - 1)` panics on
the empty input in every build: arithmetic overflow in debug, capacity overflow in release. The
`x0: Option<Scalar>` accumulator is expressed by splitting the decoded list. -/
def SecretKey.fromBytes (bytes : Bytes) : Res MacError SecretKey :=
  if bytes.length % 32 ≠ 0 then .err (.messageLengthError bytes.length)
  else if bytes.length / 32 = 0 then .panic
  else do
    let xs ← Res.mapM (fun chunk => do
      let tmp ← copyFromSlice 32 chunk
      Res.ofOption .scalarFormatError (Scalar.fromCanonical tmp)) (chunks32 bytes)
    match xs with
    | [] => .err (.messageLengthError bytes.length)
    | x :: xn => .ok { x0 := x, xn := xn }

/-- `SecretKey::to_bytes` (amacs.rs:272-282). -/
def SecretKey.toBytes (k : SecretKey) : Bytes := k.x0.toBytes ++ (k.xn.map Scalar.toBytes).flatten

/-- `Keypair::from_bytes` (amacs.rs:352-367). -/
def Keypair.fromBytes (checks : Bool) (bytes : Bytes) : Res MacError (Keypair G) := do
  let length := bytes.length
  let d ← usizeSub checks length 32
  let publicKeyLength := d / 2
  let secretKeyLength ← usizeSub checks length publicKeyLength
  if publicKeyLength % 32 ≠ 0 ∨ secretKeyLength % 32 ≠ 0 then .err .keypairDeserialisation else do
    let publicKey ← PublicKey.fromBytes (← slice bytes 0 publicKeyLength)
    let secretKey ← SecretKey.fromBytes (← sliceFrom bytes publicKeyLength)
    .ok { publicKey, secretKey }

/-- `Keypair::to_bytes` (amacs.rs:369-376). -/
def Keypair.toBytes (k : Keypair G) : Bytes := k.publicKey.toBytes ++ k.secretKey.toBytes

end Codec

/-- `n` draws of `Scalar::random` in a `for _ in 0..n` loop (amacs.rs:232-234, nonces.rs:186-188). -/
def randomScalars {R : Type} [RngCore R] : ℕ → R → List Scalar × R
  | 0, r => ([], r)
  | n + 1, r =>
    let (x, r1) := Scalar.random r
    let (xs, r2) := randomScalars n r1
    (x :: xs, r2)

/-- `SecretKey::new` (amacs.rs:225-237): `x0` is drawn first. -/
def SecretKey.new {R : Type} [RngCore R] (n : ℕ) (r : R) : SecretKey × R :=
  let (x0, r1) := Scalar.random r
  let (xn, r2) := randomScalars n r1
  ({ x0, xn }, r2)

/-- `SecretKey::get_public_key` (amacs.rs:294-302). -/
def SecretKey.getPublicKey (k : SecretKey) (h : G) : PublicKey G :=
  { Xn := k.xn.map fun xi => xi • h }

/-- The exponent loop of `SecretKey::mac` (amacs.rs:312-316). -/
def SecretKey.macExponent (k : SecretKey) (message : List Scalar) : Scalar :=
  (k.xn.zip message).foldl (fun exponent xm => exponent + xm.1 * xm.2) k.x0

/-- The exponent loop of `SecretKey::verify` (amacs.rs:327-331; operands in the other order). -/
def SecretKey.verifyExponent (k : SecretKey) (message : List Scalar) : Scalar :=
  (k.xn.zip message).foldl (fun exponent xm => (xm.1 * xm.2) + exponent) k.x0

variable [Ristretto G]

/-- `SecretKey::mac` (amacs.rs:304-321). A `Message` is its vector of scalars. -/
def SecretKey.mac {R : Type} [RngCore R] (k : SecretKey) (message : List Scalar) (r : R) :
    Res MacError (Tag G) × R :=
  if k.xn.length ≠ message.length then (.err (.messageLengthError k.xn.length), r) else
    let (s, r1) := Scalar.random r
    let nonce : G := s • basepoint G
    let exponent := k.macExponent message
    (.ok { nonce := nonce, mac := exponent • nonce }, r1)

/-- `SecretKey::verify` (amacs.rs:323-339). -/
def SecretKey.verify [DecidableEq G] (k : SecretKey) (mac : Tag G) (message : List Scalar) :
    Res MacError Unit :=
  if mac.nonce = basepoint G then .err .authenticationError else
    let exponent := k.verifyExponent message
    let check : G := exponent • mac.nonce
    if mac.mac = check then .ok () else .err .authenticationError

/-- `Keypair::new` (amacs.rs:386-394). -/
def Keypair.new {R : Type} [RngCore R] (h : G) (r : R) : Keypair G × R :=
  let (secretKey, r1) := SecretKey.new NUMBER_OF_ATTRIBUTES r
  ({ publicKey := secretKey.getPublicKey h, secretKey }, r1)

omit [Ristretto G]

/-- `Rerandomization::apply_to_tag` (amacs.rs:402-411, 432-434); a `Rerandomization` is a scalar. -/
def applyToTag (r : Scalar) (t : Tag G) : Tag G := { nonce := r • t.nonce, mac := r • t.mac }

/-- `Rerandomization::new` (amacs.rs:425-430). -/
def Rerandomization.new {R : Type} [RngCore R] (r : R) : Scalar × R := Scalar.random r

end Amacs

end Verif
