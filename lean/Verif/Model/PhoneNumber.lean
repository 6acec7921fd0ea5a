import Verif.Model.Parameters

/-!
# Phone numbers and roster entries (`signal-credential/src/phone_number.rs`)

A `PhoneNumber` is a scalar, a `CommittedPhoneNumber` a point. A Rust `String` is its UTF-8 bytes.
-/

namespace Verif

variable {G : Type} [AddCommGroup G] [Module F G]

/-- `array[i] = v` (as in phone_number.rs:166): panics when out of range. -/
def arraySet {ε : Type} (a : Bytes) (i : ℕ) (v : UInt8) : Res ε Bytes :=
  if i < a.length then .ok (a.set i v) else .panic

namespace PhoneNumber

/-- `PhoneNumber::from_bytes` (phone_number.rs:68-78). -/
def fromBytes (bytes : Bytes) : Res PhoneNumberError Scalar :=
  if bytes.length ≠ 32 then .err .lengthExceeded else do
    let tmp ← copyFromSlice 32 (← slice bytes 0 32)
    .ok (Scalar.fromBits tmp)

/-- `PhoneNumber::to_bytes` (phone_number.rs:80-82). -/
def toBytes (p : Scalar) : Bytes := p.toBytes

/-- The digit loops `for i in 2..length+2` (phone_number.rs:149-163 and 188-190); `f` is the
per-byte conversion, `i` the next array index. -/
def writeDigits {ε : Type} (f : UInt8 → UInt8) : Bytes → ℕ → Bytes → Res ε Bytes
  | [], _, bits => .ok bits
  | d :: ds, i, bits => do
    let bits ← arraySet bits i (f d)
    writeDigits f ds (i + 1) bits

/-- The common shape of `try_from_string` and `try_from_bytes` (phone_number.rs:134-200). -/
def encodeWith (f : UInt8 → UInt8) (bytes : Bytes) : Res PhoneNumberError Scalar :=
  let length := bytes.length
  if length > 32 then .err .lengthExceeded else do
    let bits := List.replicate 32 0
    let bits ← arraySet bits 0 15
    let bits ← arraySet bits 1 15
    let bits ← writeDigits f bytes 2 bits
    let bits ← arraySet bits (length + 2) 15
    let bits ← arraySet bits (length + 3) 15
    let bits ← arraySet bits (length + 4) (UInt8.ofNat length)
    .ok (Scalar.fromBytesModOrder bits)

/-- The `match` undoing UTF-8 (phone_number.rs:150-162). -/
def undoUtf8 (b : UInt8) : UInt8 :=
  if b = 48 then 0 else if b = 49 then 1 else if b = 50 then 2 else if b = 51 then 3
  else if b = 52 then 4 else if b = 53 then 5 else if b = 54 then 6 else if b = 55 then 7
  else if b = 56 then 8 else if b = 57 then 9 else 15

/-- `PhoneNumber::try_from_string` (phone_number.rs:134-173). -/
def tryFromString (source : Bytes) : Res PhoneNumberError Scalar := encodeWith undoUtf8 source

/-- `PhoneNumber::try_from_bytes` (phone_number.rs:175-200). -/
def tryFromBytes (bytes : Bytes) : Res PhoneNumberError Scalar := encodeWith id bytes

/-- The backwards search of `String::from` (phone_number.rs:207-215): the last non-zero byte. -/
def findLength (bytes : Bytes) : ℕ :=
  match bytes.reverse.find? (fun b => b ≠ 0) with
  | none => 0
  | some b => b.toNat

/-- The digit loop of `String::from` (phone_number.rs:219-238), `n` iterations from index `i`. -/
def readDigits {ε : Type} (bytes : Bytes) : ℕ → ℕ → Res ε Bytes
  | 0, _ => .ok []
  | n + 1, i => do
    let b ← index bytes i
    let rest ← readDigits bytes n (i + 1)
    if b ≤ 9 then .ok ((b + 48) :: rest) else .ok rest

/-- `String::from(PhoneNumber)` (phone_number.rs:203-241). -/
def toStr {ε : Type} (p : Scalar) : Res ε Bytes :=
  readDigits p.toBytes (findLength p.toBytes) 2

/-- `PhoneNumber::encrypt` (phone_number.rs:249-260). -/
def encrypt [Ristretto G] (p : Scalar) (key : Elgamal.Keypair G) (nonce : Scalar) :
    Elgamal.Encryption G :=
  key.encrypt (Elgamal.messageOfScalar p) nonce

end PhoneNumber

namespace CommittedPhoneNumber

/-- `CommittedPhoneNumber::from_bytes` (phone_number.rs:279-281). -/
def fromBytes [Ristretto G] (bytes : Bytes) : Res PhoneNumberError G :=
  (Pedersen.fromBytes bytes).mapErr PhoneNumberError.ofCredential

/-- `CommittedPhoneNumber::to_bytes` (phone_number.rs:283-285). -/
def toBytes [Ristretto G] (c : G) : Bytes := Pedersen.toBytes c

/-- `CommittedPhoneNumber::from_phone_number` (phone_number.rs:292-302). -/
def fromPhoneNumber (number nonce : Scalar) (g h : G) : G := Pedersen.commit (number • h) nonce g

/-- `CommittedPhoneNumber::open(..).is_ok()` (phone_number.rs:304-315). -/
def «open» [DecidableEq G] (c : G) (number nonce : Scalar) (g h : G) : Bool :=
  Pedersen.open c (number • h) nonce g

end CommittedPhoneNumber

/-- `RosterEntryCommitment` (phone_number.rs:319-322). -/
@[ext] structure RosterEntryCommitment (G : Type) where
  commitment : G
  opening : Scalar
  deriving DecidableEq

namespace RosterEntryCommitment

variable [Ristretto G]

/-- `RosterEntryCommitment::from_bytes` (phone_number.rs:325-335). -/
def fromBytes (bytes : Bytes) : Res PhoneNumberError (RosterEntryCommitment G) := do
  let commitment ← CommittedPhoneNumber.fromBytes (← slice bytes 0 32)
  let tmp ← copyFromSlice 32 (← sliceFrom bytes 32)
  .ok { commitment, opening := Scalar.fromBits tmp }

/-- `RosterEntryCommitment::to_bytes` (phone_number.rs:337-344). -/
def toBytes (r : RosterEntryCommitment G) : Bytes :=
  CommittedPhoneNumber.toBytes r.commitment ++ Ephemeral.toBytes r.opening

omit [Ristretto G]

/-- `RosterEntryCommitment::create` (phone_number.rs:351-366); the opening is drawn first. -/
def create {R : Type} [RngCore R] (phoneNumber : Bytes) (params : SystemParameters G) (r : R) :
    Res PhoneNumberError (RosterEntryCommitment G) × R :=
  let (opening, r1) := Ephemeral.new r
  let res : Res PhoneNumberError (RosterEntryCommitment G) := do
    let number ← PhoneNumber.tryFromBytes phoneNumber
    let commitment := CommittedPhoneNumber.fromPhoneNumber number opening params.g params.h
    .ok { commitment, opening }
  (res, r1)

/-- `RosterEntryCommitment::open` (phone_number.rs:368-380). -/
def «open» [DecidableEq G] (e : RosterEntryCommitment G) (phoneNumber : Bytes)
    (params : SystemParameters G) : Res PhoneNumberError Unit := do
  let number ← PhoneNumber.tryFromBytes phoneNumber
  if CommittedPhoneNumber.open e.commitment number e.opening params.g params.h = true then .ok ()
  else .err .invalidPhoneNumber

end RosterEntryCommitment

end Verif
