import Verif.Model.Ffi

/-!
# The JavaScript interface (`wasm/src/js.rs`)

`JsValue::from_serde` writes JSON with `serde_json` and parses it in JavaScript, `into_serde` does the
reverse. Simplifications: JavaScript values that are not JSON are left out (`into_serde` fails on
them); numbers are integers; `println!` of errors (only with feature `std`) is left out.
-/

namespace Verif

namespace Wasm

/-- A JavaScript value (JavaScript, not in /repo). Strings are Unicode (lone surrogates are left out). -/
inductive Js where
  | null
  | bool (b : Bool)
  | num (n : ℤ)
  | str (s : String)
  | arr (elements : List Js)
  | obj (fields : List (String × Js))

/-- `JsValue::from_serde` for the types of this code base, which all implement `Serialize` by
`serialize_bytes(&self.to_bytes()[..])` (macros.rs:13-20 of aeonflux): `serde_json` writes bytes as an
array of numbers. It does not fail. -/
def fromSerde (bytes : Bytes) : Js := .arr (bytes.map fun b => .num b.toNat)

/-- `JsValue::into_serde` for these types, which implement `Deserialize` by `deserialize_bytes` with a
visitor that only has `visit_bytes` (macros.rs:22-48 of aeonflux): `serde_json` calls `visit_bytes`
with the UTF-8 bytes of a string; for an array it calls `visit_seq`, whose default is an error; otherwise it fails. -/
def intoSerde {ε α : Type} (fromBytes : Bytes → Res ε α) : Js → Res Unit α
  | .str s => (fromBytes s.toUTF8.data.toList).mapErr fun _ => ()
  | _ => .err ()

/-- How a call of an exported function (js.rs:95-347) ends. -/
inductive Outcome where
  | returns (v : Js)
  | panics
  | hangs

/-- `csprng_from_seed!` with `slice_to_array!` (js.rs:28-43, 74-81). -/
def csprngFromSeed {R : Type} [SeedableRng R] (seed : Bytes) : Res Unit R :=
  if seed.length ≠ 32 then .err () else .ok (SeedableRng.fromSeed seed)

/-- `ok_or_return!` (js.rs:45-58) on a library call. -/
def okOrReturn {ε α : Type} (x : Res ε α) : Res Unit α := x.mapErr fun _ => ()

/-- The end of a function (as in js.rs:106, and js.rs:53): `JsValue::from_serde` of the bytes, or `JsValue::from(0)`. -/
def finish : Res Unit Bytes → Outcome
  | .ok b => .returns (fromSerde b)
  | .err _ => .returns (.num 0)
  | .panic => .panics

variable (G : Type) [AddCommGroup G] [Module F G] [Ristretto G]
variable (R : Type) [SeedableRng R]

/-- `system_parameters_create` (js.rs:95-107); `fuel` as in `Ffi.systemParametersCreateBody`. -/
def systemParametersCreate (fuel : ℕ) (seed : Bytes) : Outcome :=
  if seed.length ≠ 32 then .returns (.num 0)
  else match (csprngFromSeed seed : Res Unit R) with
    | .err _ => .returns (.num 0)
    | .panic => .panics
    | .ok csprng =>
      match SystemParameters.huntAndPeck (G := G) fuel csprng with
      | none => .hangs
      | some (params, _) => .returns (fromSerde params.toBytes)

/-- `issuer_create` (js.rs:126-137). -/
def issuerCreate (systemParameters : Js) (seed : Bytes) : Outcome := finish do
  let csprng : R ← csprngFromSeed seed
  let params : SystemParameters G ← intoSerde SystemParameters.fromBytes systemParameters
  .ok (SignalIssuer.create params csprng).1.issuer.keypair.toBytes

/-- `issuer_get_issuer_parameters` (js.rs:152-160). `checks` as in `Keypair.fromBytes`. -/
def issuerGetIssuerParameters (checks : Bool) (issuer : Js) : Outcome := finish do
  let issuer : SignalIssuer G ← intoSerde (SignalIssuer.fromBytes checks) issuer
  .ok issuer.issuer.keypair.publicKey.toBytes

/-- `issuer_new` (js.rs:186-197). -/
def issuerNew (checks : Bool) (systemParameters keypair : Js) : Outcome := finish do
  let params : SystemParameters G ← intoSerde SystemParameters.fromBytes systemParameters
  let keys : Amacs.Keypair G ← intoSerde (Amacs.Keypair.fromBytes checks) keypair
  .ok (SignalIssuer.new params keys).toBytes

/-- `issuer_issue` (js.rs:216-228). -/
def issuerIssue (O : Oracle) (checks : Bool) (issuer : Js) (phoneNumber seed entropy : Bytes) :
    Outcome := finish do
  let csprng : R ← csprngFromSeed seed
  let issuer : SignalIssuer G ← intoSerde (SignalIssuer.fromBytes checks) issuer
  let issuance ← okOrReturn (issuer.issue O phoneNumber csprng entropy).1
  .ok issuance.toBytes

/-- `issuer_verify` (js.rs:242-253). -/
def issuerVerify (O : Oracle) (checks : Bool) (issuer presentation : Js) : Outcome := finish do
  let issuer : SignalIssuer G ← intoSerde (SignalIssuer.fromBytes checks) issuer
  let presentation : SignalCredentialPresentation G ←
    intoSerde SignalCredentialPresentation.fromBytes presentation
  let verified ← okOrReturn (issuer.verify O presentation)
  .ok verified.toBytes

/-- `issuer_verify_roster_membership` (js.rs:268-279). -/
def issuerVerifyRosterMembership (O : Oracle) (checks : Bool) (issuer verified : Js) : Outcome :=
  finish do
    let issuer : SignalIssuer G ← intoSerde (SignalIssuer.fromBytes checks) issuer
    let verified : VerifiedSignalCredential G ← intoSerde VerifiedSignalCredential.fromBytes verified
    let commitment ← okOrReturn (issuer.verifyRosterMembership O verified)
    .ok (CommittedPhoneNumber.toBytes commitment)

/-- `user_obtain_finish` (js.rs:301-318). -/
def userObtainFinish (O : Oracle) (phoneNumber : Bytes) (systemParameters issuerParameters issuance : Js) :
    Outcome := finish do
  let params : SystemParameters G ← intoSerde SystemParameters.fromBytes systemParameters
  let issuerParams : Amacs.PublicKey G ← intoSerde Amacs.PublicKey.fromBytes issuerParameters
  let user ← okOrReturn (SignalUser.new params issuerParams none phoneNumber)
  let issuance : CredentialIssuance G ← intoSerde CredentialIssuance.fromBytes issuance
  let _ ← okOrReturn (user.obtainFinish O (some issuance)).1
  .ok (user.obtainFinish O (some issuance)).2.toBytes

/-- `user_show` (js.rs:334-347). -/
def userShow (O : Oracle) (user entry : Js) (seed entropy1 entropy2 : Bytes) : Outcome := finish do
  let csprng : R ← csprngFromSeed seed
  let user : SignalUser G ← intoSerde SignalUser.fromBytes user
  let entry : RosterEntryCommitment G ← intoSerde RosterEntryCommitment.fromBytes entry
  let presentation ← okOrReturn (user.show O csprng entry entropy1 entropy2).1
  .ok presentation.toBytes

/-- A call of one of the nine exported functions (js.rs:95-347). -/
inductive Call where
  | systemParametersCreate (seed : Bytes)
  | issuerCreate (systemParameters : Js) (seed : Bytes)
  | issuerGetIssuerParameters (issuer : Js)
  | issuerNew (systemParameters keypair : Js)
  | issuerIssue (issuer : Js) (phoneNumber seed entropy : Bytes)
  | issuerVerify (issuer presentation : Js)
  | issuerVerifyRosterMembership (issuer verified : Js)
  | userObtainFinish (phoneNumber : Bytes) (systemParameters issuerParameters issuance : Js)
  | userShow (user entry : Js) (seed entropy1 entropy2 : Bytes)

/-- The exported functions (js.rs:95-347). -/
def Call.run (O : Oracle) (checks : Bool) (fuel : ℕ) : Call → Outcome
  | .systemParametersCreate s => Wasm.systemParametersCreate G R fuel s
  | .issuerCreate p s => Wasm.issuerCreate G R p s
  | .issuerGetIssuerParameters i => Wasm.issuerGetIssuerParameters G checks i
  | .issuerNew p k => Wasm.issuerNew G checks p k
  | .issuerIssue i n s e => Wasm.issuerIssue G R O checks i n s e
  | .issuerVerify i p => Wasm.issuerVerify G O checks i p
  | .issuerVerifyRosterMembership i v => Wasm.issuerVerifyRosterMembership G O checks i v
  | .userObtainFinish n p ip i => Wasm.userObtainFinish G O n p ip i
  | .userShow u e s e1 e2 => Wasm.userShow G R O u e s e1 e2

end Wasm

end Verif
