import Verif.Model.Errors

/-!
# Non-interactive zero-knowledge proofs (`aeonflux/src/proofs.rs`)

The five expanded proof modules, one Lean namespace each. `create` takes the 32 bytes that
`thread_rng()` yields as an argument (`entropy`). Simplification: the `&mut Transcript` is not
returned, because no caller uses its transcript after `create`/`verify` (issuer.rs:184,224,
user.rs:163,239, signal issuer.rs:173, signal user.rs:128).
-/

namespace Verif

variable {G : Type} [AddCommGroup G] [Module F G] [Ristretto G]

/-- `{ let mut bytes = [0; 64]; transcript.challenge_bytes(b"chal", &mut bytes);
Scalar::from_bytes_mod_order_wide(&bytes) }` (proofs.rs:123-127 and the other nine copies). -/
def getChallenge (O : Oracle) (t : Transcript) : Scalar := Scalar.fromWide (O.chal t "chal" 64)

/-- `fork_transcript()`, `commit_witness_bytes`, `reseed_from_rng(&mut thread_rng())` (proofs.rs:95-102
and the other four copies). -/
def proofRng (O : Oracle) (t : Transcript) (witnesses : List (String × Bytes)) (entropy : Bytes) :
    TRng :=
  { oracle := O, ops := t, witnesses := witnesses, entropy := entropy, drawn := [] }

/-! ## `issuance_revealed` (proofs.rs:36-178) -/

namespace IssuanceRevealed

/-- `Secrets` (proofs.rs:40-45). -/
@[ext] structure Secrets where
  x0 : Scalar
  x1 : Scalar
  x0_tilde : Scalar
  m1x1 : Scalar

/-- `Publics` (proofs.rs:48-55). -/
@[ext] structure Publics (G : Type) where
  P : G
  Q : G
  Cx0 : G
  B : G
  A : G
  X1 : G

/-- `Commitments` (proofs.rs:57-61). -/
@[ext] structure Commitments (G : Type) where
  Q : G
  Cx0 : G
  X1 : G

/-- `Randomnesses` (proofs.rs:63-68). -/
@[ext] structure Randomnesses where
  x0 : Scalar
  x1 : Scalar
  x0_tilde : Scalar
  m1x1 : Scalar

/-- `Responses` (proofs.rs:71-76). -/
@[ext] structure Responses where
  x0 : Scalar
  x1 : Scalar
  x0_tilde : Scalar
  m1x1 : Scalar
  deriving DecidableEq

/-- `Proof` (proofs.rs:79-82). -/
@[ext] structure Proof where
  challenge : Scalar
  responses : Responses
  deriving DecidableEq

/-- The statement part of the transcript in `create` (proofs.rs:88-94). -/
def commitPublics (t : Transcript) (p : Publics G) : Transcript :=
  t ++ [
    .commit "domain-sep" (ascii "issuance_revealed"),
    .commit "P" (enc p.P),
    .commit "Q" (enc p.Q),
    .commit "Cx0" (enc p.Cx0),
    .commit "B" (enc p.B),
    .commit "A" (enc p.A),
    .commit "X1" (enc p.X1)]

/-- The commitment part of the transcript in `create` (proofs.rs:120-122). -/
def commitCommitments (t : Transcript) (c : Commitments G) : Transcript :=
  t ++ [
    .commit "com Q" (enc c.Q),
    .commit "com Cx0" (enc c.Cx0),
    .commit "com X1" (enc c.X1)]

/-- The witness bytes given to the prover's RNG (proofs.rs:96-101). -/
def witnesses (s : Secrets) : List (String × Bytes) :=
  [("x0", s.x0.toBytes), ("x1", s.x1.toBytes), ("x0_tilde", s.x0_tilde.toBytes), ("m1x1", s.m1x1.toBytes)]

/-- The random scalars, drawn in this order (proofs.rs:103-108). -/
def drawRandomnesses {R : Type} [RngCore R] (r : R) : Randomnesses :=
  let (x0, r1) := Scalar.random r
  let (x1, r2) := Scalar.random r1
  let (x0_tilde, r3) := Scalar.random r2
  let (m1x1, _) := Scalar.random r3
  { x0, x1, x0_tilde, m1x1 }

/-- The prover's commitments (proofs.rs:109-119). -/
def commitmentsOf (p : Publics G) (rand : Randomnesses) : Commitments G where
  Q := msm [rand.x0, rand.m1x1] [p.P, p.P]
  Cx0 := msm [rand.x0, rand.x0_tilde] [p.B, p.A]
  X1 := msm [rand.x1] [p.A]

/-- The responses (proofs.rs:128-133). -/
def respond (challenge : Scalar) (secrets : Secrets) (rand : Randomnesses) : Responses where
  x0 := challenge * secrets.x0 + rand.x0
  x1 := challenge * secrets.x1 + rand.x1
  x0_tilde := challenge * secrets.x0_tilde + rand.x0_tilde
  m1x1 := challenge * secrets.m1x1 + rand.m1x1

/-- `Proof::create` for given randomnesses (proofs.rs:87-135 without the RNG). -/
def createWith (O : Oracle) (t : Transcript) (p : Publics G) (s : Secrets) (rand : Randomnesses) :
    Proof :=
  let t1 := commitPublics t p
  let commitments := commitmentsOf p rand
  let t2 := commitCommitments t1 commitments
  let challenge := getChallenge O t2
  { challenge := challenge, responses := respond challenge s rand }

/-- `Proof::create` (proofs.rs:87-135). -/
def create (O : Oracle) (t : Transcript) (entropy : Bytes) (p : Publics G) (s : Secrets) : Proof :=
  createWith O t p s (drawRandomnesses (proofRng O (commitPublics t p) (witnesses s) entropy))

/-- The commitments recomputed by the verifier (proofs.rs:142-155). -/
def recommit (p : Publics G) (proof : Proof) : Commitments G :=
  let responses := proof.responses
  let minus_c := -proof.challenge
  {
    Q := msm [responses.x0, responses.m1x1, minus_c] [p.P, p.P, p.Q]
    Cx0 := msm [responses.x0, responses.x0_tilde, minus_c] [p.B, p.A, p.Cx0]
    X1 := msm [responses.x1, minus_c] [p.A, p.X1] }

/-- The transcript built by `verify` (proofs.rs:156-165). -/
def verifyTranscript (t : Transcript) (p : Publics G) (c : Commitments G) : Transcript :=
  t ++ [
    .commit "domain-sep" (ascii "issuance_revealed"),
    .commit "P" (enc p.P),
    .commit "Q" (enc p.Q),
    .commit "Cx0" (enc p.Cx0),
    .commit "B" (enc p.B),
    .commit "A" (enc p.A),
    .commit "X1" (enc p.X1),
    .commit "com Q" (enc c.Q),
    .commit "com Cx0" (enc c.Cx0),
    .commit "com X1" (enc c.X1)]

/-- `Proof::verify(..).is_ok()` (proofs.rs:139-176). -/
def verify (O : Oracle) (t : Transcript) (proof : Proof) (p : Publics G) : Bool :=
  let commitments := recommit p proof
  let t1 := verifyTranscript t p commitments
  let challenge := getChallenge O t1
  decide (challenge = proof.challenge)

end IssuanceRevealed

/-! ## `attributes_blinded` (proofs.rs:180-345) -/

namespace AttributesBlinded

/-- `Secrets` (proofs.rs:184-189). -/
@[ext] structure Secrets where
  d : Scalar
  e0 : Scalar
  m0 : Scalar
  nonce : Scalar

/-- `Publics` (proofs.rs:192-198). -/
@[ext] structure Publics (G : Type) where
  B : G
  A : G
  D : G
  encrypted_attribute_0_0 : G
  encrypted_attribute_0_1 : G

/-- `Commitments` (proofs.rs:200-204). -/
@[ext] structure Commitments (G : Type) where
  D : G
  encrypted_attribute_0_0 : G
  encrypted_attribute_0_1 : G

/-- `Randomnesses` (proofs.rs:206-211). -/
@[ext] structure Randomnesses where
  d : Scalar
  e0 : Scalar
  m0 : Scalar
  nonce : Scalar

/-- `Responses` (proofs.rs:214-219). -/
@[ext] structure Responses where
  d : Scalar
  e0 : Scalar
  m0 : Scalar
  nonce : Scalar
  deriving DecidableEq

/-- `Proof` (proofs.rs:222-225). -/
@[ext] structure Proof where
  challenge : Scalar
  responses : Responses
  deriving DecidableEq

/-- The statement part of the transcript in `create` (proofs.rs:231-242). -/
def commitPublics (t : Transcript) (p : Publics G) : Transcript :=
  t ++ [
    .commit "domain-sep" (ascii "attributes_blinded"),
    .commit "B" (enc p.B),
    .commit "A" (enc p.A),
    .commit "D" (enc p.D),
    .commit "encrypted_attribute_0_0" (enc p.encrypted_attribute_0_0),
    .commit "encrypted_attribute_0_1" (enc p.encrypted_attribute_0_1)]

/-- The commitment part of the transcript in `create` (proofs.rs:267-275). -/
def commitCommitments (t : Transcript) (c : Commitments G) : Transcript :=
  t ++ [
    .commit "com D" (enc c.D),
    .commit "com encrypted_attribute_0_0" (enc c.encrypted_attribute_0_0),
    .commit "com encrypted_attribute_0_1" (enc c.encrypted_attribute_0_1)]

/-- The witness bytes given to the prover's RNG (proofs.rs:244-248). -/
def witnesses (s : Secrets) : List (String × Bytes) :=
  [("d", s.d.toBytes), ("e0", s.e0.toBytes), ("m0", s.m0.toBytes), ("nonce", s.nonce.toBytes)]

/-- The random scalars, drawn in this order (proofs.rs:250-255). -/
def drawRandomnesses {R : Type} [RngCore R] (r : R) : Randomnesses :=
  let (d, r1) := Scalar.random r
  let (e0, r2) := Scalar.random r1
  let (m0, r3) := Scalar.random r2
  let (nonce, _) := Scalar.random r3
  { d, e0, m0, nonce }

/-- The prover's commitments (proofs.rs:256-266). -/
def commitmentsOf (p : Publics G) (rand : Randomnesses) : Commitments G where
  D := msm [rand.d] [p.B]
  encrypted_attribute_0_0 := msm [rand.e0] [p.B]
  encrypted_attribute_0_1 := msm [rand.m0, rand.e0] [p.B, p.D]

/-- The responses (proofs.rs:281-286). -/
def respond (challenge : Scalar) (secrets : Secrets) (rand : Randomnesses) : Responses where
  d := challenge * secrets.d + rand.d
  e0 := challenge * secrets.e0 + rand.e0
  m0 := challenge * secrets.m0 + rand.m0
  nonce := challenge * secrets.nonce + rand.nonce

/-- `Proof::create` for given randomnesses (proofs.rs:230-288 without the RNG). -/
def createWith (O : Oracle) (t : Transcript) (p : Publics G) (s : Secrets) (rand : Randomnesses) :
    Proof :=
  let t1 := commitPublics t p
  let commitments := commitmentsOf p rand
  let t2 := commitCommitments t1 commitments
  let challenge := getChallenge O t2
  { challenge := challenge, responses := respond challenge s rand }

/-- `Proof::create` (proofs.rs:230-288). -/
def create (O : Oracle) (t : Transcript) (entropy : Bytes) (p : Publics G) (s : Secrets) : Proof :=
  createWith O t p s (drawRandomnesses (proofRng O (commitPublics t p) (witnesses s) entropy))

/-- The commitments recomputed by the verifier (proofs.rs:294-311). -/
def recommit (p : Publics G) (proof : Proof) : Commitments G :=
  let responses := proof.responses
  let minus_c := -proof.challenge
  {
    D := msm [responses.d, minus_c] [p.B, p.D]
    encrypted_attribute_0_0 := msm [responses.e0, minus_c] [p.B, p.encrypted_attribute_0_0]
    encrypted_attribute_0_1 := msm [responses.m0, responses.e0, minus_c] [p.B, p.D, p.encrypted_attribute_0_1] }

/-- The transcript built by `verify` (proofs.rs:312-332). -/
def verifyTranscript (t : Transcript) (p : Publics G) (c : Commitments G) : Transcript :=
  t ++ [
    .commit "domain-sep" (ascii "attributes_blinded"),
    .commit "B" (enc p.B),
    .commit "A" (enc p.A),
    .commit "D" (enc p.D),
    .commit "encrypted_attribute_0_0" (enc p.encrypted_attribute_0_0),
    .commit "encrypted_attribute_0_1" (enc p.encrypted_attribute_0_1),
    .commit "com D" (enc c.D),
    .commit "com encrypted_attribute_0_0" (enc c.encrypted_attribute_0_0),
    .commit "com encrypted_attribute_0_1" (enc c.encrypted_attribute_0_1)]

/-- `Proof::verify(..).is_ok()` (proofs.rs:291-343). -/
def verify (O : Oracle) (t : Transcript) (proof : Proof) (p : Publics G) : Bool :=
  let commitments := recommit p proof
  let t1 := verifyTranscript t p commitments
  let challenge := getChallenge O t1
  decide (challenge = proof.challenge)

end AttributesBlinded

/-! ## `issuance_blinded` (proofs.rs:347-593) -/

namespace IssuanceBlinded

/-- `Secrets` (proofs.rs:351-358). -/
@[ext] structure Secrets where
  x0_tilde : Scalar
  x0 : Scalar
  x1 : Scalar
  s : Scalar
  b : Scalar
  t0 : Scalar

/-- `Publics` (proofs.rs:361-374). -/
@[ext] structure Publics (G : Type) where
  B : G
  A : G
  X0 : G
  X1 : G
  D : G
  P : G
  T0_0 : G
  T0_1 : G
  EQ_commitment : G
  EQ_encryption : G
  encrypted_attribute_0_0 : G
  encrypted_attribute_0_1 : G

/-- `Commitments` (proofs.rs:376-384). -/
@[ext] structure Commitments (G : Type) where
  X0 : G
  X1 : G
  P : G
  T0_0 : G
  T0_1 : G
  EQ_commitment : G
  EQ_encryption : G

/-- `Randomnesses` (proofs.rs:386-393). -/
@[ext] structure Randomnesses where
  x0_tilde : Scalar
  x0 : Scalar
  x1 : Scalar
  s : Scalar
  b : Scalar
  t0 : Scalar

/-- `Responses` (proofs.rs:396-403). -/
@[ext] structure Responses where
  x0_tilde : Scalar
  x0 : Scalar
  x1 : Scalar
  s : Scalar
  b : Scalar
  t0 : Scalar
  deriving DecidableEq

/-- `Proof` (proofs.rs:406-409). -/
@[ext] structure Proof where
  challenge : Scalar
  responses : Responses
  deriving DecidableEq

/-- The statement part of the transcript in `create` (proofs.rs:415-439). -/
def commitPublics (t : Transcript) (p : Publics G) : Transcript :=
  t ++ [
    .commit "domain-sep" (ascii "issuance_blinded"),
    .commit "B" (enc p.B),
    .commit "A" (enc p.A),
    .commit "X0" (enc p.X0),
    .commit "X1" (enc p.X1),
    .commit "D" (enc p.D),
    .commit "P" (enc p.P),
    .commit "T0_0" (enc p.T0_0),
    .commit "T0_1" (enc p.T0_1),
    .commit "EQ_commitment" (enc p.EQ_commitment),
    .commit "EQ_encryption" (enc p.EQ_encryption),
    .commit "encrypted_attribute_0_0" (enc p.encrypted_attribute_0_0),
    .commit "encrypted_attribute_0_1" (enc p.encrypted_attribute_0_1)]

/-- The commitment part of the transcript in `create` (proofs.rs:475-487). -/
def commitCommitments (t : Transcript) (c : Commitments G) : Transcript :=
  t ++ [
    .commit "com X0" (enc c.X0),
    .commit "com X1" (enc c.X1),
    .commit "com P" (enc c.P),
    .commit "com T0_0" (enc c.T0_0),
    .commit "com T0_1" (enc c.T0_1),
    .commit "com EQ_commitment" (enc c.EQ_commitment),
    .commit "com EQ_encryption" (enc c.EQ_encryption)]

/-- The witness bytes given to the prover's RNG (proofs.rs:441-447). -/
def witnesses (s : Secrets) : List (String × Bytes) :=
  [("x0_tilde", s.x0_tilde.toBytes), ("x0", s.x0.toBytes), ("x1", s.x1.toBytes), ("s", s.s.toBytes), ("b", s.b.toBytes), ("t0", s.t0.toBytes)]

/-- The random scalars, drawn in this order (proofs.rs:449-456). -/
def drawRandomnesses {R : Type} [RngCore R] (r : R) : Randomnesses :=
  let (x0_tilde, r1) := Scalar.random r
  let (x0, r2) := Scalar.random r1
  let (x1, r3) := Scalar.random r2
  let (s, r4) := Scalar.random r3
  let (b, r5) := Scalar.random r4
  let (t0, _) := Scalar.random r5
  { x0_tilde, x0, x1, s, b, t0 }

/-- The prover's commitments (proofs.rs:457-474). -/
def commitmentsOf (p : Publics G) (rand : Randomnesses) : Commitments G where
  X0 := msm [rand.x0, rand.x0_tilde] [p.B, p.A]
  X1 := msm [rand.x1] [p.A]
  P := msm [rand.b] [p.B]
  T0_0 := msm [rand.b] [p.X0]
  T0_1 := msm [rand.t0] [p.A]
  EQ_commitment := msm [rand.s, rand.t0] [p.B, p.encrypted_attribute_0_0]
  EQ_encryption := msm [rand.s, rand.t0] [p.D, p.encrypted_attribute_0_1]

/-- The responses (proofs.rs:493-500). -/
def respond (challenge : Scalar) (secrets : Secrets) (rand : Randomnesses) : Responses where
  x0_tilde := challenge * secrets.x0_tilde + rand.x0_tilde
  x0 := challenge * secrets.x0 + rand.x0
  x1 := challenge * secrets.x1 + rand.x1
  s := challenge * secrets.s + rand.s
  b := challenge * secrets.b + rand.b
  t0 := challenge * secrets.t0 + rand.t0

/-- `Proof::create` for given randomnesses (proofs.rs:414-502 without the RNG). -/
def createWith (O : Oracle) (t : Transcript) (p : Publics G) (s : Secrets) (rand : Randomnesses) :
    Proof :=
  let t1 := commitPublics t p
  let commitments := commitmentsOf p rand
  let t2 := commitCommitments t1 commitments
  let challenge := getChallenge O t2
  { challenge := challenge, responses := respond challenge s rand }

/-- `Proof::create` (proofs.rs:414-502). -/
def create (O : Oracle) (t : Transcript) (entropy : Bytes) (p : Publics G) (s : Secrets) : Proof :=
  createWith O t p s (drawRandomnesses (proofRng O (commitPublics t p) (witnesses s) entropy))

/-- The commitments recomputed by the verifier (proofs.rs:509-542). -/
def recommit (p : Publics G) (proof : Proof) : Commitments G :=
  let responses := proof.responses
  let minus_c := -proof.challenge
  {
    X0 := msm [responses.x0, responses.x0_tilde, minus_c] [p.B, p.A, p.X0]
    X1 := msm [responses.x1, minus_c] [p.A, p.X1]
    P := msm [responses.b, minus_c] [p.B, p.P]
    T0_0 := msm [responses.b, minus_c] [p.X0, p.T0_0]
    T0_1 := msm [responses.t0, minus_c] [p.A, p.T0_1]
    EQ_commitment := msm [responses.s, responses.t0, minus_c] [p.B, p.encrypted_attribute_0_0, p.EQ_commitment]
    EQ_encryption := msm [responses.s, responses.t0, minus_c] [p.D, p.encrypted_attribute_0_1, p.EQ_encryption] }

/-- The transcript built by `verify` (proofs.rs:543-580). -/
def verifyTranscript (t : Transcript) (p : Publics G) (c : Commitments G) : Transcript :=
  t ++ [
    .commit "domain-sep" (ascii "issuance_blinded"),
    .commit "B" (enc p.B),
    .commit "A" (enc p.A),
    .commit "X0" (enc p.X0),
    .commit "X1" (enc p.X1),
    .commit "D" (enc p.D),
    .commit "P" (enc p.P),
    .commit "T0_0" (enc p.T0_0),
    .commit "T0_1" (enc p.T0_1),
    .commit "EQ_commitment" (enc p.EQ_commitment),
    .commit "EQ_encryption" (enc p.EQ_encryption),
    .commit "encrypted_attribute_0_0" (enc p.encrypted_attribute_0_0),
    .commit "encrypted_attribute_0_1" (enc p.encrypted_attribute_0_1),
    .commit "com X0" (enc c.X0),
    .commit "com X1" (enc c.X1),
    .commit "com P" (enc c.P),
    .commit "com T0_0" (enc c.T0_0),
    .commit "com T0_1" (enc c.T0_1),
    .commit "com EQ_commitment" (enc c.EQ_commitment),
    .commit "com EQ_encryption" (enc c.EQ_encryption)]

/-- `Proof::verify(..).is_ok()` (proofs.rs:506-591). -/
def verify (O : Oracle) (t : Transcript) (proof : Proof) (p : Publics G) : Bool :=
  let commitments := recommit p proof
  let t1 := verifyTranscript t p commitments
  let challenge := getChallenge O t1
  decide (challenge = proof.challenge)

end IssuanceBlinded

/-! ## `valid_credential` (proofs.rs:595-722) -/

namespace ValidCredential

/-- `Secrets` (proofs.rs:599-603). -/
@[ext] structure Secrets where
  m0 : Scalar
  z0 : Scalar
  minus_zQ : Scalar

/-- `Publics` (proofs.rs:606-613). -/
@[ext] structure Publics (G : Type) where
  B : G
  A : G
  X0 : G
  P : G
  V : G
  Cm0 : G

/-- `Commitments` (proofs.rs:615-618). -/
@[ext] structure Commitments (G : Type) where
  Cm0 : G
  V : G

/-- `Randomnesses` (proofs.rs:620-624). -/
@[ext] structure Randomnesses where
  m0 : Scalar
  z0 : Scalar
  minus_zQ : Scalar

/-- `Responses` (proofs.rs:627-631). -/
@[ext] structure Responses where
  m0 : Scalar
  z0 : Scalar
  minus_zQ : Scalar
  deriving DecidableEq

/-- `Proof` (proofs.rs:634-637). -/
@[ext] structure Proof where
  challenge : Scalar
  responses : Responses
  deriving DecidableEq

/-- The statement part of the transcript in `create` (proofs.rs:643-649). -/
def commitPublics (t : Transcript) (p : Publics G) : Transcript :=
  t ++ [
    .commit "domain-sep" (ascii "valid_credential"),
    .commit "B" (enc p.B),
    .commit "A" (enc p.A),
    .commit "X0" (enc p.X0),
    .commit "P" (enc p.P),
    .commit "V" (enc p.V),
    .commit "Cm0" (enc p.Cm0)]

/-- The commitment part of the transcript in `create` (proofs.rs:671-672). -/
def commitCommitments (t : Transcript) (c : Commitments G) : Transcript :=
  t ++ [
    .commit "com Cm0" (enc c.Cm0),
    .commit "com V" (enc c.V)]

/-- The witness bytes given to the prover's RNG (proofs.rs:651-654). -/
def witnesses (s : Secrets) : List (String × Bytes) :=
  [("m0", s.m0.toBytes), ("z0", s.z0.toBytes), ("minus_zQ", s.minus_zQ.toBytes)]

/-- The random scalars, drawn in this order (proofs.rs:656-660). -/
def drawRandomnesses {R : Type} [RngCore R] (r : R) : Randomnesses :=
  let (m0, r1) := Scalar.random r
  let (z0, r2) := Scalar.random r1
  let (minus_zQ, _) := Scalar.random r2
  { m0, z0, minus_zQ }

/-- The prover's commitments (proofs.rs:661-670). -/
def commitmentsOf (p : Publics G) (rand : Randomnesses) : Commitments G where
  Cm0 := msm [rand.m0, rand.z0] [p.P, p.A]
  V := msm [rand.z0, rand.minus_zQ] [p.X0, p.A]

/-- The responses (proofs.rs:678-682). -/
def respond (challenge : Scalar) (secrets : Secrets) (rand : Randomnesses) : Responses where
  m0 := challenge * secrets.m0 + rand.m0
  z0 := challenge * secrets.z0 + rand.z0
  minus_zQ := challenge * secrets.minus_zQ + rand.minus_zQ

/-- `Proof::create` for given randomnesses (proofs.rs:642-684 without the RNG). -/
def createWith (O : Oracle) (t : Transcript) (p : Publics G) (s : Secrets) (rand : Randomnesses) :
    Proof :=
  let t1 := commitPublics t p
  let commitments := commitmentsOf p rand
  let t2 := commitCommitments t1 commitments
  let challenge := getChallenge O t2
  { challenge := challenge, responses := respond challenge s rand }

/-- `Proof::create` (proofs.rs:642-684). -/
def create (O : Oracle) (t : Transcript) (entropy : Bytes) (p : Publics G) (s : Secrets) : Proof :=
  createWith O t p s (drawRandomnesses (proofRng O (commitPublics t p) (witnesses s) entropy))

/-- The commitments recomputed by the verifier (proofs.rs:691-700). -/
def recommit (p : Publics G) (proof : Proof) : Commitments G :=
  let responses := proof.responses
  let minus_c := -proof.challenge
  {
    Cm0 := msm [responses.m0, responses.z0, minus_c] [p.P, p.A, p.Cm0]
    V := msm [responses.z0, responses.minus_zQ, minus_c] [p.X0, p.A, p.V] }

/-- The transcript built by `verify` (proofs.rs:701-709). -/
def verifyTranscript (t : Transcript) (p : Publics G) (c : Commitments G) : Transcript :=
  t ++ [
    .commit "domain-sep" (ascii "valid_credential"),
    .commit "B" (enc p.B),
    .commit "A" (enc p.A),
    .commit "X0" (enc p.X0),
    .commit "P" (enc p.P),
    .commit "V" (enc p.V),
    .commit "Cm0" (enc p.Cm0),
    .commit "com Cm0" (enc c.Cm0),
    .commit "com V" (enc c.V)]

/-- `Proof::verify(..).is_ok()` (proofs.rs:688-720). -/
def verify (O : Oracle) (t : Transcript) (proof : Proof) (p : Publics G) : Bool :=
  let commitments := recommit p proof
  let t1 := verifyTranscript t p commitments
  let challenge := getChallenge O t1
  decide (challenge = proof.challenge)

end ValidCredential

/-! ## `committed_values_equal` (proofs.rs:724-847) -/

namespace CommittedValuesEqual

/-- `Secrets` (proofs.rs:728-732). -/
@[ext] structure Secrets where
  m0 : Scalar
  z0 : Scalar
  z1 : Scalar

/-- `Publics` (proofs.rs:735-741). -/
@[ext] structure Publics (G : Type) where
  B : G
  A : G
  P : G
  Cm0 : G
  Cm1 : G

/-- `Commitments` (proofs.rs:743-746). -/
@[ext] structure Commitments (G : Type) where
  Cm0 : G
  Cm1 : G

/-- `Randomnesses` (proofs.rs:748-752). -/
@[ext] structure Randomnesses where
  m0 : Scalar
  z0 : Scalar
  z1 : Scalar

/-- `Responses` (proofs.rs:755-759). -/
@[ext] structure Responses where
  m0 : Scalar
  z0 : Scalar
  z1 : Scalar
  deriving DecidableEq

/-- `Proof` (proofs.rs:762-765). -/
@[ext] structure Proof where
  challenge : Scalar
  responses : Responses
  deriving DecidableEq

/-- The statement part of the transcript in `create` (proofs.rs:771-776). -/
def commitPublics (t : Transcript) (p : Publics G) : Transcript :=
  t ++ [
    .commit "domain-sep" (ascii "committed_values_equal"),
    .commit "B" (enc p.B),
    .commit "A" (enc p.A),
    .commit "P" (enc p.P),
    .commit "Cm0" (enc p.Cm0),
    .commit "Cm1" (enc p.Cm1)]

/-- The commitment part of the transcript in `create` (proofs.rs:797-798). -/
def commitCommitments (t : Transcript) (c : Commitments G) : Transcript :=
  t ++ [
    .commit "com Cm0" (enc c.Cm0),
    .commit "com Cm1" (enc c.Cm1)]

/-- The witness bytes given to the prover's RNG (proofs.rs:778-780). -/
def witnesses (s : Secrets) : List (String × Bytes) :=
  [("m0", s.m0.toBytes), ("z0", s.z0.toBytes), ("z1", s.z1.toBytes)]

/-- The random scalars, drawn in this order (proofs.rs:782-786). -/
def drawRandomnesses {R : Type} [RngCore R] (r : R) : Randomnesses :=
  let (m0, r1) := Scalar.random r
  let (z0, r2) := Scalar.random r1
  let (z1, _) := Scalar.random r2
  { m0, z0, z1 }

/-- The prover's commitments (proofs.rs:787-796). -/
def commitmentsOf (p : Publics G) (rand : Randomnesses) : Commitments G where
  Cm0 := msm [rand.m0, rand.z0] [p.P, p.A]
  Cm1 := msm [rand.m0, rand.z1] [p.A, p.B]

/-- The responses (proofs.rs:804-808). -/
def respond (challenge : Scalar) (secrets : Secrets) (rand : Randomnesses) : Responses where
  m0 := challenge * secrets.m0 + rand.m0
  z0 := challenge * secrets.z0 + rand.z0
  z1 := challenge * secrets.z1 + rand.z1

/-- `Proof::create` for given randomnesses (proofs.rs:770-810 without the RNG). -/
def createWith (O : Oracle) (t : Transcript) (p : Publics G) (s : Secrets) (rand : Randomnesses) :
    Proof :=
  let t1 := commitPublics t p
  let commitments := commitmentsOf p rand
  let t2 := commitCommitments t1 commitments
  let challenge := getChallenge O t2
  { challenge := challenge, responses := respond challenge s rand }

/-- `Proof::create` (proofs.rs:770-810). -/
def create (O : Oracle) (t : Transcript) (entropy : Bytes) (p : Publics G) (s : Secrets) : Proof :=
  createWith O t p s (drawRandomnesses (proofRng O (commitPublics t p) (witnesses s) entropy))

/-- The commitments recomputed by the verifier (proofs.rs:817-826). -/
def recommit (p : Publics G) (proof : Proof) : Commitments G :=
  let responses := proof.responses
  let minus_c := -proof.challenge
  {
    Cm0 := msm [responses.m0, responses.z0, minus_c] [p.P, p.A, p.Cm0]
    Cm1 := msm [responses.m0, responses.z1, minus_c] [p.A, p.B, p.Cm1] }

/-- The transcript built by `verify` (proofs.rs:827-834). -/
def verifyTranscript (t : Transcript) (p : Publics G) (c : Commitments G) : Transcript :=
  t ++ [
    .commit "domain-sep" (ascii "committed_values_equal"),
    .commit "B" (enc p.B),
    .commit "A" (enc p.A),
    .commit "P" (enc p.P),
    .commit "Cm0" (enc p.Cm0),
    .commit "Cm1" (enc p.Cm1),
    .commit "com Cm0" (enc c.Cm0),
    .commit "com Cm1" (enc c.Cm1)]

/-- `Proof::verify(..).is_ok()` (proofs.rs:814-845). -/
def verify (O : Oracle) (t : Transcript) (proof : Proof) (p : Publics G) : Bool :=
  let commitments := recommit p proof
  let t1 := verifyTranscript t p commitments
  let challenge := getChallenge O t1
  decide (challenge = proof.challenge)

end CommittedValuesEqual

end Verif
