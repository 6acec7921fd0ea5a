import Verif.Props.Nizk
import Verif.Model.Signal

/-!
# Hash queries and the declared statements (C32, C63)
-/

set_option maxRecDepth 100000

namespace Verif

variable {G : Type} [AddCommGroup G] [Module F G] [Ristretto G]

/-! ## C63 a small interpreter for `create_nipk!` declarations

`Spec.Decl` is the macro's input; `Spec.Decl.create` and `Spec.Decl.verify` are the Schnorr prover
and verifier the macro stands for (zkp crate), written once for all declarations. -/

/-- `create_nipk!(name, (secrets), (publics) : lhs = (point * secret + …), …)`. -/
structure Spec.Decl where
  name : String
  secrets : List String
  publics : List String
  equations : List (String × List (String × String))

namespace Spec.Decl

/-- The declared statement, for named points and scalars. -/
def Holds (d : Decl) (pub : String → G) (sec : String → Scalar) : Prop :=
  ∀ eq ∈ d.equations, pub eq.1 = (eq.2.map fun ps => (sec ps.2).val • pub ps.1).sum

/-- Everything hashed before the challenge: name, publics in order, commitments in order. -/
def query (d : Decl) (t : Transcript) (pub : String → G) (com : List G) : Transcript :=
  t ++ Op.commit "domain-sep" (ascii d.name) ::
    (d.publics.map fun l => Op.commit l (enc (pub l))) ++
    List.zipWith (fun eq c => Op.commit ("com " ++ eq.1) (enc c)) d.equations com

/-- The prover: challenge, and the response for each secret. -/
def create (d : Decl) (O : Oracle) (t : Transcript) (pub : String → G) (sec rand : String → Scalar) :
    F × (String → F) :=
  let com := d.equations.map fun eq => (eq.2.map fun ps => (rand ps.2).val • pub ps.1).sum
  let c : F := leVal (O.chal (d.query t pub com) "chal" 64)
  (c, fun l => c * (sec l).val + (rand l).val)

/-- The verifier. -/
def verify (d : Decl) (O : Oracle) (t : Transcript) (pub : String → G) (c : Scalar)
    (resp : String → Scalar) : Prop :=
  let com := d.equations.map fun eq =>
    (eq.2.map fun ps => (resp ps.2).val • pub ps.1).sum - c.val • pub eq.1
  c.n = leVal (O.chal (d.query t pub com) "chal" 64) % ell

end Spec.Decl

theorem challenge_eq_iff (c : Scalar) (b : Bytes) : Scalar.fromWide b = c ↔ c.n = leVal b % ell := by
  rw [← Scalar.fromWide_n]
  exact ⟨fun h => by rw [h], fun h => (Scalar.ext h).symm⟩

/-! ### issuance_revealed (proofs_macros.rs:43-50) -/

/-- The declaration. -/
def Spec.declIssuanceRevealed : Spec.Decl where
  name := "issuance_revealed"
  secrets := ["x0", "x1", "x0_tilde", "m1x1"]
  publics :=
    ["P", "Q", "Cx0", "B", "A", "X1"]
  equations :=
    [ ("Q", [("P", "x0"), ("P", "m1x1")]),
      ("Cx0", [("B", "x0"), ("A", "x0_tilde")]),
      ("X1", [("A", "x1")]) ]

namespace IssuanceRevealed

/-- The publics by name. -/
def pubEnv (p : Publics G) (l : String) : G :=
  if l = "P" then p.P else if l = "Q" then p.Q else if l = "Cx0" then p.Cx0 else if l = "B" then
  p.B else if l = "A" then p.A else if l = "X1" then p.X1 else 0

/-- The secrets by name. -/
def secEnv (s : Secrets) (l : String) : Scalar :=
  if l = "x0" then s.x0 else if l = "x1" then s.x1 else if l = "x0_tilde" then s.x0_tilde else if
  l = "m1x1" then s.m1x1 else 0

/-- The random scalars by name. -/
def randEnv (s : Randomnesses) (l : String) : Scalar :=
  if l = "x0" then s.x0 else if l = "x1" then s.x1 else if l = "x0_tilde" then s.x0_tilde else if
  l = "m1x1" then s.m1x1 else 0

/-- The responses by name. -/
def respEnv (s : Responses) (l : String) : Scalar :=
  if l = "x0" then s.x0 else if l = "x1" then s.x1 else if l = "x0_tilde" then s.x0_tilde else if
  l = "m1x1" then s.m1x1 else 0

omit [Ristretto G] in
/-- The relation used in C29–C31 is the declared one. -/
theorem C63_relation (p : Publics G) (s : Secrets) :
    Spec.IssuanceRevealed p s ↔ Spec.declIssuanceRevealed.Holds (pubEnv p) (secEnv s) := by
  simp [Spec.IssuanceRevealed, Spec.declIssuanceRevealed, Spec.Decl.Holds, pubEnv, secEnv]

/-- `verify` is the interpreter's verifier for the declaration. -/
theorem C63_verify (O : Oracle) (t : Transcript) (r : Proof) (p : Publics G) :
    verify O t r p = true ↔
      Spec.declIssuanceRevealed.verify O t (pubEnv p) r.challenge (respEnv r.responses) := by
  rw [verify, decide_eq_true_iff, getChallenge, challenge_eq_iff]
  simp [Spec.declIssuanceRevealed, Spec.Decl.verify, Spec.Decl.query, pubEnv, respEnv,
    verifyTranscript, recommit, msm, Scalar.smul_def, sub_eq_add_neg, ← add_assoc]

/-- `create` is the interpreter's prover for the declaration, all outputs being canonical. -/
theorem C63_create (O : Oracle) (t : Transcript) (p : Publics G) (s : Secrets) (rand : Randomnesses) :
    let r := createWith O t p s rand
    let spec := Spec.declIssuanceRevealed.create O t (pubEnv p) (secEnv s) (randEnv rand)
    r.challenge = Scalar.ofF spec.1 ∧
      ∀ l ∈ Spec.declIssuanceRevealed.secrets, respEnv r.responses l = Scalar.ofF (spec.2 l) := by
  have e : getChallenge O (commitCommitments (commitPublics t p) (commitmentsOf p rand)) =
      Scalar.ofF (Spec.declIssuanceRevealed.create O t (pubEnv p) (secEnv s) (randEnv rand)).1 := by
    rw [getChallenge, Scalar.fromWide]
    simp [Spec.declIssuanceRevealed, Spec.Decl.create, Spec.Decl.query, pubEnv, randEnv,
      commitCommitments, commitPublics, commitmentsOf, msm, Scalar.smul_def]
  refine ⟨e, ?_⟩
  have e2 : ∀ a b : Scalar, getChallenge O (commitCommitments (commitPublics t p)
      (commitmentsOf p rand)) * a + b = Scalar.ofF
      ((Spec.declIssuanceRevealed.create O t (pubEnv p) (secEnv s) (randEnv rand)).1 * a.val + b.val) := by
    intro a b
    rw [e, Scalar.add_def, Scalar.val_mul, Scalar.val_ofF]
  intro l hl
  simp only [Spec.declIssuanceRevealed, List.mem_cons, List.not_mem_nil, or_false] at hl
  rcases hl with rfl | rfl | rfl | rfl <;> exact e2 _ _

/-- The random scalars are drawn in the declared order, after keying the RNG with the witnesses in
the declared order. -/
theorem C63_witnesses (s : Secrets) :
    witnesses s = Spec.declIssuanceRevealed.secrets.map fun l => (l, (secEnv s l).toBytes) := by
  simp [witnesses, Spec.declIssuanceRevealed, secEnv]

end IssuanceRevealed

/-! ### attributes_blinded (proofs_macros.rs:72-79) -/

/-- The declaration. -/
def Spec.declAttributesBlinded : Spec.Decl where
  name := "attributes_blinded"
  secrets := ["d", "e0", "m0", "nonce"]
  publics :=
    ["B", "A", "D", "encrypted_attribute_0_0", "encrypted_attribute_0_1"]
  equations :=
    [ ("D", [("B", "d")]),
      ("encrypted_attribute_0_0", [("B", "e0")]),
      ("encrypted_attribute_0_1", [("B", "m0"), ("D", "e0")]) ]

namespace AttributesBlinded

/-- The publics by name. -/
def pubEnv (p : Publics G) (l : String) : G :=
  if l = "B" then p.B else if l = "A" then p.A else if l = "D" then p.D else if l =
  "encrypted_attribute_0_0" then p.encrypted_attribute_0_0 else if l = "encrypted_attribute_0_1"
  then p.encrypted_attribute_0_1 else 0

/-- The secrets by name. -/
def secEnv (s : Secrets) (l : String) : Scalar :=
  if l = "d" then s.d else if l = "e0" then s.e0 else if l = "m0" then s.m0 else if l = "nonce"
  then s.nonce else 0

/-- The random scalars by name. -/
def randEnv (s : Randomnesses) (l : String) : Scalar :=
  if l = "d" then s.d else if l = "e0" then s.e0 else if l = "m0" then s.m0 else if l = "nonce"
  then s.nonce else 0

/-- The responses by name. -/
def respEnv (s : Responses) (l : String) : Scalar :=
  if l = "d" then s.d else if l = "e0" then s.e0 else if l = "m0" then s.m0 else if l = "nonce"
  then s.nonce else 0

omit [Ristretto G] in
/-- The relation used in C29–C31 is the declared one. -/
theorem C63_relation (p : Publics G) (s : Secrets) :
    Spec.AttributesBlinded p s ↔ Spec.declAttributesBlinded.Holds (pubEnv p) (secEnv s) := by
  simp [Spec.AttributesBlinded, Spec.declAttributesBlinded, Spec.Decl.Holds, pubEnv, secEnv]

/-- `verify` is the interpreter's verifier for the declaration. -/
theorem C63_verify (O : Oracle) (t : Transcript) (r : Proof) (p : Publics G) :
    verify O t r p = true ↔
      Spec.declAttributesBlinded.verify O t (pubEnv p) r.challenge (respEnv r.responses) := by
  rw [verify, decide_eq_true_iff, getChallenge, challenge_eq_iff]
  simp [Spec.declAttributesBlinded, Spec.Decl.verify, Spec.Decl.query, pubEnv, respEnv,
    verifyTranscript, recommit, msm, Scalar.smul_def, sub_eq_add_neg, ← add_assoc]

/-- `create` is the interpreter's prover for the declaration, all outputs being canonical. -/
theorem C63_create (O : Oracle) (t : Transcript) (p : Publics G) (s : Secrets) (rand : Randomnesses) :
    let r := createWith O t p s rand
    let spec := Spec.declAttributesBlinded.create O t (pubEnv p) (secEnv s) (randEnv rand)
    r.challenge = Scalar.ofF spec.1 ∧
      ∀ l ∈ Spec.declAttributesBlinded.secrets, respEnv r.responses l = Scalar.ofF (spec.2 l) := by
  have e : getChallenge O (commitCommitments (commitPublics t p) (commitmentsOf p rand)) =
      Scalar.ofF (Spec.declAttributesBlinded.create O t (pubEnv p) (secEnv s) (randEnv rand)).1 := by
    rw [getChallenge, Scalar.fromWide]
    simp [Spec.declAttributesBlinded, Spec.Decl.create, Spec.Decl.query, pubEnv, randEnv,
      commitCommitments, commitPublics, commitmentsOf, msm, Scalar.smul_def]
  refine ⟨e, ?_⟩
  have e2 : ∀ a b : Scalar, getChallenge O (commitCommitments (commitPublics t p)
      (commitmentsOf p rand)) * a + b = Scalar.ofF
      ((Spec.declAttributesBlinded.create O t (pubEnv p) (secEnv s) (randEnv rand)).1 * a.val + b.val) := by
    intro a b
    rw [e, Scalar.add_def, Scalar.val_mul, Scalar.val_ofF]
  intro l hl
  simp only [Spec.declAttributesBlinded, List.mem_cons, List.not_mem_nil, or_false] at hl
  rcases hl with rfl | rfl | rfl | rfl <;> exact e2 _ _

/-- The random scalars are drawn in the declared order, after keying the RNG with the witnesses in
the declared order. -/
theorem C63_witnesses (s : Secrets) :
    witnesses s = Spec.declAttributesBlinded.secrets.map fun l => (l, (secEnv s l).toBytes) := by
  simp [witnesses, Spec.declAttributesBlinded, secEnv]

end AttributesBlinded

/-! ### issuance_blinded (proofs_macros.rs:87-102) -/

/-- The declaration. -/
def Spec.declIssuanceBlinded : Spec.Decl where
  name := "issuance_blinded"
  secrets := ["x0_tilde", "x0", "x1", "s", "b", "t0"]
  publics :=
    ["B", "A", "X0", "X1", "D", "P", "T0_0", "T0_1", "EQ_commitment", "EQ_encryption",
    "encrypted_attribute_0_0", "encrypted_attribute_0_1"]
  equations :=
    [ ("X0", [("B", "x0"), ("A", "x0_tilde")]),
      ("X1", [("A", "x1")]),
      ("P", [("B", "b")]),
      ("T0_0", [("X0", "b")]),
      ("T0_1", [("A", "t0")]),
      ("EQ_commitment", [("B", "s"), ("encrypted_attribute_0_0", "t0")]),
      ("EQ_encryption", [("D", "s"), ("encrypted_attribute_0_1", "t0")]) ]

namespace IssuanceBlinded

/-- The publics by name. -/
def pubEnv (p : Publics G) (l : String) : G :=
  if l = "B" then p.B else if l = "A" then p.A else if l = "X0" then p.X0 else if l = "X1" then
  p.X1 else if l = "D" then p.D else if l = "P" then p.P else if l = "T0_0" then p.T0_0 else if l
  = "T0_1" then p.T0_1 else if l = "EQ_commitment" then p.EQ_commitment else if l =
  "EQ_encryption" then p.EQ_encryption else if l = "encrypted_attribute_0_0" then
  p.encrypted_attribute_0_0 else if l = "encrypted_attribute_0_1" then p.encrypted_attribute_0_1
  else 0

/-- The secrets by name. -/
def secEnv (s : Secrets) (l : String) : Scalar :=
  if l = "x0_tilde" then s.x0_tilde else if l = "x0" then s.x0 else if l = "x1" then s.x1 else if
  l = "s" then s.s else if l = "b" then s.b else if l = "t0" then s.t0 else 0

/-- The random scalars by name. -/
def randEnv (s : Randomnesses) (l : String) : Scalar :=
  if l = "x0_tilde" then s.x0_tilde else if l = "x0" then s.x0 else if l = "x1" then s.x1 else if
  l = "s" then s.s else if l = "b" then s.b else if l = "t0" then s.t0 else 0

/-- The responses by name. -/
def respEnv (s : Responses) (l : String) : Scalar :=
  if l = "x0_tilde" then s.x0_tilde else if l = "x0" then s.x0 else if l = "x1" then s.x1 else if
  l = "s" then s.s else if l = "b" then s.b else if l = "t0" then s.t0 else 0

omit [Ristretto G] in
/-- The relation used in C29–C31 is the declared one. -/
theorem C63_relation (p : Publics G) (s : Secrets) :
    Spec.IssuanceBlinded p s ↔ Spec.declIssuanceBlinded.Holds (pubEnv p) (secEnv s) := by
  simp [Spec.IssuanceBlinded, Spec.declIssuanceBlinded, Spec.Decl.Holds, pubEnv, secEnv]

/-- `verify` is the interpreter's verifier for the declaration. -/
theorem C63_verify (O : Oracle) (t : Transcript) (r : Proof) (p : Publics G) :
    verify O t r p = true ↔
      Spec.declIssuanceBlinded.verify O t (pubEnv p) r.challenge (respEnv r.responses) := by
  rw [verify, decide_eq_true_iff, getChallenge, challenge_eq_iff]
  simp [Spec.declIssuanceBlinded, Spec.Decl.verify, Spec.Decl.query, pubEnv, respEnv,
    verifyTranscript, recommit, msm, Scalar.smul_def, sub_eq_add_neg, ← add_assoc]

/-- `create` is the interpreter's prover for the declaration, all outputs being canonical. -/
theorem C63_create (O : Oracle) (t : Transcript) (p : Publics G) (s : Secrets) (rand : Randomnesses) :
    let r := createWith O t p s rand
    let spec := Spec.declIssuanceBlinded.create O t (pubEnv p) (secEnv s) (randEnv rand)
    r.challenge = Scalar.ofF spec.1 ∧
      ∀ l ∈ Spec.declIssuanceBlinded.secrets, respEnv r.responses l = Scalar.ofF (spec.2 l) := by
  have e : getChallenge O (commitCommitments (commitPublics t p) (commitmentsOf p rand)) =
      Scalar.ofF (Spec.declIssuanceBlinded.create O t (pubEnv p) (secEnv s) (randEnv rand)).1 := by
    rw [getChallenge, Scalar.fromWide]
    simp [Spec.declIssuanceBlinded, Spec.Decl.create, Spec.Decl.query, pubEnv, randEnv,
      commitCommitments, commitPublics, commitmentsOf, msm, Scalar.smul_def]
  refine ⟨e, ?_⟩
  have e2 : ∀ a b : Scalar, getChallenge O (commitCommitments (commitPublics t p)
      (commitmentsOf p rand)) * a + b = Scalar.ofF
      ((Spec.declIssuanceBlinded.create O t (pubEnv p) (secEnv s) (randEnv rand)).1 * a.val + b.val) := by
    intro a b
    rw [e, Scalar.add_def, Scalar.val_mul, Scalar.val_ofF]
  intro l hl
  simp only [Spec.declIssuanceBlinded, List.mem_cons, List.not_mem_nil, or_false] at hl
  rcases hl with rfl | rfl | rfl | rfl | rfl | rfl <;> exact e2 _ _

/-- The random scalars are drawn in the declared order, after keying the RNG with the witnesses in
the declared order. -/
theorem C63_witnesses (s : Secrets) :
    witnesses s = Spec.declIssuanceBlinded.secrets.map fun l => (l, (secEnv s l).toBytes) := by
  simp [witnesses, Spec.declIssuanceBlinded, secEnv]

end IssuanceBlinded

/-! ### valid_credential (proofs_macros.rs:104-110) -/

/-- The declaration. -/
def Spec.declValidCredential : Spec.Decl where
  name := "valid_credential"
  secrets := ["m0", "z0", "minus_zQ"]
  publics :=
    ["B", "A", "X0", "P", "V", "Cm0"]
  equations :=
    [ ("Cm0", [("P", "m0"), ("A", "z0")]),
      ("V", [("X0", "z0"), ("A", "minus_zQ")]) ]

namespace ValidCredential

/-- The publics by name. -/
def pubEnv (p : Publics G) (l : String) : G :=
  if l = "B" then p.B else if l = "A" then p.A else if l = "X0" then p.X0 else if l = "P" then
  p.P else if l = "V" then p.V else if l = "Cm0" then p.Cm0 else 0

/-- The secrets by name. -/
def secEnv (s : Secrets) (l : String) : Scalar :=
  if l = "m0" then s.m0 else if l = "z0" then s.z0 else if l = "minus_zQ" then s.minus_zQ else 0

/-- The random scalars by name. -/
def randEnv (s : Randomnesses) (l : String) : Scalar :=
  if l = "m0" then s.m0 else if l = "z0" then s.z0 else if l = "minus_zQ" then s.minus_zQ else 0

/-- The responses by name. -/
def respEnv (s : Responses) (l : String) : Scalar :=
  if l = "m0" then s.m0 else if l = "z0" then s.z0 else if l = "minus_zQ" then s.minus_zQ else 0

omit [Ristretto G] in
/-- The relation used in C29–C31 is the declared one. -/
theorem C63_relation (p : Publics G) (s : Secrets) :
    Spec.ValidCredential p s ↔ Spec.declValidCredential.Holds (pubEnv p) (secEnv s) := by
  simp [Spec.ValidCredential, Spec.declValidCredential, Spec.Decl.Holds, pubEnv, secEnv]

/-- `verify` is the interpreter's verifier for the declaration. -/
theorem C63_verify (O : Oracle) (t : Transcript) (r : Proof) (p : Publics G) :
    verify O t r p = true ↔
      Spec.declValidCredential.verify O t (pubEnv p) r.challenge (respEnv r.responses) := by
  rw [verify, decide_eq_true_iff, getChallenge, challenge_eq_iff]
  simp [Spec.declValidCredential, Spec.Decl.verify, Spec.Decl.query, pubEnv, respEnv,
    verifyTranscript, recommit, msm, Scalar.smul_def, sub_eq_add_neg, ← add_assoc]

/-- `create` is the interpreter's prover for the declaration, all outputs being canonical. -/
theorem C63_create (O : Oracle) (t : Transcript) (p : Publics G) (s : Secrets) (rand : Randomnesses) :
    let r := createWith O t p s rand
    let spec := Spec.declValidCredential.create O t (pubEnv p) (secEnv s) (randEnv rand)
    r.challenge = Scalar.ofF spec.1 ∧
      ∀ l ∈ Spec.declValidCredential.secrets, respEnv r.responses l = Scalar.ofF (spec.2 l) := by
  have e : getChallenge O (commitCommitments (commitPublics t p) (commitmentsOf p rand)) =
      Scalar.ofF (Spec.declValidCredential.create O t (pubEnv p) (secEnv s) (randEnv rand)).1 := by
    rw [getChallenge, Scalar.fromWide]
    simp [Spec.declValidCredential, Spec.Decl.create, Spec.Decl.query, pubEnv, randEnv,
      commitCommitments, commitPublics, commitmentsOf, msm, Scalar.smul_def]
  refine ⟨e, ?_⟩
  have e2 : ∀ a b : Scalar, getChallenge O (commitCommitments (commitPublics t p)
      (commitmentsOf p rand)) * a + b = Scalar.ofF
      ((Spec.declValidCredential.create O t (pubEnv p) (secEnv s) (randEnv rand)).1 * a.val + b.val) := by
    intro a b
    rw [e, Scalar.add_def, Scalar.val_mul, Scalar.val_ofF]
  intro l hl
  simp only [Spec.declValidCredential, List.mem_cons, List.not_mem_nil, or_false] at hl
  rcases hl with rfl | rfl | rfl <;> exact e2 _ _

/-- The random scalars are drawn in the declared order, after keying the RNG with the witnesses in
the declared order. -/
theorem C63_witnesses (s : Secrets) :
    witnesses s = Spec.declValidCredential.secrets.map fun l => (l, (secEnv s l).toBytes) := by
  simp [witnesses, Spec.declValidCredential, secEnv]

end ValidCredential

/-! ### committed_values_equal (proofs_macros.rs:114-121) -/

/-- The declaration. -/
def Spec.declCommittedValuesEqual : Spec.Decl where
  name := "committed_values_equal"
  secrets := ["m0", "z0", "z1"]
  publics :=
    ["B", "A", "P", "Cm0", "Cm1"]
  equations :=
    [ ("Cm0", [("P", "m0"), ("A", "z0")]),
      ("Cm1", [("A", "m0"), ("B", "z1")]) ]

namespace CommittedValuesEqual

/-- The publics by name. -/
def pubEnv (p : Publics G) (l : String) : G :=
  if l = "B" then p.B else if l = "A" then p.A else if l = "P" then p.P else if l = "Cm0" then
  p.Cm0 else if l = "Cm1" then p.Cm1 else 0

/-- The secrets by name. -/
def secEnv (s : Secrets) (l : String) : Scalar :=
  if l = "m0" then s.m0 else if l = "z0" then s.z0 else if l = "z1" then s.z1 else 0

/-- The random scalars by name. -/
def randEnv (s : Randomnesses) (l : String) : Scalar :=
  if l = "m0" then s.m0 else if l = "z0" then s.z0 else if l = "z1" then s.z1 else 0

/-- The responses by name. -/
def respEnv (s : Responses) (l : String) : Scalar :=
  if l = "m0" then s.m0 else if l = "z0" then s.z0 else if l = "z1" then s.z1 else 0

omit [Ristretto G] in
/-- The relation used in C29–C31 is the declared one. -/
theorem C63_relation (p : Publics G) (s : Secrets) :
    Spec.CommittedValuesEqual p s ↔ Spec.declCommittedValuesEqual.Holds (pubEnv p) (secEnv s) := by
  simp [Spec.CommittedValuesEqual, Spec.declCommittedValuesEqual, Spec.Decl.Holds, pubEnv, secEnv]

/-- `verify` is the interpreter's verifier for the declaration. -/
theorem C63_verify (O : Oracle) (t : Transcript) (r : Proof) (p : Publics G) :
    verify O t r p = true ↔
      Spec.declCommittedValuesEqual.verify O t (pubEnv p) r.challenge (respEnv r.responses) := by
  rw [verify, decide_eq_true_iff, getChallenge, challenge_eq_iff]
  simp [Spec.declCommittedValuesEqual, Spec.Decl.verify, Spec.Decl.query, pubEnv, respEnv,
    verifyTranscript, recommit, msm, Scalar.smul_def, sub_eq_add_neg, ← add_assoc]

/-- `create` is the interpreter's prover for the declaration, all outputs being canonical. -/
theorem C63_create (O : Oracle) (t : Transcript) (p : Publics G) (s : Secrets) (rand : Randomnesses) :
    let r := createWith O t p s rand
    let spec := Spec.declCommittedValuesEqual.create O t (pubEnv p) (secEnv s) (randEnv rand)
    r.challenge = Scalar.ofF spec.1 ∧
      ∀ l ∈ Spec.declCommittedValuesEqual.secrets, respEnv r.responses l = Scalar.ofF (spec.2 l) := by
  have e : getChallenge O (commitCommitments (commitPublics t p) (commitmentsOf p rand)) =
      Scalar.ofF (Spec.declCommittedValuesEqual.create O t (pubEnv p) (secEnv s) (randEnv rand)).1 := by
    rw [getChallenge, Scalar.fromWide]
    simp [Spec.declCommittedValuesEqual, Spec.Decl.create, Spec.Decl.query, pubEnv, randEnv,
      commitCommitments, commitPublics, commitmentsOf, msm, Scalar.smul_def]
  refine ⟨e, ?_⟩
  have e2 : ∀ a b : Scalar, getChallenge O (commitCommitments (commitPublics t p)
      (commitmentsOf p rand)) * a + b = Scalar.ofF
      ((Spec.declCommittedValuesEqual.create O t (pubEnv p) (secEnv s) (randEnv rand)).1 * a.val + b.val) := by
    intro a b
    rw [e, Scalar.add_def, Scalar.val_mul, Scalar.val_ofF]
  intro l hl
  simp only [Spec.declCommittedValuesEqual, List.mem_cons, List.not_mem_nil, or_false] at hl
  rcases hl with rfl | rfl | rfl <;> exact e2 _ _

/-- The random scalars are drawn in the declared order, after keying the RNG with the witnesses in
the declared order. -/
theorem C63_witnesses (s : Secrets) :
    witnesses s = Spec.declCommittedValuesEqual.secrets.map fun l => (l, (secEnv s l).toBytes) := by
  simp [witnesses, Spec.declCommittedValuesEqual, secEnv]

end CommittedValuesEqual

/-! ## C32 the hash query determines everything -/

/-- What a verification hashes: proof system, protocol transcript, publics and commitments. -/
inductive Spec.Query (G : Type) where
  | issuanceRevealed (label : String) (p : IssuanceRevealed.Publics G) (c : IssuanceRevealed.Commitments G)
  | attributesBlinded (label : String) (p : AttributesBlinded.Publics G) (c : AttributesBlinded.Commitments G)
  | issuanceBlinded (label : String) (p : IssuanceBlinded.Publics G) (c : IssuanceBlinded.Commitments G)
  | validCredential (label : String) (p : ValidCredential.Publics G) (c : ValidCredential.Commitments G)
  | committedValuesEqual (label : String) (p : CommittedValuesEqual.Publics G) (c : CommittedValuesEqual.Commitments G)

/-- The operations on the transcript `Transcript::new(label)` up to the challenge. -/
def Spec.Query.ops : Spec.Query G → Transcript
  | .issuanceRevealed label p c => IssuanceRevealed.verifyTranscript [.init label] p c
  | .attributesBlinded label p c => AttributesBlinded.verifyTranscript [.init label] p c
  | .issuanceBlinded label p c => IssuanceBlinded.verifyTranscript [.init label] p c
  | .validCredential label p c => ValidCredential.verifyTranscript [.init label] p c
  | .committedValuesEqual label p c => CommittedValuesEqual.verifyTranscript [.init label] p c

/-- `verify` queries the hash at the operations of the corresponding `Spec.Query` and nowhere else. -/
theorem C32_query_made (O : Oracle) (label : String) :
    (∀ (p : IssuanceRevealed.Publics G) (r : IssuanceRevealed.Proof), IssuanceRevealed.verify O [.init label] r p = true ↔
      r.challenge = Scalar.fromWide
        (O.chal (Spec.Query.issuanceRevealed label p (IssuanceRevealed.recommit p r)).ops "chal" 64)) ∧
    (∀ (p : AttributesBlinded.Publics G) (r : AttributesBlinded.Proof), AttributesBlinded.verify O [.init label] r p = true ↔
      r.challenge = Scalar.fromWide
        (O.chal (Spec.Query.attributesBlinded label p (AttributesBlinded.recommit p r)).ops "chal" 64)) ∧
    (∀ (p : IssuanceBlinded.Publics G) (r : IssuanceBlinded.Proof), IssuanceBlinded.verify O [.init label] r p = true ↔
      r.challenge = Scalar.fromWide
        (O.chal (Spec.Query.issuanceBlinded label p (IssuanceBlinded.recommit p r)).ops "chal" 64)) ∧
    (∀ (p : ValidCredential.Publics G) (r : ValidCredential.Proof), ValidCredential.verify O [.init label] r p = true ↔
      r.challenge = Scalar.fromWide
        (O.chal (Spec.Query.validCredential label p (ValidCredential.recommit p r)).ops "chal" 64)) ∧
    (∀ (p : CommittedValuesEqual.Publics G) (r : CommittedValuesEqual.Proof), CommittedValuesEqual.verify O [.init label] r p = true ↔
      r.challenge = Scalar.fromWide
        (O.chal (Spec.Query.committedValuesEqual label p (CommittedValuesEqual.recommit p r)).ops "chal" 64)) := by
  refine ⟨?_, ?_, ?_, ?_, ?_⟩ <;>
    exact fun p r => ⟨fun h => (of_decide_eq_true h).symm, fun h => decide_eq_true h.symm⟩

/-- Distinct queries are hashed differently: the transcript determines the domain separators, the
proof system, every public value and every commitment. -/
theorem C32_injective {q q' : Spec.Query G} (h : q.ops = q'.ops) : q = q' := by
  cases q <;> cases q' <;>
    simp only [Spec.Query.ops,
      IssuanceRevealed.verifyTranscript, AttributesBlinded.verifyTranscript, IssuanceBlinded.verifyTranscript, ValidCredential.verifyTranscript, CommittedValuesEqual.verifyTranscript,
      List.cons_append, List.nil_append, List.cons.injEq, Op.init.injEq, Op.commit.injEq, enc_inj_iff,
      true_and, and_true, reduceCtorEq, and_false, false_and, String.reduceEq] at h
  · obtain ⟨rfl, h1, h2, h3, h4, h5, h6, h7, h8, h9⟩ := h
    congr 1
    · exact IssuanceRevealed.Publics.ext h1 h2 h3 h4 h5 h6
    · exact IssuanceRevealed.Commitments.ext h7 h8 h9
  · obtain ⟨rfl, h1, h2, h3, h4, h5, h6, h7, h8⟩ := h
    congr 1
    · exact AttributesBlinded.Publics.ext h1 h2 h3 h4 h5
    · exact AttributesBlinded.Commitments.ext h6 h7 h8
  · obtain ⟨rfl, h1, h2, h3, h4, h5, h6, h7, h8, h9, h10, h11, h12, h13, h14, h15, h16, h17, h18, h19⟩ := h
    congr 1
    · exact IssuanceBlinded.Publics.ext h1 h2 h3 h4 h5 h6 h7 h8 h9 h10 h11 h12
    · exact IssuanceBlinded.Commitments.ext h13 h14 h15 h16 h17 h18 h19
  · obtain ⟨rfl, h1, h2, h3, h4, h5, h6, h7, h8⟩ := h
    congr 1
    · exact ValidCredential.Publics.ext h1 h2 h3 h4 h5 h6
    · exact ValidCredential.Commitments.ext h7 h8
  · obtain ⟨rfl, h1, h2, h3, h4, h5, h6, h7⟩ := h
    congr 1
    · exact CommittedValuesEqual.Publics.ext h1 h2 h3 h4 h5
    · exact CommittedValuesEqual.Commitments.ext h6 h7

example : (Spec.Query.validCredential "AEONFLUX SHOW" (⟨1, 2, 3, 4, 5, 6⟩ : ValidCredential.Publics F)
    ⟨7, 8⟩).ops.length = 10 := rfl

/-- The three protocols start from three different transcripts. -/
theorem C32_protocols_distinct : Issuer.issuanceTranscript ≠ Issuer.showTranscript ∧
    Issuer.issuanceTranscript ≠ SignalIssuer.membershipTranscript ∧
    Issuer.showTranscript ≠ SignalIssuer.membershipTranscript := by
  decide

/-- A proof accepted by one protocol step and the hash query it made cannot be the query of another
step: spelled out for the three steps in use. -/
theorem C32_steps_distinct (p : IssuanceRevealed.Publics G) (c : IssuanceRevealed.Commitments G)
    (p' : ValidCredential.Publics G) (c' : ValidCredential.Commitments G)
    (p'' : CommittedValuesEqual.Publics G) (c'' : CommittedValuesEqual.Commitments G) :
    IssuanceRevealed.verifyTranscript Issuer.issuanceTranscript p c ≠
      ValidCredential.verifyTranscript Issuer.showTranscript p' c' ∧
    IssuanceRevealed.verifyTranscript Issuer.issuanceTranscript p c ≠
      CommittedValuesEqual.verifyTranscript SignalIssuer.membershipTranscript p'' c'' ∧
    ValidCredential.verifyTranscript Issuer.showTranscript p' c' ≠
      CommittedValuesEqual.verifyTranscript SignalIssuer.membershipTranscript p'' c'' := by
  refine ⟨fun h => ?_, fun h => ?_, fun h => ?_⟩
  · have := C32_injective (q := .issuanceRevealed _ p c) (q' := .validCredential _ p' c') h
    cases this
  · have := C32_injective (q := .issuanceRevealed _ p c) (q' := .committedValuesEqual _ p'' c'') h
    cases this
  · have := C32_injective (q := .validCredential _ p' c') (q' := .committedValuesEqual _ p'' c'') h
    cases this

end Verif
