import Verif.Props.NizkQuery
import Verif.Toy

/-!
# The randomness of proofs (C66)

`Proof::create` keys a transcript generator with the statement, every secret and 32 fresh bytes, and
draws one scalar per secret from it.
-/

set_option maxRecDepth 100000

namespace Verif

variable {G : Type} [AddCommGroup G] [Module F G] [Ristretto G]

/-- A read of 64 bytes from a prover's generator: everything the bytes depend on. -/
@[ext] structure Spec.Read where
  /-- the transcript the generator is forked from -/
  ops : Transcript
  /-- the secrets it is rekeyed with -/
  witnesses : List (String × Bytes)
  /-- the fresh bytes -/
  entropy : Bytes
  /-- the number of 64-byte reads before this one -/
  earlier : ℕ

/-- The scalar obtained from a read. -/
def Spec.Read.scalar (O : Oracle) (q : Spec.Read) : Scalar :=
  Scalar.ofF (leVal (O.rng q.ops q.witnesses q.entropy (List.replicate q.earlier 64) 64))

namespace Spec.Decl

/-- The read for the `i`-th secret of a declaration. -/
def read (d : Decl) (t : Transcript) (pub : String → G) (sec : String → Scalar) (entropy : Bytes)
    (i : ℕ) : Spec.Read where
  ops := t ++ Op.commit "domain-sep" (ascii d.name) :: d.publics.map fun l => .commit l (enc (pub l))
  witnesses := d.secrets.map fun l => (l, (sec l).toBytes)
  entropy := entropy
  earlier := i

/-- The prover, randomness included. -/
def prove (d : Decl) (O : Oracle) (t : Transcript) (pub : String → G) (sec : String → Scalar)
    (entropy : Bytes) : F × (String → F) :=
  d.create O t pub sec fun l =>
    if l ∈ d.secrets then (d.read t pub sec entropy (d.secrets.idxOf l)).scalar O else 0

end Spec.Decl

namespace IssuanceRevealed

/-- `create` is the declared prover, each random scalar being its own read of the generator. -/
theorem C66_create (O : Oracle) (t : Transcript) (entropy : Bytes) (p : Publics G) (s : Secrets) :
    let r := create O t entropy p s
    let spec := Spec.declIssuanceRevealed.prove O t (pubEnv p) (secEnv s) entropy
    r.challenge = Scalar.ofF spec.1 ∧
      ∀ l ∈ Spec.declIssuanceRevealed.secrets, respEnv r.responses l = Scalar.ofF (spec.2 l) := by
  have e : randEnv (drawRandomnesses (proofRng O (commitPublics t p) (witnesses s) entropy)) =
      fun l => if l ∈ Spec.declIssuanceRevealed.secrets then (Spec.declIssuanceRevealed.read t (pubEnv p)
        (secEnv s) entropy (Spec.declIssuanceRevealed.secrets.idxOf l)).scalar O else 0 := by
    funext l
    simp only [randEnv, Spec.declIssuanceRevealed, List.mem_cons, List.not_mem_nil, or_false]
    by_cases h : l = "x0"
    · subst h; rfl
    simp only [h, if_false, false_or]
    by_cases h : l = "x1"
    · subst h; rfl
    simp only [h, if_false, false_or]
    by_cases h : l = "x0_tilde"
    · subst h; rfl
    simp only [h, if_false, false_or]
    by_cases h : l = "m1x1"
    · subst h; rfl
    simp only [h, if_false]
  have h := C63_create O t p s
    (drawRandomnesses (proofRng O (commitPublics t p) (witnesses s) entropy))
  rw [e] at h
  exact h

end IssuanceRevealed

namespace AttributesBlinded

/-- `create` is the declared prover, each random scalar being its own read of the generator. -/
theorem C66_create (O : Oracle) (t : Transcript) (entropy : Bytes) (p : Publics G) (s : Secrets) :
    let r := create O t entropy p s
    let spec := Spec.declAttributesBlinded.prove O t (pubEnv p) (secEnv s) entropy
    r.challenge = Scalar.ofF spec.1 ∧
      ∀ l ∈ Spec.declAttributesBlinded.secrets, respEnv r.responses l = Scalar.ofF (spec.2 l) := by
  have e : randEnv (drawRandomnesses (proofRng O (commitPublics t p) (witnesses s) entropy)) =
      fun l => if l ∈ Spec.declAttributesBlinded.secrets then (Spec.declAttributesBlinded.read t (pubEnv p)
        (secEnv s) entropy (Spec.declAttributesBlinded.secrets.idxOf l)).scalar O else 0 := by
    funext l
    simp only [randEnv, Spec.declAttributesBlinded, List.mem_cons, List.not_mem_nil, or_false]
    by_cases h : l = "d"
    · subst h; rfl
    simp only [h, if_false, false_or]
    by_cases h : l = "e0"
    · subst h; rfl
    simp only [h, if_false, false_or]
    by_cases h : l = "m0"
    · subst h; rfl
    simp only [h, if_false, false_or]
    by_cases h : l = "nonce"
    · subst h; rfl
    simp only [h, if_false]
  have h := C63_create O t p s
    (drawRandomnesses (proofRng O (commitPublics t p) (witnesses s) entropy))
  rw [e] at h
  exact h

end AttributesBlinded

namespace IssuanceBlinded

/-- `create` is the declared prover, each random scalar being its own read of the generator. -/
theorem C66_create (O : Oracle) (t : Transcript) (entropy : Bytes) (p : Publics G) (s : Secrets) :
    let r := create O t entropy p s
    let spec := Spec.declIssuanceBlinded.prove O t (pubEnv p) (secEnv s) entropy
    r.challenge = Scalar.ofF spec.1 ∧
      ∀ l ∈ Spec.declIssuanceBlinded.secrets, respEnv r.responses l = Scalar.ofF (spec.2 l) := by
  have e : randEnv (drawRandomnesses (proofRng O (commitPublics t p) (witnesses s) entropy)) =
      fun l => if l ∈ Spec.declIssuanceBlinded.secrets then (Spec.declIssuanceBlinded.read t (pubEnv p)
        (secEnv s) entropy (Spec.declIssuanceBlinded.secrets.idxOf l)).scalar O else 0 := by
    funext l
    simp only [randEnv, Spec.declIssuanceBlinded, List.mem_cons, List.not_mem_nil, or_false]
    by_cases h : l = "x0_tilde"
    · subst h; rfl
    simp only [h, if_false, false_or]
    by_cases h : l = "x0"
    · subst h; rfl
    simp only [h, if_false, false_or]
    by_cases h : l = "x1"
    · subst h; rfl
    simp only [h, if_false, false_or]
    by_cases h : l = "s"
    · subst h; rfl
    simp only [h, if_false, false_or]
    by_cases h : l = "b"
    · subst h; rfl
    simp only [h, if_false, false_or]
    by_cases h : l = "t0"
    · subst h; rfl
    simp only [h, if_false]
  have h := C63_create O t p s
    (drawRandomnesses (proofRng O (commitPublics t p) (witnesses s) entropy))
  rw [e] at h
  exact h

end IssuanceBlinded

namespace ValidCredential

/-- `create` is the declared prover, each random scalar being its own read of the generator. -/
theorem C66_create (O : Oracle) (t : Transcript) (entropy : Bytes) (p : Publics G) (s : Secrets) :
    let r := create O t entropy p s
    let spec := Spec.declValidCredential.prove O t (pubEnv p) (secEnv s) entropy
    r.challenge = Scalar.ofF spec.1 ∧
      ∀ l ∈ Spec.declValidCredential.secrets, respEnv r.responses l = Scalar.ofF (spec.2 l) := by
  have e : randEnv (drawRandomnesses (proofRng O (commitPublics t p) (witnesses s) entropy)) =
      fun l => if l ∈ Spec.declValidCredential.secrets then (Spec.declValidCredential.read t (pubEnv p)
        (secEnv s) entropy (Spec.declValidCredential.secrets.idxOf l)).scalar O else 0 := by
    funext l
    simp only [randEnv, Spec.declValidCredential, List.mem_cons, List.not_mem_nil, or_false]
    by_cases h : l = "m0"
    · subst h; rfl
    simp only [h, if_false, false_or]
    by_cases h : l = "z0"
    · subst h; rfl
    simp only [h, if_false, false_or]
    by_cases h : l = "minus_zQ"
    · subst h; rfl
    simp only [h, if_false]
  have h := C63_create O t p s
    (drawRandomnesses (proofRng O (commitPublics t p) (witnesses s) entropy))
  rw [e] at h
  exact h

end ValidCredential

namespace CommittedValuesEqual

/-- `create` is the declared prover, each random scalar being its own read of the generator. -/
theorem C66_create (O : Oracle) (t : Transcript) (entropy : Bytes) (p : Publics G) (s : Secrets) :
    let r := create O t entropy p s
    let spec := Spec.declCommittedValuesEqual.prove O t (pubEnv p) (secEnv s) entropy
    r.challenge = Scalar.ofF spec.1 ∧
      ∀ l ∈ Spec.declCommittedValuesEqual.secrets, respEnv r.responses l = Scalar.ofF (spec.2 l) := by
  have e : randEnv (drawRandomnesses (proofRng O (commitPublics t p) (witnesses s) entropy)) =
      fun l => if l ∈ Spec.declCommittedValuesEqual.secrets then (Spec.declCommittedValuesEqual.read t (pubEnv p)
        (secEnv s) entropy (Spec.declCommittedValuesEqual.secrets.idxOf l)).scalar O else 0 := by
    funext l
    simp only [randEnv, Spec.declCommittedValuesEqual, List.mem_cons, List.not_mem_nil, or_false]
    by_cases h : l = "m0"
    · subst h; rfl
    simp only [h, if_false, false_or]
    by_cases h : l = "z0"
    · subst h; rfl
    simp only [h, if_false, false_or]
    by_cases h : l = "z1"
    · subst h; rfl
    simp only [h, if_false]
  have h := C63_create O t p s
    (drawRandomnesses (proofRng O (commitPublics t p) (witnesses s) entropy))
  rw [e] at h
  exact h

end CommittedValuesEqual

/-- A call of `Proof::create` on the transcript `Transcript::new(label)`. -/
inductive Spec.Call (G : Type) where
  | issuanceRevealed (label : String) (p : IssuanceRevealed.Publics G) (s : IssuanceRevealed.Secrets) (entropy : Bytes)
  | attributesBlinded (label : String) (p : AttributesBlinded.Publics G) (s : AttributesBlinded.Secrets) (entropy : Bytes)
  | issuanceBlinded (label : String) (p : IssuanceBlinded.Publics G) (s : IssuanceBlinded.Secrets) (entropy : Bytes)
  | validCredential (label : String) (p : ValidCredential.Publics G) (s : ValidCredential.Secrets) (entropy : Bytes)
  | committedValuesEqual (label : String) (p : CommittedValuesEqual.Publics G) (s : CommittedValuesEqual.Secrets) (entropy : Bytes)

/-- The read of a call for its `i`-th secret. -/
def Spec.Call.read (i : ℕ) : Spec.Call G → Spec.Read
  | .issuanceRevealed label p s entropy => Spec.declIssuanceRevealed.read [.init label] (IssuanceRevealed.pubEnv p)
      (IssuanceRevealed.secEnv s) entropy i
  | .attributesBlinded label p s entropy => Spec.declAttributesBlinded.read [.init label] (AttributesBlinded.pubEnv p)
      (AttributesBlinded.secEnv s) entropy i
  | .issuanceBlinded label p s entropy => Spec.declIssuanceBlinded.read [.init label] (IssuanceBlinded.pubEnv p)
      (IssuanceBlinded.secEnv s) entropy i
  | .validCredential label p s entropy => Spec.declValidCredential.read [.init label] (ValidCredential.pubEnv p)
      (ValidCredential.secEnv s) entropy i
  | .committedValuesEqual label p s entropy => Spec.declCommittedValuesEqual.read [.init label] (CommittedValuesEqual.pubEnv p)
      (CommittedValuesEqual.secEnv s) entropy i

/-- A read is made for one secret of one call: two calls that share a read are the same call, with the
same protocol, proof system, statement, secrets and fresh bytes. In particular a random scalar is
never used under two different challenges, even when the fresh bytes repeat. -/
theorem C66_reads_injective {c c' : Spec.Call G} {i i' : ℕ} (h : c.read i = c'.read i') :
    c = c' ∧ i = i' := by
  cases c <;> cases c' <;>
    simp only [Spec.Call.read, Spec.Decl.read, Spec.Read.mk.injEq, Spec.declIssuanceRevealed, Spec.declAttributesBlinded, Spec.declIssuanceBlinded, Spec.declValidCredential, Spec.declCommittedValuesEqual,
      List.map_cons, List.map_nil, List.cons_append, List.nil_append, List.cons.injEq, Op.init.injEq,
      Op.commit.injEq, enc_inj_iff, true_and, and_true, reduceCtorEq, and_false, false_and,
      String.reduceEq, Prod.mk.injEq] at h
  · obtain ⟨⟨rfl, p0, p1, p2, p3, p4, p5⟩, ⟨s0, s1, s2, s3⟩, rfl, rfl⟩ := h
    have e := IssuanceRevealed.Publics.ext p0 p1 p2 p3 p4 p5
    have e' := IssuanceRevealed.Secrets.ext (Scalar.toBytes_inj s0) (Scalar.toBytes_inj s1) (Scalar.toBytes_inj s2) (Scalar.toBytes_inj s3)
    exact ⟨by rw [e, e'], rfl⟩
  · obtain ⟨⟨rfl, p0, p1, p2, p3, p4⟩, ⟨s0, s1, s2, s3⟩, rfl, rfl⟩ := h
    have e := AttributesBlinded.Publics.ext p0 p1 p2 p3 p4
    have e' := AttributesBlinded.Secrets.ext (Scalar.toBytes_inj s0) (Scalar.toBytes_inj s1) (Scalar.toBytes_inj s2) (Scalar.toBytes_inj s3)
    exact ⟨by rw [e, e'], rfl⟩
  · obtain ⟨⟨rfl, p0, p1, p2, p3, p4, p5, p6, p7, p8, p9, p10, p11⟩, ⟨s0, s1, s2, s3, s4, s5⟩, rfl, rfl⟩ := h
    have e := IssuanceBlinded.Publics.ext p0 p1 p2 p3 p4 p5 p6 p7 p8 p9 p10 p11
    have e' := IssuanceBlinded.Secrets.ext (Scalar.toBytes_inj s0) (Scalar.toBytes_inj s1) (Scalar.toBytes_inj s2) (Scalar.toBytes_inj s3) (Scalar.toBytes_inj s4) (Scalar.toBytes_inj s5)
    exact ⟨by rw [e, e'], rfl⟩
  · obtain ⟨⟨rfl, p0, p1, p2, p3, p4, p5⟩, ⟨s0, s1, s2⟩, rfl, rfl⟩ := h
    have e := ValidCredential.Publics.ext p0 p1 p2 p3 p4 p5
    have e' := ValidCredential.Secrets.ext (Scalar.toBytes_inj s0) (Scalar.toBytes_inj s1) (Scalar.toBytes_inj s2)
    exact ⟨by rw [e, e'], rfl⟩
  · obtain ⟨⟨rfl, p0, p1, p2, p3, p4⟩, ⟨s0, s1, s2⟩, rfl, rfl⟩ := h
    have e := CommittedValuesEqual.Publics.ext p0 p1 p2 p3 p4
    have e' := CommittedValuesEqual.Secrets.ext (Scalar.toBytes_inj s0) (Scalar.toBytes_inj s1) (Scalar.toBytes_inj s2)
    exact ⟨by rw [e, e'], rfl⟩

example : (Spec.Call.validCredential "AEONFLUX SHOW" (⟨1, 2, 3, 4, 5, 6⟩ : ValidCredential.Publics F)
    ⟨1, 0, 1⟩ [7]).read 2 ≠ (Spec.Call.validCredential "AEONFLUX SHOW" (⟨1, 2, 3, 4, 5, 6⟩ :
    ValidCredential.Publics F) ⟨1, 1, 1⟩ [7]).read 2 := fun h => by
  have := (C66_reads_injective h).1
  simp only [Spec.Call.validCredential.injEq, ValidCredential.Secrets.mk.injEq] at this
  exact absurd (congrArg Scalar.n this.2.2.1.2.1) (by simp)

/-- The calls of `create` that share the random scalar of some secret return the same proof; stated for
the presentation proof. -/
theorem C66_same_proof (O : Oracle) {label label' : String}
    {p p' : ValidCredential.Publics G}
    {s s' : ValidCredential.Secrets} {e e' : Bytes} {i i' : ℕ}
    (h : (Spec.Call.validCredential label p s e).read i =
      (Spec.Call.validCredential label' p' s' e').read i') :
    ValidCredential.create O [.init label] e p s = ValidCredential.create O [.init label'] e' p' s' := by
  have := (C66_reads_injective h).1
  simp only [Spec.Call.validCredential.injEq] at this
  obtain ⟨rfl, rfl, rfl, rfl⟩ := this
  rfl

/-- Why this matters: a scalar used under two challenges gives away the secret it masks. -/
theorem C66_reuse_leaks (d d' : Spec.Decl) (O O' : Oracle) (t t' : Transcript) (pub pub' : String → G)
    (sec sec' rand rand' : String → Scalar) (l : String) (hr : rand l = rand' l) (hs : sec l = sec' l)
    (hc : (d.create O t pub sec rand).1 ≠ (d'.create O' t' pub' sec' rand').1) :
    (sec l).val = ((d.create O t pub sec rand).2 l - (d'.create O' t' pub' sec' rand').2 l) /
      ((d.create O t pub sec rand).1 - (d'.create O' t' pub' sec' rand').1) := by
  rw [eq_div_iff (sub_ne_zero.mpr hc)]
  simp only [Spec.Decl.create, hr, hs]
  ring

example : (Spec.declValidCredential.create toyOracle [] (fun _ => (1 : F)) (fun _ => 1) fun _ => 1).1 ≠
    (Spec.declValidCredential.create toyOracle [.init ""] (fun _ => (1 : F)) (fun _ => 1)
      fun _ => 1).1 := by
  have e1 : (Spec.declValidCredential.create toyOracle [] (fun _ => (1 : F)) (fun _ => 1)
      fun _ => 1).1 = ((leVal (leBytes 64 10) : ℕ) : F) := rfl
  have e2 : (Spec.declValidCredential.create toyOracle [.init ""] (fun _ => (1 : F)) (fun _ => 1)
      fun _ => 1).1 = ((leVal (leBytes 64 11) : ℕ) : F) := rfl
  rw [e1, e2, leVal_leBytes_of_lt (by norm_num), leVal_leBytes_of_lt (by norm_num)]
  decide +kernel

end Verif
