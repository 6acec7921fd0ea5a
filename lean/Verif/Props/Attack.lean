import Verif.Props.PresentAgm
import Verif.Props.Simulatable

/-!
# C84: unforgeability for an adversary that sees whole protocol messages

The game of C70, with everything in it that is sent: issuances with their proofs, presentations of other
users with both proofs, and the issuer's own verification functions. The hash is a random function that
everybody asks.
-/

set_option maxRecDepth 100000

namespace Verif

variable {G : Type} [AddCommGroup G] [Module F G] [Ristretto G]

/-! ## The game -/

/-- The same query with other elements. -/
def Spec.Query.map {A B : Type} (f : A → B) : Spec.Query A → Spec.Query B
  | .issuanceRevealed l p c => .issuanceRevealed l ⟨f p.P, f p.Q, f p.Cx0, f p.B, f p.A, f p.X1⟩
      ⟨f c.Q, f c.Cx0, f c.X1⟩
  | .attributesBlinded l p c => .attributesBlinded l
      ⟨f p.B, f p.A, f p.D, f p.encrypted_attribute_0_0, f p.encrypted_attribute_0_1⟩
      ⟨f c.D, f c.encrypted_attribute_0_0, f c.encrypted_attribute_0_1⟩
  | .issuanceBlinded l p c => .issuanceBlinded l
      ⟨f p.B, f p.A, f p.X0, f p.X1, f p.D, f p.P, f p.T0_0, f p.T0_1, f p.EQ_commitment,
        f p.EQ_encryption, f p.encrypted_attribute_0_0, f p.encrypted_attribute_0_1⟩
      ⟨f c.X0, f c.X1, f c.P, f c.T0_0, f c.T0_1, f c.EQ_commitment, f c.EQ_encryption⟩
  | .validCredential l p c => .validCredential l ⟨f p.B, f p.A, f p.X0, f p.P, f p.V, f p.Cm0⟩
      ⟨f c.Cm0, f c.V⟩
  | .committedValuesEqual l p c => .committedValuesEqual l ⟨f p.B, f p.A, f p.P, f p.Cm0, f p.Cm1⟩
      ⟨f c.Cm0, f c.Cm1⟩

namespace Spec.Present.Attack


variable {N : ℕ}

/-- Bytes in a question to the hash: fixed, or the encoding of an element. -/
inductive Datum (A : Type) where
  | bytes (b : Bytes)
  | elem (x : A)

/-- The bytes. -/
def Datum.at {A : Type} (f : A → Bytes) : Datum A → Bytes
  | .bytes b => b
  | .elem x => f x

/-- An operation on a transcript. -/
inductive Act (A : Type) where
  | init (label : String)
  | commit (label : String) (d : Datum A)
  | challenge (label : String) (n : ℕ)

/-- The operation. -/
def Act.at {A : Type} (f : A → Bytes) : Act A → Op
  | .init l => .init l
  | .commit l d => .commit l (d.at f)
  | .challenge l n => .challenge l n

/-- What the adversary asks the hash: any transcript, with combinations of the elements it has in any places. -/
abbrev Ask (N : ℕ) := List (Act (Lin N))

/-- The transcript that is asked. -/
def Ask.transcript (G : Type) [AddCommGroup G] [Module F G] [Ristretto G] (v : Hidden N) (s : View)
    (q : Ask N) : Transcript :=
  List.map (Act.at fun L => enc (L.point v s : G)) q

/-- A presentation that the adversary makes: combinations of the elements it has, and any proofs. -/
structure Pres (N : ℕ) where
  D : Lin N
  CQ : Lin N
  P : Lin N
  C : Lin N
  proof : ValidCredential.Proof
  roster : CommittedValuesEqual.Proof

/-- The presentation. -/
def Pres.points (G : Type) [AddCommGroup G] [Module F G] [Ristretto G] (v : Hidden N) (s : View)
    (p : Pres N) : SignalCredentialPresentation G :=
  ⟨p.D.point v s, ⟨p.CQ.point v s, p.P.point v s, [], [p.C.point v s], p.proof⟩, p.roster⟩

/-- A presentation of another user: the number of the roster entry it was made with, and its two proofs. -/
structure Sent where
  owner : ℕ
  proof : ValidCredential.Proof
  roster : CommittedValuesEqual.Proof

/-- What was given out so far: the elements, and the presentations of other users. -/
structure Scene where
  view : View
  sent : List Sent

/-- An adversary. Each step depends on everything seen so far. -/
inductive Attacker (N : ℕ) where
  /-- have an attribute issued, and get the issuance with its proof -/
  | issue (m : F) (next : IssuanceRevealed.Proof → Attacker N)
  /-- see a roster entry of another user, for the number `m` -/
  | enrol (m : F) (next : Attacker N)
  /-- see a presentation of the user with the `i`-th roster entry, with both proofs -/
  | watch (i : ℕ) (next : ValidCredential.Proof → CommittedValuesEqual.Proof → Attacker N)
  /-- test whether a combination is the identity -/
  | test (L : Lin N) (yes no : Attacker N)
  /-- toss a coin -/
  | toss (next : F → Attacker N)
  /-- ask the hash -/
  | hash (q : Ask N) (next : Answer → Attacker N)
  /-- have `SignalIssuer::verify` check a presentation -/
  | present (p : Pres N) (next : Bool → Attacker N)
  /-- have `SignalIssuer::verify_roster_membership` check the roster proof of a presentation -/
  | member (p : Pres N) (next : Bool → Attacker N)
  /-- output a presentation -/
  | outputShow (p : Pres N)
  /-- output a presentation with a roster proof -/
  | outputMember (p : Pres N)

/-- At most `n` steps are made. -/
def Attacker.Within : Attacker N → ℕ → Prop
  | .issue _ next, n => ∃ k, n = k + 1 ∧ ∀ π, (next π).Within k
  | .enrol _ next, n => ∃ k, n = k + 1 ∧ next.Within k
  | .watch _ next, n => ∃ k, n = k + 1 ∧ ∀ π π', (next π π').Within k
  | .test _ yes no, n => ∃ k, n = k + 1 ∧ yes.Within k ∧ no.Within k
  | .toss next, n => ∃ k, n = k + 1 ∧ ∀ c, (next c).Within k
  | .hash _ next, n => ∃ k, n = k + 1 ∧ ∀ a, (next a).Within k
  | .present _ next, n => ∃ k, n = k + 1 ∧ ∀ b, (next b).Within k
  | .member _ next, n => ∃ k, n = k + 1 ∧ ∀ b, (next b).Within k
  | .outputShow _, n => ∃ k, n = k + 1
  | .outputMember _, n => ∃ k, n = k + 1

/-- Ways of making the three proofs. -/
structure Provers (G : Type) where
  issuance : IssuanceRevealed.Publics G → IssuanceRevealed.Secrets → HashLog →
    (HashLog → IssuanceRevealed.Proof → ℚ) → ℚ
  credential : ValidCredential.Publics G → ValidCredential.Secrets → HashLog →
    (HashLog → ValidCredential.Proof → ℚ) → ℚ
  roster : CommittedValuesEqual.Publics G → CommittedValuesEqual.Secrets → HashLog →
    (HashLog → CommittedValuesEqual.Proof → ℚ) → ℚ

/-- The proofs that the code makes, with uniform randomness. -/
noncomputable def honest (O : Oracle) : Provers G where
  issuance := Spec.IssuanceRevealed.honest O [.init "AEONFLUX ISSUANCE"]
  credential := Spec.ValidCredential.honest O [.init "AEONFLUX SHOW"]
  roster := Spec.CommittedValuesEqual.honest O [.init "SIGNAL GROUP MEMBERSHIP"]

/-- The hash query that `SignalIssuer::verify` makes for a presentation. -/
def showTranscript (v : Hidden N) (p : SignalCredentialPresentation G) : Transcript :=
  let C := p.presentation.attributesBlinded.headD 0
  let P := p.presentation.rerandomizedNonce
  let publics : ValidCredential.Publics G := ⟨basepoint G, hPoint v, v .x1 • hPoint v, P,
    v .x0 • P + v .x1 • C - p.presentation.rerandomizedMacCommitment, C⟩
  ValidCredential.verifyTranscript [.init "AEONFLUX SHOW"] publics
    (ValidCredential.recommit publics p.presentation.proof)

/-- The hash query that `SignalIssuer::verify_roster_membership` makes. -/
def memberTranscript (v : Hidden N) (p : SignalCredentialPresentation G) : Transcript :=
  let publics : CommittedValuesEqual.Publics G := ⟨basepoint G, hPoint v, p.presentation.rerandomizedNonce,
    p.presentation.attributesBlinded.headD 0, p.rosterEntryCommitment⟩
  CommittedValuesEqual.verifyTranscript [.init "SIGNAL GROUP MEMBERSHIP"] publics
    (CommittedValuesEqual.recommit publics p.rosterMembershipProof)

/-- `SignalIssuer::verify` accepts, with the hash answers in `l`. -/
def Shows (O : Oracle) (v : Hidden N) (l : HashLog) (p : SignalCredentialPresentation G) : Prop :=
  SignalIssuer.verify (l.oracle O) ⟨issuer G v⟩ p = .ok ⟨p⟩

/-- `SignalIssuer::verify_roster_membership` accepts. -/
def Belongs (O : Oracle) (v : Hidden N) (l : HashLog) (p : SignalCredentialPresentation G) : Prop :=
  SignalIssuer.verifyRosterMembership (l.oracle O) ⟨issuer G v⟩ ⟨p⟩ = .ok p.rosterEntryCommitment

/-- The `j`-th presentation of another user, with attribute `m`: nonce, committed attribute and committed
MAC. -/
def shown (G : Type) [AddCommGroup G] [Module F G] [Ristretto G] (v : Hidden N) (j : Fin N) (m : F) :
    G × G × G :=
  let P : G := v (.rho j) • basepoint G
  (P, m • P + v (.zeta j) • hPoint v, (v .x0 + v .x1 * m) • P + v (.xi j) • hPoint v)

/-- The `i`-th roster entry of other users, for the number `m`. -/
def entry (G : Type) [AddCommGroup G] [Module F G] [Ristretto G] (v : Hidden N) (i : Fin N) (m : F) : G :=
  m • hPoint v + v (.y i) • basepoint G

/-- The same proof. The responses are compared as they are used, modulo `ℓ`. -/
def SameProof (π π' : ValidCredential.Proof) : Prop :=
  π.challenge = π'.challenge ∧ π.responses.m0.val = π'.responses.m0.val ∧
    π.responses.z0.val = π'.responses.z0.val ∧ π.responses.minus_zQ.val = π'.responses.minus_zQ.val

/-- The same roster proof. -/
def SameRoster (π π' : CommittedValuesEqual.Proof) : Prop :=
  π.challenge = π'.challenge ∧ π.responses.m0.val = π'.responses.m0.val ∧
    π.responses.z0.val = π'.responses.z0.val ∧ π.responses.z1.val = π'.responses.z1.val

/-- A presentation of another user is repeated. -/
def Copies (v : Hidden N) (S : Scene) (p : SignalCredentialPresentation G) : Prop :=
  ∃ (j : Fin N) (m : F) (e : Sent), S.view.watched[j.1]? = some m ∧ S.sent[j.1]? = some e ∧
    (p.presentation.rerandomizedNonce, p.presentation.attributesBlinded.headD 0,
      p.presentation.rerandomizedMacCommitment) = shown G v j m ∧ SameProof p.presentation.proof e.proof

/-- A presentation of another user is repeated, with its roster entry and its roster proof. -/
def CopiesAll (v : Hidden N) (S : Scene) (p : SignalCredentialPresentation G) : Prop :=
  ∃ (j i : Fin N) (m m' : F) (e : Sent), S.view.watched[j.1]? = some m ∧ S.sent[j.1]? = some e ∧
    e.owner = i.1 ∧ S.view.enrolled[i.1]? = some m' ∧
    (p.presentation.rerandomizedNonce, p.presentation.attributesBlinded.headD 0,
      p.presentation.rerandomizedMacCommitment) = shown G v j m ∧ SameProof p.presentation.proof e.proof ∧
    p.rosterEntryCommitment = entry G v i m' ∧ SameRoster p.rosterMembershipProof e.roster

/-- The committed attribute is `m`, it was issued to the adversary, and the opening is the adversary's own
coefficient of `h`. -/
def Opens (G : Type) [AddCommGroup G] [Module F G] [Ristretto G] (v : Hidden N) (s : View) (p : Pres N)
    (m : F) : Prop :=
  m ∈ s.issued ∧ (p.C.point v s : G) = m • p.P.point v s + p.C.h • hPoint v

/-- The roster entry is for `m`, and the opening is the adversary's own coefficient of `g`. -/
def OpensRoster (G : Type) [AddCommGroup G] [Module F G] [Ristretto G] (v : Hidden N) (s : View)
    (p : Pres N) (m : F) : Prop :=
  (p.D.point v s : G) = m • hPoint v + p.D.base • basepoint G

open Classical in
/-- The probability that the adversary wins, if the unknowns are `v`, after the hash queries `l`: that it
outputs a presentation with non-identity nonce that `SignalIssuer::verify` accepts, that does not repeat
one of another user with its proof, and whose committed attribute was not issued to it; or one for which also
`verify_roster_membership` accepts, that is not with its proofs and roster entry a repetition, and where
not both are for one attribute issued to it. More than `N` issuances, entries or presentations, or
presentations for entries that do not exist, are not allowed. -/
noncomputable def Attacker.wins (O : Oracle) (pr : Provers G) (v : Hidden N) :
    Attacker N → Scene → HashLog → ℚ
  | .issue m next, S, l =>
    if hN : S.view.issued.length < N then
      let P := v (.b ⟨_, hN⟩) • basepoint G
      let t := v (.t ⟨_, hN⟩)
      pr.issuance ⟨P, (v .x0 + v .x1 * m) • P, v .x0 • basepoint G + t • hPoint v, basepoint G, hPoint v,
          v .x1 • hPoint v⟩ ⟨.ofF (v .x0), .ofF (v .x1), .ofF t, .ofF m * .ofF (v .x1)⟩ l fun l' π =>
        (next π).wins O pr v ⟨{ S.view with issued := S.view.issued ++ [m] }, S.sent⟩ l'
    else 0
  | .enrol m next, S, l =>
    if S.view.enrolled.length < N then
      next.wins O pr v ⟨{ S.view with enrolled := S.view.enrolled ++ [m] }, S.sent⟩ l
    else 0
  | .watch i next, S, l =>
    match S.view.enrolled[i]? with
    | none => 0
    | some m =>
      if hN : S.view.watched.length < N ∧ i < N then
        let j : Fin N := ⟨_, hN.1⟩
        let P := v (.rho j) • basepoint G
        let C := m • P + v (.zeta j) • hPoint v
        pr.credential ⟨basepoint G, hPoint v, v .x1 • hPoint v, P,
            v (.zeta j) • (v .x1 • hPoint v) - v (.xi j) • hPoint v, C⟩
            ⟨.ofF m, .ofF (v (.zeta j)), -.ofF (v (.xi j))⟩ l fun l' π =>
          pr.roster ⟨basepoint G, hPoint v, P, C, entry G v ⟨i, hN.2⟩ m⟩
              ⟨.ofF m, .ofF (v (.zeta j)), .ofF (v (.y ⟨i, hN.2⟩))⟩ l' fun l'' π' =>
            (next π π').wins O pr v
              ⟨{ S.view with watched := S.view.watched ++ [m] }, S.sent ++ [⟨i, π, π'⟩]⟩ l''
      else 0
  | .test L yes no, S, l =>
    if (L.point v S.view : G) = 0 then yes.wins O pr v S l else no.wins O pr v S l
  | .toss next, S, l => mean fun c => (next c).wins O pr v S l
  | .hash q next, S, l => mean fun a =>
    let t := q.transcript G v S.view
    (next ((l.lookup t).getD a)).wins O pr v S (l.asked t a)
  | .present p next, S, l => mean fun a =>
    let pt := p.points G v S.view
    let l' := l.asked (showTranscript v pt) a
    (next (decide (Shows O v l' pt))).wins O pr v S l'
  | .member p next, S, l => mean fun a =>
    let pt := p.points G v S.view
    let l' := l.asked (memberTranscript v pt) a
    (next (decide (Belongs O v l' pt))).wins O pr v S l'
  | .outputShow p, S, l => mean fun a =>
    let pt := p.points G v S.view
    if Shows O v (l.asked (showTranscript v pt) a) pt ∧ (p.P.point v S.view : G) ≠ 0 ∧ ¬ Copies v S pt ∧
      ∀ m, ¬ Opens G v S.view p m then 1 else 0
  | .outputMember p, S, l => mean fun a => mean fun a' =>
    let pt := p.points G v S.view
    let l' := (l.asked (showTranscript v pt) a).asked (memberTranscript v pt) a'
    if Shows O v l' pt ∧ Belongs O v l' pt ∧ (p.P.point v S.view : G) ≠ 0 ∧ ¬ CopiesAll v S pt ∧
      ∀ m, ¬ (Opens G v S.view p m ∧ OpensRoster G v S.view p m) then 1 else 0

/-- The probability that the adversary wins, over the unknowns and everything else. -/
noncomputable def Attacker.probability (G : Type) [AddCommGroup G] [Module F G] [Ristretto G] (O : Oracle)
    (A : Attacker N) : ℚ :=
  mean fun v : Hidden N => A.wins O (honest (G := G) O) v ⟨⟨[], [], []⟩, []⟩ []

end Spec.Present.Attack

/-! ## Queries whose elements depend on the unknowns -/

/-- The proof system and the label. -/
def Spec.Query.shape {A : Type} : Spec.Query A → ℕ × String
  | .issuanceRevealed l _ _ => (0, l)
  | .attributesBlinded l _ _ => (1, l)
  | .issuanceBlinded l _ _ => (2, l)
  | .validCredential l _ _ => (3, l)
  | .committedValuesEqual l _ _ => (4, l)

/-- The elements in order. -/
def Spec.Query.elems {A : Type} : Spec.Query A → List A
  | .issuanceRevealed _ p c => [p.P, p.Q, p.Cx0, p.B, p.A, p.X1, c.Q, c.Cx0, c.X1]
  | .attributesBlinded _ p c => [p.B, p.A, p.D, p.encrypted_attribute_0_0, p.encrypted_attribute_0_1,
      c.D, c.encrypted_attribute_0_0, c.encrypted_attribute_0_1]
  | .issuanceBlinded _ p c => [p.B, p.A, p.X0, p.X1, p.D, p.P, p.T0_0, p.T0_1, p.EQ_commitment,
      p.EQ_encryption, p.encrypted_attribute_0_0, p.encrypted_attribute_0_1, c.X0, c.X1, c.P, c.T0_0,
      c.T0_1, c.EQ_commitment, c.EQ_encryption]
  | .validCredential _ p c => [p.B, p.A, p.X0, p.P, p.V, p.Cm0, c.Cm0, c.V]
  | .committedValuesEqual _ p c => [p.B, p.A, p.P, p.Cm0, p.Cm1, c.Cm0, c.Cm1]

/-- The operations of a query: those of `Spec.Query.ops`, before the elements are encoded. -/
def Spec.Query.acts {A : Type} : Spec.Query A → List (Spec.Present.Attack.Act A)
  | q@(.issuanceRevealed l _ _) => .init l :: .commit "domain-sep" (.bytes (ascii "issuance_revealed")) ::
      List.zipWith (fun l x => .commit l (.elem x)) ["P", "Q", "Cx0", "B", "A", "X1", "com Q", "com Cx0",
        "com X1"] q.elems
  | q@(.attributesBlinded l _ _) => .init l :: .commit "domain-sep" (.bytes (ascii "attributes_blinded")) ::
      List.zipWith (fun l x => .commit l (.elem x)) ["B", "A", "D", "encrypted_attribute_0_0",
        "encrypted_attribute_0_1", "com D", "com encrypted_attribute_0_0", "com encrypted_attribute_0_1"] q.elems
  | q@(.issuanceBlinded l _ _) => .init l :: .commit "domain-sep" (.bytes (ascii "issuance_blinded")) ::
      List.zipWith (fun l x => .commit l (.elem x)) ["B", "A", "X0", "X1", "D", "P", "T0_0", "T0_1",
        "EQ_commitment", "EQ_encryption", "encrypted_attribute_0_0", "encrypted_attribute_0_1", "com X0", "com X1",
        "com P", "com T0_0", "com T0_1", "com EQ_commitment", "com EQ_encryption"] q.elems
  | q@(.validCredential l _ _) => .init l :: .commit "domain-sep" (.bytes (ascii "valid_credential")) ::
      List.zipWith (fun l x => .commit l (.elem x)) ["B", "A", "X0", "P", "V", "Cm0", "com Cm0", "com V"] q.elems
  | q@(.committedValuesEqual l _ _) => .init l :: .commit "domain-sep" (.bytes (ascii "committed_values_equal")) ::
      List.zipWith (fun l x => .commit l (.elem x)) ["B", "A", "P", "Cm0", "Cm1", "com Cm0", "com Cm1"] q.elems
namespace Attack

open Spec.Present Spec.Present.Attack Present

variable {N : ℕ}

theorem shape_map {A B : Type} (f : A → B) (q : Spec.Query A) : (q.map f).shape = q.shape := by
  cases q <;> rfl

theorem elems_map {A B : Type} (f : A → B) (q : Spec.Query A) : (q.map f).elems = q.elems.map f := by
  cases q <;> rfl

theorem map_map {A B C : Type} (f : A → B) (g : B → C) (q : Spec.Query A) :
    (q.map f).map g = q.map fun a => g (f a) := by
  cases q <;> rfl

theorem query_ext {A : Type} {q q' : Spec.Query A} (h : q.shape = q'.shape) (h' : q.elems = q'.elems) :
    q = q' := by
  cases q <;> cases q' <;>
    simp only [Spec.Query.shape, Prod.mk.injEq, false_and, true_and,
      Nat.reduceEqDiff, OfNat.ofNat_ne_zero, OfNat.zero_ne_ofNat, zero_ne_one, one_ne_zero,
      OfNat.ofNat_ne_one, OfNat.one_ne_ofNat] at h <;>
    simp only [Spec.Query.elems, List.cons.injEq, and_true] at h' <;> subst h <;> congr 1
  · exact IssuanceRevealed.Publics.ext h'.1 h'.2.1 h'.2.2.1 h'.2.2.2.1 h'.2.2.2.2.1 h'.2.2.2.2.2.1
  · obtain ⟨-, -, -, -, -, -, h1, h2, h3⟩ := h'
    exact IssuanceRevealed.Commitments.ext h1 h2 h3
  · obtain ⟨h1, h2, h3, h4, h5, -⟩ := h'
    exact AttributesBlinded.Publics.ext h1 h2 h3 h4 h5
  · obtain ⟨-, -, -, -, -, h1, h2, h3⟩ := h'
    exact AttributesBlinded.Commitments.ext h1 h2 h3
  · obtain ⟨h1, h2, h3, h4, h5, h6, h7, h8, h9, h10, h11, h12, -⟩ := h'
    exact IssuanceBlinded.Publics.ext h1 h2 h3 h4 h5 h6 h7 h8 h9 h10 h11 h12
  · obtain ⟨-, -, -, -, -, -, -, -, -, -, -, -, h1, h2, h3, h4, h5, h6, h7⟩ := h'
    exact IssuanceBlinded.Commitments.ext h1 h2 h3 h4 h5 h6 h7
  · obtain ⟨h1, h2, h3, h4, h5, h6, -⟩ := h'
    exact ValidCredential.Publics.ext h1 h2 h3 h4 h5 h6
  · obtain ⟨-, -, -, -, -, -, h1, h2⟩ := h'
    exact ValidCredential.Commitments.ext h1 h2
  · obtain ⟨h1, h2, h3, h4, h5, -⟩ := h'
    exact CommittedValuesEqual.Publics.ext h1 h2 h3 h4 h5
  · obtain ⟨-, -, -, -, -, h1, h2⟩ := h'
    exact CommittedValuesEqual.Commitments.ext h1 h2

/-- The transcript of a query given by the discrete logarithms of its elements. -/
def Sym (G : Type) [AddCommGroup G] [Module F G] [Ristretto G] (q : Spec.Query (Hidden N → F))
    (v : Hidden N) : Transcript :=
  (q.map fun f => (f v • basepoint G : G)).ops

theorem sym_eq_iff {q q' : Spec.Query (Hidden N → F)} {v v' : Hidden N} :
    Sym G q v = Sym G q' v' ↔
      q.shape = q'.shape ∧ q.elems.map (fun f => f v) = q'.elems.map (fun f => f v') := by
  have hinj : Function.Injective fun a : F => (a • basepoint G : G) := fun a b h => smul_base_inj.1 h
  have he : ∀ (fs : List (Hidden N → F)) (v : Hidden N),
      fs.map (fun f => (f v • basepoint G : G)) = (fs.map fun f => f v).map fun a => a • basepoint G := by
    intro fs v
    rw [List.map_map]
    rfl
  constructor
  · intro h
    have hq := C32_injective h
    have h1 := congrArg Spec.Query.shape hq
    have h2 := congrArg Spec.Query.elems hq
    rw [shape_map, shape_map] at h1
    rw [elems_map, elems_map, he, he] at h2
    exact ⟨h1, hinj.list_map h2⟩
  · rintro ⟨h1, h2⟩
    refine congrArg Spec.Query.ops (query_ext ?_ ?_)
    · rw [shape_map, shape_map, h1]
    · rw [elems_map, elems_map, he, he, h2]

/-- A transcript whose elements are polynomials. -/
def Tame (G : Type) [AddCommGroup G] [Module F G] [Ristretto G] (T : Hidden N → Transcript) : Prop :=
  ∃ q : List (Act (Hidden N → F)), (∀ l f, Act.commit l (.elem f) ∈ q → Poly 3 f) ∧
    ∀ v, T v = q.map (Act.at fun f => enc (f v • basepoint G : G))

theorem acts_ops (q : Spec.Query G) : q.ops = q.acts.map (Act.at enc) := by
  cases q <;> rfl

theorem acts_map {A B : Type} (f : A → B) (g : B → Bytes) (q : Spec.Query A) :
    (q.map f).acts.map (Act.at g) = q.acts.map (Act.at fun a => g (f a)) := by
  cases q <;> rfl

theorem mem_labelled {A : Type} {l : String} {x : A} : ∀ (ls : List String) (xs : List A),
    Act.commit l (.elem x) ∈ List.zipWith (fun l x => Act.commit l (.elem x)) ls xs → x ∈ xs
  | [], _, h => by simp at h
  | _ :: _, [], h => by simp at h
  | l' :: ls, y :: xs, h => by
    rw [List.zipWith_cons_cons, List.mem_cons, Act.commit.injEq, Datum.elem.injEq] at h
    rcases h with ⟨-, rfl⟩ | h
    · simp
    · exact List.mem_cons_of_mem _ (mem_labelled ls xs h)

theorem acts_elems {A : Type} {q : Spec.Query A} {l : String} {x : A} (h : Act.commit l (.elem x) ∈ q.acts) :
    x ∈ q.elems := by
  cases q <;>
    simp only [Spec.Query.acts, List.mem_cons, Act.commit.injEq, reduceCtorEq, and_false, false_or] at h <;>
    exact mem_labelled _ _ h

theorem tame_sym {q : Spec.Query (Hidden N → F)} (h : ∀ f ∈ q.elems, Poly 3 f) : Tame G (Sym G q) := by
  refine ⟨q.acts, fun l f hf => h f (acts_elems hf), fun v => ?_⟩
  rw [Sym, acts_ops, acts_map]

theorem dich_iff {p q : Hidden N → Prop} (h : ∀ v, p v ↔ q v) (hp : Dich p) : Dich q := by
  rwa [show q = p from funext fun v => propext (h v).symm]

theorem dich_const (p : Prop) : Dich (fun _ : Hidden N => p) := by
  by_cases h : p
  · exact .inl fun _ => h
  · exact dich_iff (fun _ => (iff_false_intro h).symm) dich_false

theorem dich_datum {d d' : Datum (Hidden N → F)} (h : ∀ f, d = .elem f → Poly 3 f)
    (h' : ∀ f, d' = .elem f → Poly 3 f) :
    Dich (fun v => d.at (fun f => enc (f v • basepoint G : G)) = d'.at fun f => enc (f v • basepoint G : G)) := by
  have mixed : ∀ (b : Bytes) (f : Hidden N → F), Poly 3 f →
      Dich (fun v => enc (f v • basepoint G : G) = b) := by
    intro b f hf
    by_cases hb : ∃ P : G, enc P = b
    · obtain ⟨P, rfl⟩ := hb
      obtain ⟨s, rfl⟩ := Ristretto.gen P
      exact dich_iff (fun v => by rw [enc_inj_iff, smul_base_inj]) (dich_eq hf (poly_const _ s))
    · exact dich_iff (fun v => ⟨False.elim, fun h => hb ⟨_, h⟩⟩) dich_false
  cases d with
  | bytes b =>
    cases d' with
    | bytes b' => exact dich_const (b = b')
    | elem f => exact dich_iff (fun v => eq_comm) (mixed b f (h' f rfl))
  | elem f =>
    cases d' with
    | bytes b => exact mixed b f (h f rfl)
    | elem f' =>
      refine dich_iff (fun v => ?_) (dich_eq (h f rfl) (h' f' rfl))
      simp only [Datum.at, enc_inj_iff, smul_base_inj]

theorem dich_act {a a' : Act (Hidden N → F)} (h : ∀ l f, a = .commit l (.elem f) → Poly 3 f)
    (h' : ∀ l f, a' = .commit l (.elem f) → Poly 3 f) :
    Dich (fun v => a.at (fun f => enc (f v • basepoint G : G)) = a'.at fun f => enc (f v • basepoint G : G)) := by
  cases a with
  | init l =>
    cases a' with
    | init l' => exact dich_const (Op.init l = .init l')
    | commit l' d => exact dich_iff (fun v => by simp [Act.at]) dich_false
    | challenge l' n => exact dich_iff (fun v => by simp [Act.at]) dich_false
  | challenge l n =>
    cases a' with
    | init l' => exact dich_iff (fun v => by simp [Act.at]) dich_false
    | commit l' d => exact dich_iff (fun v => by simp [Act.at]) dich_false
    | challenge l' n' => exact dich_const (Op.challenge l n = .challenge l' n')
  | commit l d =>
    cases a' with
    | init l' => exact dich_iff (fun v => by simp [Act.at]) dich_false
    | challenge l' n => exact dich_iff (fun v => by simp [Act.at]) dich_false
    | commit l' d' =>
      refine dich_iff (fun v => ?_) ((dich_const (l = l')).and (dich_datum (G := G) (d := d) (d' := d')
        (fun f hf => h l f (by rw [hf])) fun f hf => h' l' f (by rw [hf])))
      simp only [Act.at, Op.commit.injEq]

theorem dich_list : ∀ as bs : List (Act (Hidden N → F)), (∀ l f, Act.commit l (.elem f) ∈ as → Poly 3 f) →
    (∀ l f, Act.commit l (.elem f) ∈ bs → Poly 3 f) →
    Dich (fun v => as.map (Act.at fun f => enc (f v • basepoint G : G)) =
      bs.map (Act.at fun f => enc (f v • basepoint G : G)))
  | [], [], _, _ => .inl fun _ => rfl
  | [], _ :: _, _, _ => dich_iff (fun _ => by simp) dich_false
  | _ :: _, [], _, _ => dich_iff (fun _ => by simp) dich_false
  | a :: as, b :: bs, ha, hb => by
    have h1 := dich_act (G := G) (a := a) (a' := b) (fun l f h => ha l f (by simp [h]))
      fun l f h => hb l f (by simp [h])
    have h2 := dich_list as bs (fun l f h => ha l f (by simp [h])) fun l f h => hb l f (by simp [h])
    exact dich_iff (fun v => by simp) (h1.and h2)

theorem Tame.dich {T T' : Hidden N → Transcript} (h : Tame G T) (h' : Tame G T') :
    Dich (fun v => T v = T' v) := by
  obtain ⟨q, hq, ht⟩ := h
  obtain ⟨q', hq', ht'⟩ := h'
  exact dich_iff (fun v => by rw [ht, ht']) (dich_list (G := G) q q' hq hq')

/-- Queries whose transcript depends on the unknowns, with their answers. -/
abbrev SymLog (N : ℕ) := List ((Hidden N → Transcript) × Spec.Answer)

/-- The queries for given values of the unknowns. -/
def SymLog.at (σ : SymLog N) (v : Hidden N) : Spec.HashLog := σ.map fun e => (e.1 v, e.2)

theorem at_append (σ : SymLog N) (T : Hidden N → Transcript) (a : Spec.Answer) (v : Hidden N) :
    SymLog.at (σ ++ [(T, a)]) v = SymLog.at σ v ++ [(T v, a)] := by
  simp [SymLog.at]

/-- Whether something was asked before does not depend on the unknowns, with few exceptions. -/
theorem lookup_dich {T : Hidden N → Transcript} (hT : Tame G T) : ∀ σ : SymLog N, (∀ e ∈ σ, Tame G e.1) →
    ∃ r : Option Spec.Answer, (∀ a, r = some a → (T, a) ∈ σ) ∧
      {v | (SymLog.at σ v).lookup (T v) ≠ r}.ncard * ell ≤ 3 * σ.length * Fintype.card (Hidden N)
  | [], _ => ⟨none, fun _ h => (by cases h), by simp [SymLog.at]⟩
  | (T', a) :: σ, hσ => by
    obtain ⟨r, hr, hc⟩ := lookup_dich hT σ fun e he => hσ e (by simp [he])
    have hstep : ∀ v, (SymLog.at ((T', a) :: σ) v).lookup (T v) =
        if T' v = T v then some a else (SymLog.at σ v).lookup (T v) := by
      intro v
      simp only [SymLog.at, List.map_cons, List.lookup_cons]
      by_cases h : T' v = T v
      · simp [h]
      · rw [if_neg h, show (T v == T' v) = false from beq_eq_false_iff_ne.2 (Ne.symm h)]
    rcases (hσ (T', a) (by simp)).dich hT with h | h
    · refine ⟨some a, fun b hb => ?_, ?_⟩
      · obtain rfl := Option.some.inj hb
        rw [show T = T' from funext fun v => (h v).symm]
        simp
      · have he : {v | (SymLog.at ((T', a) :: σ) v).lookup (T v) ≠ some a} = ∅ := by
          ext v
          simp only [Set.mem_ofPred_eq, hstep, if_pos (h v), ne_eq, not_true_eq_false,
            Set.mem_empty_iff_false]
        rw [he, Set.ncard_empty, zero_mul]
        exact Nat.zero_le _
    · refine ⟨r, fun b hb => by simp [hr b hb], ?_⟩
      have hsub : {v | (SymLog.at ((T', a) :: σ) v).lookup (T v) ≠ r} ⊆
          {v | T' v = T v} ∪ {v | (SymLog.at σ v).lookup (T v) ≠ r} := by
        intro v hv
        by_cases he : T' v = T v
        · exact .inl he
        · refine .inr ?_
          simp only [Set.mem_ofPred_eq, hstep, if_neg he] at hv ⊢
          exact hv
      have h1 := (Set.ncard_le_ncard hsub (Set.toFinite _)).trans (Set.ncard_union_le _ _)
      calc _ ≤ _ := Nat.mul_le_mul_right _ h1
        _ = _ := add_mul _ _ _
        _ ≤ _ := Nat.add_le_add h hc
        _ = _ := by rw [List.length_cons]; ring

/-! ## Averages over the unknowns -/

theorem ell_pos : (0 : ℚ) < ell := by exact_mod_cast (Nat.Prime.pos Fact.out : 0 < ell)

theorem mean_rare {p : Hidden N → Prop} {f g : Hidden N → ℚ} {k : ℕ}
    (hp : {v | p v}.ncard * ell ≤ k * Fintype.card (Hidden N)) (hf : ∀ v, f v ≤ 1) (hg : ∀ v, 0 ≤ g v)
    (h : ∀ v, ¬ p v → f v ≤ g v) : Spec.mean f ≤ Spec.mean g + k / ell := by
  classical
  have h1 : Spec.mean f ≤ Spec.mean fun v => g v + if p v then 1 else 0 := by
    refine Sim.mean_mono fun v => ?_
    by_cases hv : p v
    · rw [if_pos hv]
      linarith [hf v, hg v]
    · rw [if_neg hv, add_zero]
      exact h v hv
  rw [Sim.mean_add, Sim.mean_indicator] at h1
  refine h1.trans (add_le_add le_rfl ?_)
  unfold Spec.prob
  have hc : (0 : ℚ) < Nat.card (Hidden N) := by exact_mod_cast Nat.card_pos
  rw [div_le_div_iff₀ hc ell_pos, Nat.card_eq_fintype_card (α := Hidden N),
    show Nat.card {v // p v} = {v | p v}.ncard from rfl]
  exact_mod_cast hp

/-- A particular challenge is unlikely. -/
theorem prob_challenge (c : Scalar) :
    Spec.prob (fun a : Spec.Answer => Scalar.fromWide a.1 = c) ≤ 2 / ell := by
  have h1 : Spec.prob (fun a : Spec.Answer => Scalar.fromWide a.1 = c) ≤
      Spec.prob (fun a : Spec.Answer => (leVal a.1 : F) = c.val) := by
    classical
    rw [← Sim.mean_indicator, ← Sim.mean_indicator]
    refine Sim.mean_mono fun a => ?_
    split
    · rename_i h
      rw [if_pos]
      rw [← h, Scalar.fromWide, Scalar.val_ofF]
    · split <;> simp
  refine (h1.trans (Knowledge.collision _)).trans ?_
  rw [div_le_div_iff₀ (by positivity) ell_pos, one_mul]
  exact_mod_cast (by decide +kernel : ell ≤ 2 * 2 ^ 252)

/-- Asking the hash, when a fresh answer is good except with probability `4/ℓ`. -/
theorem ask_bound {σ : SymLog N} {T : Hidden N → Transcript} (hσ : ∀ e ∈ σ, Tame G e.1) (hT : Tame G T)
    (Good : Spec.Answer → Prop) (hold : ∀ a, (T, a) ∈ σ → Good a)
    (hfresh : Spec.prob (fun a => ¬ Good a) ≤ 4 / ell)
    (k : Spec.Answer → Spec.HashLog → Hidden N → ℚ) (hk : ∀ a l v, 0 ≤ k a l v ∧ k a l v ≤ 1) (B : ℚ)
    (hB : 0 ≤ B) (hgood : ∀ a, Good a → (Spec.mean fun v => k a (SymLog.at (σ ++ [(T, a)]) v) v) ≤ B) :
    (Spec.mean fun v => Spec.mean fun a =>
      k (((SymLog.at σ v).lookup (T v)).getD a) ((SymLog.at σ v).asked (T v) a) v) ≤
      B + (3 * σ.length + 4) / ell := by
  classical
  have hform : ∀ v a, k (((SymLog.at σ v).lookup (T v)).getD a) ((SymLog.at σ v).asked (T v) a) v =
      k (((SymLog.at σ v).lookup (T v)).getD a)
        (SymLog.at (σ ++ [(T, ((SymLog.at σ v).lookup (T v)).getD a)]) v) v := by
    intro v a
    rw [at_append, Spec.HashLog.asked]
  have h01 : ∀ v, (Spec.mean fun a =>
      k (((SymLog.at σ v).lookup (T v)).getD a) ((SymLog.at σ v).asked (T v) a) v) ≤ 1 :=
    fun v => (Sim.mean01 fun a => hk _ _ _).2
  obtain ⟨r, hr, hc⟩ := lookup_dich hT σ hσ
  have hcast : ((3 * σ.length : ℕ) : ℚ) = 3 * σ.length := by push_cast; ring
  cases r with
  | some b =>
    have hb := hold b (hr b rfl)
    have := mean_rare (g := fun v => k b (SymLog.at (σ ++ [(T, b)]) v) v) hc h01
      (fun v => (hk _ _ _).1) fun v hv => by
        have hv : (SymLog.at σ v).lookup (T v) = some b := not_not.1 hv
        refine le_of_eq ((Sim.mean_congr fun a => ?_).trans (Sim.mean_const _))
        rw [hform, hv, Option.getD_some]
    rw [hcast] at this
    refine this.trans ?_
    have h4 : (0 : ℚ) ≤ 4 / ell := div_nonneg (by norm_num) ell_pos.le
    rw [add_div]
    linarith [hgood b hb]
  | none =>
    have h1 := mean_rare (g := fun v => Spec.mean fun a => k a (SymLog.at (σ ++ [(T, a)]) v) v) hc h01
      (fun v => (Sim.mean01 fun a => hk _ _ _).1) fun v hv => by
        have hv : (SymLog.at σ v).lookup (T v) = none := not_not.1 hv
        refine le_of_eq (Sim.mean_congr fun a => ?_)
        rw [hform, hv, Option.getD_none]
    rw [hcast, Sim.mean_comm (fun v a => k a (SymLog.at (σ ++ [(T, a)]) v) v)] at h1
    have h2 : (Spec.mean fun a => Spec.mean fun v => k a (SymLog.at (σ ++ [(T, a)]) v) v) ≤
        Spec.mean fun a => B + if ¬ Good a then 1 else 0 := by
      refine Sim.mean_mono fun a => ?_
      by_cases ha : Good a
      · simpa [ha] using hgood a ha
      · rw [if_pos ha]
        linarith [(Sim.mean01 fun v => hk a (SymLog.at (σ ++ [(T, a)]) v) v).2]
    rw [Sim.mean_add, Sim.mean_const, Sim.mean_indicator] at h2
    rw [add_div]
    linarith

/-! ## What an accepted presentation says -/

/-- A later scene. -/
def Later (S S' : Scene) : Prop := S.view.Le S'.view ∧ S.sent <+: S'.sent

theorem Later.refl (S : Scene) : Later S S := ⟨View.Le.refl _, List.prefix_rfl⟩

theorem Later.trans {S S' S'' : Scene} (h : Later S S') (h' : Later S' S'') : Later S S'' :=
  ⟨View.Le.trans h.1 h'.1, h.2.trans h'.2⟩

/-- The query of `showTranscript`. -/
def showQ (p : Pres N) (s : View) : Spec.Query (Hidden N → F) :=
  .validCredential "AEONFLUX SHOW"
    ⟨fun _ => 1, fun v => v .eta, fun v => v .x1 * v .eta, fun v => log p.P v s,
      fun v => v .x0 * log p.P v s + v .x1 * log p.C v s - log p.CQ v s, fun v => log p.C v s⟩
    ⟨fun v => p.proof.responses.m0.val * log p.P v s + p.proof.responses.z0.val * v .eta -
        p.proof.challenge.val * log p.C v s,
      fun v => p.proof.responses.z0.val * (v .x1 * v .eta) + p.proof.responses.minus_zQ.val * v .eta -
        p.proof.challenge.val * (v .x0 * log p.P v s + v .x1 * log p.C v s - log p.CQ v s)⟩

/-- The query of `memberTranscript`. -/
def memberQ (p : Pres N) (s : View) : Spec.Query (Hidden N → F) :=
  .committedValuesEqual "SIGNAL GROUP MEMBERSHIP"
    ⟨fun _ => 1, fun v => v .eta, fun v => log p.P v s, fun v => log p.C v s, fun v => log p.D v s⟩
    ⟨fun v => p.roster.responses.m0.val * log p.P v s + p.roster.responses.z0.val * v .eta -
        p.roster.challenge.val * log p.C v s,
      fun v => p.roster.responses.m0.val * v .eta + p.roster.responses.z1.val -
        p.roster.challenge.val * log p.D v s⟩

theorem showTranscript_eq (v : Hidden N) (s : View) (p : Pres N) :
    showTranscript v (p.points G v s) = Sym G (showQ p s) v := by
  show (Spec.Query.validCredential "AEONFLUX SHOW" _ _).ops = Spec.Query.ops _
  congr 1
  simp only [showQ, Spec.Query.map, Pres.points, List.headD_cons, ValidCredential.recommit, msm,
    List.zipWith_cons_cons, List.zipWith_nil_right, List.sum_cons, List.sum_nil, Scalar.smul_def,
    Scalar.val_neg, Present.point_eq, hPoint]
  congr 2 <;> module

theorem memberTranscript_eq (v : Hidden N) (s : View) (p : Pres N) :
    memberTranscript v (p.points G v s) = Sym G (memberQ p s) v := by
  show (Spec.Query.committedValuesEqual "SIGNAL GROUP MEMBERSHIP" _ _).ops = Spec.Query.ops _
  congr 1
  simp only [memberQ, Spec.Query.map, Pres.points, List.headD_cons, CommittedValuesEqual.recommit, msm,
    List.zipWith_cons_cons, List.zipWith_nil_right, List.sum_cons, List.sum_nil, Scalar.smul_def,
    Scalar.val_neg, Present.point_eq, hPoint]
  congr 2 <;> module

/-- `SignalIssuer::verify` compares the challenge with the hash answer. -/
theorem shows_iff (O : Oracle) {v : Hidden N} {s : View} {p : Pres N} {l : Spec.HashLog} {b : Spec.Answer}
    (h : l.lookup (showTranscript v (p.points G v s)) = some b) :
    Shows O v l (p.points G v s) ↔ Scalar.fromWide b.1 = p.proof.challenge := by
  have hc := Sim.getChallenge_oracle (O := O) h
  simp only [showTranscript, Pres.points, List.headD_cons] at hc
  unfold Shows
  simp only [SignalIssuer.verify, Pres.points, issuer, verify_one, Scalar.smul_def, Scalar.val_ofF,
    ValidCredential.verify, Issuer.showTranscript, hc]
  by_cases he : Scalar.fromWide b.1 = p.proof.challenge
  · simp [he]
  · simp [he]

/-- `SignalIssuer::verify_roster_membership` compares the challenge with the hash answer. -/
theorem belongs_iff (O : Oracle) {v : Hidden N} {s : View} {p : Pres N} {l : Spec.HashLog}
    {b : Spec.Answer} (h : l.lookup (memberTranscript v (p.points G v s)) = some b) :
    Belongs O v l (p.points G v s) ↔ Scalar.fromWide b.1 = p.roster.challenge := by
  have hc := Sim.getChallenge_oracle (O := O) h
  simp only [memberTranscript, Pres.points, List.headD_cons] at hc
  unfold Belongs
  simp only [Pres.points, verifyRoster_one, issuer, CommittedValuesEqual.verify,
    SignalIssuer.membershipTranscript, hc]
  by_cases he : Scalar.fromWide b.1 = p.roster.challenge
  · simp [he]
  · simp [he]

/-- A presentation is trivial, or for an issued attribute, or repeats another one, whatever the unknowns
are. -/
def Fine (S : Scene) (p : Pres N) : Prop :=
  (∀ v, log p.P v S.view = 0) ∨
  ((∃ v : Hidden N, v .eta = 0 ∧ log p.P v S.view ≠ 0) ∧ ∃ m ∈ S.view.issued, ∀ v : Hidden N,
    log p.C v S.view = m * log p.P v S.view + p.C.h * v .eta) ∨
  ∃ (j : Fin N) (m : F) (e : Sent), S.view.watched[j.1]? = some m ∧ S.sent[j.1]? = some e ∧
    SameProof p.proof e.proof ∧ ∀ v : Hidden N,
    log p.P v S.view = v (.rho j) ∧ log p.C v S.view = m * v (.rho j) + v (.zeta j) * v .eta ∧
    log p.CQ v S.view = (v .x0 + v .x1 * m) * v (.rho j) + v (.xi j) * v .eta

/-- The roster entry of a presentation is for the committed attribute, or both repeat others. -/
def FineRoster (S : Scene) (p : Pres N) : Prop :=
  (∃ m z : F, (∀ v : Hidden N, log p.C v S.view = m * log p.P v S.view + z * v .eta) ∧
    ∀ v : Hidden N, log p.D v S.view = m * v .eta + p.D.base) ∨
  ∃ (j i : Fin N) (m m' : F) (e : Sent), S.view.watched[j.1]? = some m ∧ S.sent[j.1]? = some e ∧
    e.owner = i.1 ∧ S.view.enrolled[i.1]? = some m' ∧ SameRoster p.roster e.roster ∧ ∀ v : Hidden N,
    log p.P v S.view = v (.rho j) ∧ log p.C v S.view = m * v (.rho j) + v (.zeta j) * v .eta ∧
    log p.D v S.view = m' * v .eta + v (.y i)

/-- With the answer `a` to the query `T`, accepted presentations are fine. -/
def SoundShow (G : Type) [AddCommGroup G] [Module F G] [Ristretto G] (S : Scene)
    (T : Hidden N → Transcript) (a : Spec.Answer) : Prop :=
  ∀ S' (p : Pres N), Later S S' → (∀ v, T v = Sym G (showQ p S'.view) v) →
    Scalar.fromWide a.1 = p.proof.challenge → Fine S' p

/-- With the answer `a` to the query `T`, accepted roster proofs are fine. -/
def SoundMember (G : Type) [AddCommGroup G] [Module F G] [Ristretto G] (S : Scene)
    (T : Hidden N → Transcript) (a : Spec.Answer) : Prop :=
  ∀ S' (p : Pres N), Later S S' → (∀ v, T v = Sym G (memberQ p S'.view) v) →
    Scalar.fromWide a.1 = p.roster.challenge → FineRoster S' p

/-- At most one answer is not sound. -/
theorem unsound_show {S : Scene} {T : Hidden N → Transcript} {a a' : Spec.Answer}
    (h : ¬ SoundShow G S T a) (h' : ¬ SoundShow G S T a') :
    Scalar.fromWide a.1 = Scalar.fromWide a'.1 := by
  by_contra hne
  unfold SoundShow at h h'
  push Not at h h'
  obtain ⟨S1, p, hS, hT, hc, hf⟩ := h
  obtain ⟨S2, p', -, hT', hc', -⟩ := h'
  apply hf
  have hcc : p.proof.challenge.val ≠ p'.proof.challenge.val := by
    intro he
    apply hne
    have := congrArg Scalar.ofF he
    rw [← hc, ← hc'] at this
    simpa only [Scalar.fromWide, Scalar.val_ofF] using this
  have hq : ∀ v, Sym G (showQ p S1.view) v = Sym G (showQ p' S2.view) v := fun v => by rw [← hT, hT']
  simp only [sym_eq_iff, showQ, Spec.Query.elems, List.map_cons, List.map_nil, List.cons.injEq, and_true,
    true_and] at hq
  generalize p.proof.challenge.val = c at *
  generalize p'.proof.challenge.val = c' at *
  generalize p.proof.responses.m0.val = m at *
  generalize p'.proof.responses.m0.val = m' at *
  generalize p.proof.responses.z0.val = z at *
  generalize p'.proof.responses.z0.val = z' at *
  generalize p.proof.responses.minus_zQ.val = w at *
  generalize p'.proof.responses.minus_zQ.val = w' at *
  set s := S1.view with hs
  have hsub : c - c' ≠ 0 := sub_ne_zero.2 hcc
  -- the committed attribute
  have hD : ∀ v : Hidden N, log p.C v s = (m - m') / (c - c') * log p.P v s + (z - z') / (c - c') * v .eta := by
    refine two_challenges hcc (fun v => rfl) fun v => ?_
    obtain ⟨-, e1, -, e3, e4, -⟩ := hq v
    rw [e4, e1, e3]
  -- the value `V` is a combination
  have hV : ∀ v : Hidden N, log (⟨0, (w - w') / (c - c'), (z - z') / (c - c'), 0, 0, 0, 0, 0, 0, 0⟩ : Lin N) v s +
      log p.CQ v s = v .x0 * log p.P v s + v .x1 * log p.C v s := by
    intro v
    obtain ⟨-, -, e2, -, -, e5⟩ := hq v
    rw [log_h]
    rw [← e2] at e5
    field_simp
    linear_combination e5
  obtain ⟨hP, hC⟩ := log_structure (View.Le.refl s) hV
  by_cases hn : ∀ j, (trunc s p.P).nonce j = 0
  · left
    intro v
    rw [hP]
    simp [hn]
  · right; left
    push Not at hn
    obtain ⟨j, hj⟩ := hn
    have hM : ∀ j, (trunc s p.P).nonce j ≠ 0 → attr s.issued j = (m - m') / (c - c') := by
      intro j hj
      have := hD (Present.probe 0 0 0 (Pi.single j 1) 0 0 0 0 0)
      rw [hP, hC] at this
      simp only [Present.probe, mul_zero, zero_add, add_zero, sum_single] at this
      exact mul_right_cancel₀ hj this
    have hlt : j.1 < s.issued.length := by
      by_contra hn
      exact hj (by simp [trunc, hn])
    refine ⟨⟨Present.probe 0 0 0 (Pi.single j 1) 0 0 0 0 0, rfl, ?_⟩, s.issued[j.1], List.getElem_mem hlt, ?_⟩
    · rw [hP]
      simpa only [Present.probe, sum_single] using hj
    · intro v
      have hm := (attr_of_prefix (List.prefix_rfl (l := s.issued)) (List.getElem?_eq_getElem hlt)).2
      rw [hP, hC, ← hm, hM j hj, Finset.mul_sum, add_comm]
      congr 1
      refine Finset.sum_congr rfl fun i _ => ?_
      by_cases hi : (trunc s p.P).nonce i = 0
      · simp [hi]
      · rw [hM i hi]
        ring

/-- At most one answer is not sound. -/
theorem unsound_member {S : Scene} {T : Hidden N → Transcript} {a a' : Spec.Answer}
    (h : ¬ SoundMember G S T a) (h' : ¬ SoundMember G S T a') :
    Scalar.fromWide a.1 = Scalar.fromWide a'.1 := by
  by_contra hne
  unfold SoundMember at h h'
  push Not at h h'
  obtain ⟨S1, p, hS, hT, hc, hf⟩ := h
  obtain ⟨S2, p', -, hT', hc', -⟩ := h'
  apply hf
  have hcc : p.roster.challenge.val ≠ p'.roster.challenge.val := by
    intro he
    apply hne
    have := congrArg Scalar.ofF he
    rw [← hc, ← hc'] at this
    simpa only [Scalar.fromWide, Scalar.val_ofF] using this
  have hq : ∀ v, Sym G (memberQ p S1.view) v = Sym G (memberQ p' S2.view) v := fun v => by rw [← hT, hT']
  simp only [sym_eq_iff, memberQ, Spec.Query.elems, List.map_cons, List.map_nil, List.cons.injEq, and_true,
    true_and] at hq
  have hsub : p.roster.challenge.val - p'.roster.challenge.val ≠ 0 := sub_ne_zero.2 hcc
  have hD : ∀ v : Hidden N, log p.D v S1.view =
      (p.roster.responses.m0.val - p'.roster.responses.m0.val) /
        (p.roster.challenge.val - p'.roster.challenge.val) * v .eta +
      (p.roster.responses.z1.val - p'.roster.responses.z1.val) /
        (p.roster.challenge.val - p'.roster.challenge.val) := by
    intro v
    obtain ⟨-, -, -, e3, -, e5⟩ := hq v
    rw [← e3] at e5
    field_simp
    linear_combination -e5
  have hC := two_challenges hcc (R := fun v => p.roster.responses.m0.val * log p.P v S1.view +
    p.roster.responses.z0.val * v .eta - p.roster.challenge.val * log p.C v S1.view)
    (P := fun v => log p.P v S1.view) (C := fun v => log p.C v S1.view) (fun v => rfl) fun v => by
      obtain ⟨-, e1, e2, -, e4, -⟩ := hq v
      rw [e4, e1, e2]
  refine .inl ⟨_, _, hC, fun v => ?_⟩
  · have := hD fun _ => 0
    rw [log_zero, mul_zero, zero_add] at this
    rw [hD, this]

/-! ## The queries in the game -/

theorem poly3_var (u : Var N) : Poly 3 (fun v : Hidden N => v u) := (poly_var u).mono (by omega)

theorem poly3_mul (u w : Var N) : Poly 3 (fun v : Hidden N => v u * v w) :=
  ((poly_var u).mul (poly_var w)).mono (by omega)

theorem poly3_log (L : Lin N) (s : View) : Poly 3 (fun v => log L v s) := (poly_log L s).mono (by omega)

theorem poly3_var_log (u : Var N) (L : Lin N) (s : View) : Poly 3 (fun v => v u * log L v s) :=
  ((poly_var u).mul (poly_log L s)).mono (by omega)

theorem tame_show (p : Pres N) (s : View) : Tame G (Sym G (showQ p s)) := by
  refine tame_sym fun f hf => ?_
  have hV := ((poly3_var_log .x0 p.P s).add (poly3_var_log .x1 p.C s)).sub (poly3_log p.CQ s)
  simp only [showQ, Spec.Query.elems, List.mem_cons, List.not_mem_nil, or_false] at hf
  rcases hf with rfl | rfl | rfl | rfl | rfl | rfl | rfl | rfl
  · exact poly_const _ _
  · exact poly3_var _
  · exact poly3_mul _ _
  · exact poly3_log _ _
  · exact hV
  · exact poly3_log _ _
  · exact (((poly3_log _ _).smul _).add ((poly3_var _).smul _)).sub ((poly3_log _ _).smul _)
  · exact (((poly3_mul _ _).smul _).add ((poly3_var _).smul _)).sub (hV.smul _)

theorem tame_member (p : Pres N) (s : View) : Tame G (Sym G (memberQ p s)) := by
  refine tame_sym fun f hf => ?_
  simp only [memberQ, Spec.Query.elems, List.mem_cons, List.not_mem_nil, or_false] at hf
  rcases hf with rfl | rfl | rfl | rfl | rfl | rfl | rfl
  · exact poly_const _ _
  · exact poly3_var _
  · exact poly3_log _ _
  · exact poly3_log _ _
  · exact poly3_log _ _
  · exact (((poly3_log _ _).smul _).add ((poly3_var _).smul _)).sub ((poly3_log _ _).smul _)
  · exact (((poly3_var _).smul _).add (poly_const _ _)).sub ((poly3_log _ _).smul _)

theorem tame_ask (q : Ask N) (s : View) : Tame G (fun v => q.transcript G v s) := by
  have at_map : ∀ a : Act (Lin N), ∃ a' : Act (Hidden N → F), (∀ l f, a' = .commit l (.elem f) → Poly 3 f) ∧
      ∀ v, a.at (fun L => enc (L.point v s : G)) = a'.at fun f => enc (f v • basepoint G : G) := by
    rintro (l | ⟨l, b | L⟩ | ⟨l, n⟩)
    · exact ⟨.init l, fun _ _ h => (nomatch h), fun v => rfl⟩
    · exact ⟨.commit l (.bytes b), fun _ _ h => (nomatch h), fun v => rfl⟩
    · refine ⟨.commit l (.elem fun v => log L v s), fun _ _ h => ?_, fun v => ?_⟩
      · cases h
        exact poly3_log _ _
      · simp only [Act.at, Datum.at, Present.point_eq]
    · exact ⟨.challenge l n, fun _ _ h => (nomatch h), fun v => rfl⟩
  choose g hg hv using at_map
  refine ⟨q.map g, fun l f h => ?_, fun v => ?_⟩
  · obtain ⟨a, -, ha⟩ := List.mem_map.1 h
    exact hg a l f ha
  · rw [List.map_map]
    exact List.map_congr_left fun a _ => hv a v

/-- The queries of the proof systems can be asked, with combinations in all places. -/
theorem ask_query (q : Spec.Query (Lin N)) (v : Hidden N) (s : View) :
    Ask.transcript G v s q.acts = (q.map fun L => (L.point v s : G)).ops := by
  rw [acts_ops, acts_map]
  rfl

/-- The query of the simulated proof for the `j`-th issuance. -/
def issueQ (j : Fin N) (m : F) (π : IssuanceRevealed.Proof) : Spec.Query (Hidden N → F) :=
  .issuanceRevealed "AEONFLUX ISSUANCE"
    ⟨fun v => v (.b j), fun v => v .x0 * v (.b j) + m * (v .x1 * v (.b j)),
      fun v => v .x0 + v (.t j) * v .eta, fun _ => 1, fun v => v .eta, fun v => v .x1 * v .eta⟩
    ⟨fun v => (π.responses.x0.val + π.responses.m1x1.val) * v (.b j) -
        π.challenge.val * (v .x0 * v (.b j) + m * (v .x1 * v (.b j))),
      fun v => π.responses.x0.val + π.responses.x0_tilde.val * v .eta -
        π.challenge.val * (v .x0 + v (.t j) * v .eta),
      fun v => π.responses.x1.val * v .eta - π.challenge.val * (v .x1 * v .eta)⟩

/-- The query of the simulated proof for the `j`-th presentation. -/
def credQ (j : Fin N) (m : F) (π : ValidCredential.Proof) : Spec.Query (Hidden N → F) :=
  .validCredential "AEONFLUX SHOW"
    ⟨fun _ => 1, fun v => v .eta, fun v => v .x1 * v .eta, fun v => v (.rho j),
      fun v => v (.zeta j) * (v .x1 * v .eta) - v (.xi j) * v .eta,
      fun v => m * v (.rho j) + v (.zeta j) * v .eta⟩
    ⟨fun v => π.responses.m0.val * v (.rho j) + π.responses.z0.val * v .eta -
        π.challenge.val * (m * v (.rho j) + v (.zeta j) * v .eta),
      fun v => π.responses.z0.val * (v .x1 * v .eta) + π.responses.minus_zQ.val * v .eta -
        π.challenge.val * (v (.zeta j) * (v .x1 * v .eta) - v (.xi j) * v .eta)⟩

/-- The query of the simulated roster proof for the `j`-th presentation, with the `i`-th entry. -/
def rosterQ (j i : Fin N) (m : F) (π : CommittedValuesEqual.Proof) : Spec.Query (Hidden N → F) :=
  .committedValuesEqual "SIGNAL GROUP MEMBERSHIP"
    ⟨fun _ => 1, fun v => v .eta, fun v => v (.rho j), fun v => m * v (.rho j) + v (.zeta j) * v .eta,
      fun v => m * v .eta + v (.y i)⟩
    ⟨fun v => π.responses.m0.val * v (.rho j) + π.responses.z0.val * v .eta -
        π.challenge.val * (m * v (.rho j) + v (.zeta j) * v .eta),
      fun v => π.responses.m0.val * v .eta + π.responses.z1.val -
        π.challenge.val * (m * v .eta + v (.y i))⟩

theorem issueQ_eq (v : Hidden N) (j : Fin N) (m : F) (π : IssuanceRevealed.Proof) :
    (let P := v (.b j) • basepoint G
      let p : IssuanceRevealed.Publics G := ⟨P, (v .x0 + v .x1 * m) • P,
        v .x0 • basepoint G + v (.t j) • hPoint v, basepoint G, hPoint v, v .x1 • hPoint v⟩
      IssuanceRevealed.verifyTranscript [.init "AEONFLUX ISSUANCE"] p (IssuanceRevealed.recommit p π)) =
    Sym G (issueQ j m π) v := by
  show (Spec.Query.issuanceRevealed "AEONFLUX ISSUANCE" _ _).ops = Spec.Query.ops _
  congr 1
  simp only [issueQ, Spec.Query.map, IssuanceRevealed.recommit, msm,
    List.zipWith_cons_cons, List.zipWith_nil_right, List.sum_cons, List.sum_nil, Scalar.smul_def,
    Scalar.val_neg, hPoint]
  congr 2 <;> module

theorem credQ_eq (v : Hidden N) (j : Fin N) (m : F) (π : ValidCredential.Proof) :
    (let P := v (.rho j) • basepoint G
      let p : ValidCredential.Publics G := ⟨basepoint G, hPoint v, v .x1 • hPoint v, P,
        v (.zeta j) • (v .x1 • hPoint v) - v (.xi j) • hPoint v, m • P + v (.zeta j) • hPoint v⟩
      ValidCredential.verifyTranscript [.init "AEONFLUX SHOW"] p (ValidCredential.recommit p π)) =
    Sym G (credQ j m π) v := by
  show (Spec.Query.validCredential "AEONFLUX SHOW" _ _).ops = Spec.Query.ops _
  congr 1
  simp only [credQ, Spec.Query.map, ValidCredential.recommit, msm,
    List.zipWith_cons_cons, List.zipWith_nil_right, List.sum_cons, List.sum_nil, Scalar.smul_def,
    Scalar.val_neg, hPoint]
  congr 2 <;> module

theorem rosterQ_eq (v : Hidden N) (j i : Fin N) (m : F) (π : CommittedValuesEqual.Proof) :
    (let P := v (.rho j) • basepoint G
      let p : CommittedValuesEqual.Publics G := ⟨basepoint G, hPoint v, P,
        m • P + v (.zeta j) • hPoint v, entry G v i m⟩
      CommittedValuesEqual.verifyTranscript [.init "SIGNAL GROUP MEMBERSHIP"] p
        (CommittedValuesEqual.recommit p π)) =
    Sym G (rosterQ j i m π) v := by
  show (Spec.Query.committedValuesEqual "SIGNAL GROUP MEMBERSHIP" _ _).ops = Spec.Query.ops _
  congr 1
  simp only [rosterQ, Spec.Query.map, CommittedValuesEqual.recommit, msm, entry,
    List.zipWith_cons_cons, List.zipWith_nil_right, List.sum_cons, List.sum_nil, Scalar.smul_def,
    Scalar.val_neg, hPoint]
  congr 2 <;> module

theorem poly3_mul3 (u w x : Var N) : Poly 3 (fun v : Hidden N => v u * (v w * v x)) :=
  ((poly_var u).mul ((poly_var w).mul (poly_var x))).mono (by omega)

theorem tame_issue (j : Fin N) (m : F) (π : IssuanceRevealed.Proof) : Tame G (Sym G (issueQ j m π)) := by
  refine tame_sym fun f hf => ?_
  have hQ := (poly3_mul (N := N) .x0 (.b j)).add ((poly3_mul .x1 (.b j)).smul m)
  have hX := (poly3_var (N := N) .x0).add (poly3_mul (.t j) .eta)
  simp only [issueQ, Spec.Query.elems, List.mem_cons, List.not_mem_nil, or_false] at hf
  rcases hf with rfl | rfl | rfl | rfl | rfl | rfl | rfl | rfl | rfl
  · exact poly3_var _
  · exact hQ
  · exact hX
  · exact poly_const _ _
  · exact poly3_var _
  · exact poly3_mul _ _
  · exact ((poly3_var _).smul _).sub (hQ.smul _)
  · exact ((poly_const _ _).add ((poly3_var _).smul _)).sub (hX.smul _)
  · exact ((poly3_var _).smul _).sub ((poly3_mul _ _).smul _)

theorem tame_cred (j : Fin N) (m : F) (π : ValidCredential.Proof) : Tame G (Sym G (credQ j m π)) := by
  refine tame_sym fun f hf => ?_
  have hV := (poly3_mul3 (N := N) (.zeta j) .x1 .eta).sub (poly3_mul (.xi j) .eta)
  have hC := ((poly3_var (N := N) (.rho j)).smul m).add (poly3_mul (.zeta j) .eta)
  simp only [credQ, Spec.Query.elems, List.mem_cons, List.not_mem_nil, or_false] at hf
  rcases hf with rfl | rfl | rfl | rfl | rfl | rfl | rfl | rfl
  · exact poly_const _ _
  · exact poly3_var _
  · exact poly3_mul _ _
  · exact poly3_var _
  · exact hV
  · exact hC
  · exact (((poly3_var _).smul _).add ((poly3_var _).smul _)).sub (hC.smul _)
  · exact (((poly3_mul _ _).smul _).add ((poly3_var _).smul _)).sub (hV.smul _)

theorem tame_roster (j i : Fin N) (m : F) (π : CommittedValuesEqual.Proof) :
    Tame G (Sym G (rosterQ j i m π)) := by
  refine tame_sym fun f hf => ?_
  have hC := ((poly3_var (N := N) (.rho j)).smul m).add (poly3_mul (.zeta j) .eta)
  have hD := ((poly3_var (N := N) .eta).smul m).add (poly3_var (.y i))
  simp only [rosterQ, Spec.Query.elems, List.mem_cons, List.not_mem_nil, or_false] at hf
  rcases hf with rfl | rfl | rfl | rfl | rfl | rfl | rfl
  · exact poly_const _ _
  · exact poly3_var _
  · exact poly3_var _
  · exact hC
  · exact hD
  · exact (((poly3_var _).smul _).add ((poly3_var _).smul _)).sub (hC.smul _)
  · exact (((poly3_var _).smul _).add (poly_const _ _)).sub (hD.smul _)

/-! ## The queries of the simulator are sound -/

/-- Both kinds of soundness. -/
def SoundBoth (G : Type) [AddCommGroup G] [Module F G] [Ristretto G] (S : Scene)
    (T : Hidden N → Transcript) (a : Spec.Answer) : Prop :=
  SoundShow G S T a ∧ SoundMember G S T a

theorem SoundBoth.later {S S' : Scene} {T : Hidden N → Transcript} {a : Spec.Answer}
    (h : SoundBoth G S T a) (hS : Later S S') : SoundBoth G S' T a :=
  ⟨fun S'' p h'' => h.1 S'' p (hS.trans h''), fun S'' p h'' => h.2 S'' p (hS.trans h'')⟩

theorem shape_ne {q q' : Spec.Query (Hidden N → F)} (h : q.shape ≠ q'.shape)
    (h' : ∀ v, Sym G q v = Sym G q' v) : False :=
  h (sym_eq_iff.1 (h' fun _ => 0)).1

theorem sound_issue (S : Scene) (j : Fin N) (m : F) (π : IssuanceRevealed.Proof) (a : Spec.Answer) :
    SoundBoth G S (Sym G (issueQ j m π)) a := by
  refine ⟨fun S' p _ h _ => (shape_ne ?_ h).elim, fun S' p _ h _ => (shape_ne ?_ h).elim⟩
  · simp [issueQ, showQ, Spec.Query.shape]
  · simp [issueQ, memberQ, Spec.Query.shape]

theorem prefix_get {α : Type} {l l' : List α} {k : ℕ} {x : α} (h : l <+: l') (h' : l[k]? = some x) :
    l'[k]? = some x := by
  obtain ⟨t, rfl⟩ := h
  rw [List.getElem?_append_left ((List.getElem?_eq_some_iff.1 h').1), h']

theorem sound_cred {S : Scene} {j : Fin N} {m : F} {e : Sent} (hj : S.view.watched[j.1]? = some m)
    (he : S.sent[j.1]? = some e) {a : Spec.Answer} (ha : e.proof.challenge = Scalar.fromWide a.1) :
    SoundBoth G S (Sym G (credQ j m e.proof)) a := by
  classical
  refine ⟨fun S' p hS h hc => .inr (.inr ⟨j, m, e, prefix_get hS.1.2.1 hj, prefix_get hS.2 he, ?_, fun v => ?_⟩),
    fun S' p _ h _ => (shape_ne ?_ h).elim⟩
  · have hcc : p.proof.challenge = e.proof.challenge := hc.symm.trans ha.symm
    have hv := fun v => (sym_eq_iff.1 (h v)).2
    simp only [credQ, showQ, Spec.Query.elems, List.map_cons, List.map_nil, List.cons.injEq, true_and, and_true,
      hcc] at hv
    have h4 : ∀ v : Hidden N, p.proof.responses.m0.val * v (.rho j) + p.proof.responses.z0.val * v .eta =
        e.proof.responses.m0.val * v (.rho j) + e.proof.responses.z0.val * v .eta := fun v => by
      obtain ⟨e1, e2, e3, e4, e5⟩ := hv v
      rw [← e1, ← e3] at e4
      linear_combination -e4
    have h5 : ∀ v : Hidden N,
        p.proof.responses.z0.val * (v .x1 * v .eta) + p.proof.responses.minus_zQ.val * v .eta =
        e.proof.responses.z0.val * (v .x1 * v .eta) + e.proof.responses.minus_zQ.val * v .eta := fun v => by
      obtain ⟨e1, e2, e3, e4, e5⟩ := hv v
      rw [← e2] at e5
      linear_combination -e5
    refine ⟨hcc, ?_, ?_, ?_⟩
    · simpa using h4 fun u => if u = .rho j then 1 else 0
    · simpa using h4 fun u => if u = .eta then 1 else 0
    · simpa using h5 fun u => if u = .eta then 1 else 0
  · have hv := h v
    simp only [sym_eq_iff, credQ, showQ, Spec.Query.elems, List.map_cons, List.map_nil,
      List.cons.injEq, true_and] at hv
    obtain ⟨-, e1, e2, e3, -⟩ := hv
    refine ⟨e1.symm, e3.symm, ?_⟩
    rw [← e1, ← e3] at e2
    linear_combination e2
  · simp [credQ, memberQ, Spec.Query.shape]

theorem sound_roster {S : Scene} {j i : Fin N} {m : F} {e : Sent} (hj : S.view.watched[j.1]? = some m)
    (he : S.sent[j.1]? = some e) (ho : e.owner = i.1) (hi : S.view.enrolled[i.1]? = some m)
    {a : Spec.Answer} (ha : e.roster.challenge = Scalar.fromWide a.1) :
    SoundBoth G S (Sym G (rosterQ j i m e.roster)) a := by
  classical
  refine ⟨fun S' p _ h _ => (shape_ne ?_ h).elim, fun S' p hS h hc =>
    .inr ⟨j, i, m, m, e, prefix_get hS.1.2.1 hj, prefix_get hS.2 he, ho, prefix_get hS.1.2.2 hi, ?_, fun v => ?_⟩⟩
  · simp [rosterQ, showQ, Spec.Query.shape]
  · have hcc : p.roster.challenge = e.roster.challenge := hc.symm.trans ha.symm
    have hv := fun v => (sym_eq_iff.1 (h v)).2
    simp only [rosterQ, memberQ, Spec.Query.elems, List.map_cons, List.map_nil, List.cons.injEq, true_and, and_true,
      hcc] at hv
    have h4 : ∀ v : Hidden N, p.roster.responses.m0.val * v (.rho j) + p.roster.responses.z0.val * v .eta =
        e.roster.responses.m0.val * v (.rho j) + e.roster.responses.z0.val * v .eta := fun v => by
      obtain ⟨e1, e2, e3, e4, e5⟩ := hv v
      rw [← e1, ← e2] at e4
      linear_combination -e4
    have h5 : ∀ v : Hidden N, p.roster.responses.m0.val * v .eta + p.roster.responses.z1.val =
        e.roster.responses.m0.val * v .eta + e.roster.responses.z1.val := fun v => by
      obtain ⟨e1, e2, e3, e4, e5⟩ := hv v
      rw [← e3] at e5
      linear_combination -e5
    refine ⟨hcc, ?_, ?_, ?_⟩
    · simpa using h4 fun u => if u = .rho j then 1 else 0
    · simpa using h4 fun u => if u = .eta then 1 else 0
    · simpa using h5 fun _ => 0
  · have hv := h v
    simp only [sym_eq_iff, rosterQ, memberQ, Spec.Query.elems, List.map_cons, List.map_nil,
      List.cons.injEq, true_and] at hv
    obtain ⟨-, e1, e2, e3, -⟩ := hv
    exact ⟨e1.symm, e2.symm, e3.symm⟩

/-- A fresh answer is sound. -/
theorem fresh_sound (S : Scene) (T : Hidden N → Transcript) :
    Spec.prob (fun a => ¬ SoundBoth G S T a) ≤ 4 / ell := by
  classical
  have one : ∀ P : Spec.Answer → Prop,
      (∀ a a', ¬ P a → ¬ P a' → Scalar.fromWide a.1 = Scalar.fromWide a'.1) →
      (Spec.mean fun a => if ¬ P a then (1 : ℚ) else 0) ≤ 2 / ell := by
    intro P hP
    by_cases h : ∃ a, ¬ P a
    · obtain ⟨a₀, h₀⟩ := h
      refine le_trans ?_ (prob_challenge (Scalar.fromWide a₀.1))
      rw [← Sim.mean_indicator]
      refine Sim.mean_mono fun a => ?_
      by_cases ha : P a
      · rw [if_neg (not_not.2 ha)]
        split <;> simp
      · rw [if_pos ha, if_pos (hP _ _ ha h₀)]
    · push Not at h
      refine le_trans (le_of_eq ((Sim.mean_congr fun a => ?_).trans (Sim.mean_const 0)))
        (div_nonneg (by norm_num) ell_pos.le)
      rw [if_neg (not_not.2 (h a))]
  have h1 := one (SoundShow G S T) fun a a' => unsound_show
  have h2 := one (SoundMember G S T) fun a a' => unsound_member
  have h3 : Spec.prob (fun a => ¬ SoundBoth G S T a) ≤ (Spec.mean fun a =>
      (if ¬ SoundShow G S T a then (1 : ℚ) else 0) + if ¬ SoundMember G S T a then 1 else 0) := by
    rw [← Sim.mean_indicator]
    refine Sim.mean_mono fun a => ?_
    by_cases ha : SoundShow G S T a <;> by_cases hb : SoundMember G S T a <;>
      simp [SoundBoth, ha, hb]
  rw [Sim.mean_add] at h3
  have : (4 : ℚ) / ell = 2 / ell + 2 / ell := by ring
  linarith

/-! ## What fine presentations are -/

theorem fine_show {S : Scene} {p : Pres N} (h : Fine S p) (v : Hidden N) :
    (p.P.point v S.view : G) = 0 ∨ Copies v S (p.points G v S.view) ∨ ∃ m, Opens G v S.view p m := by
  rcases h with h | ⟨-, m, hm, h⟩ | ⟨j, m, e, hj, he, hs, h⟩
  · left
    rw [Present.point_eq, h, zero_smul]
  · right; right
    refine ⟨m, hm, ?_⟩
    rw [Present.point_eq, Present.point_eq, Present.hPoint_eq, h v]
    module
  · right; left
    obtain ⟨h1, h2, h3⟩ := h v
    refine ⟨j, m, e, hj, he, ?_, hs⟩
    simp only [Pres.points, List.headD_cons, shown, Present.point_eq, h1, h2, h3, Present.hPoint_eq,
      Prod.mk.injEq, true_and]
    constructor <;> module

theorem not_copy_opening {j : Fin N} {m m' z : F}
    (h : ∀ v : Hidden N, m * v (.rho j) + v (.zeta j) * v .eta = m' * v (.rho j) + z * v .eta) : False := by
  classical
  have := h fun u => if u = .zeta j then z + 1 else if u = .eta then 1 else 0
  simp at this

theorem fine_member {S : Scene} {p : Pres N} (h : Fine S p) (h' : FineRoster S p) (v : Hidden N) :
    (p.P.point v S.view : G) = 0 ∨ CopiesAll v S (p.points G v S.view) ∨
      ∃ m, Opens G v S.view p m ∧ OpensRoster G v S.view p m := by
  rcases fine_show (G := G) h v with hP | - | -
  · exact .inl hP
  all_goals
    rcases h with h | ⟨⟨u, hu, hPu⟩, m, hm, h⟩ | ⟨j, m, e, hj, he, hs, h⟩
    · left
      rw [Present.point_eq, h, zero_smul]
    · right; right
      rcases h' with ⟨m', z, h1, h2⟩ | ⟨j, i, m', m'', -, hj, -, -, -, -, h2⟩
      · have e1 := h u
        have e2 := h1 u
        rw [hu, mul_zero, add_zero] at e1 e2
        rw [e1] at e2
        obtain rfl := mul_right_cancel₀ hPu e2
        refine ⟨m, ⟨hm, ?_⟩, ?_⟩
        · rw [Present.point_eq, Present.point_eq, Present.hPoint_eq, h v]
          module
        · rw [OpensRoster, Present.point_eq, Present.hPoint_eq, h2 v]
          module
      · exact (not_copy_opening (j := j) (m := m') (m' := m) (z := p.C.h) fun v => by
          rw [← (h2 v).2.1, h v, (h2 v).1]).elim
    · right; left
      rcases h' with ⟨m', z, h1, h2⟩ | ⟨j', i, m', m'', e', hj', he', ho, hi, hs', h2⟩
      · exact (not_copy_opening (j := j) (m := m) (m' := m') (z := z) fun v => by
          rw [← (h v).2.1, h1 v, (h v).1]).elim
      · have hjj : j = j' := by
          classical
          have e := fun v => (h v).1.symm.trans (h2 v).1
          have := e fun u => if u = .rho j then 1 else 0
          by_contra hne
          simp [Ne.symm hne] at this
        subst hjj
        obtain rfl : m = m' := Option.some.inj (hj.symm.trans hj')
        obtain rfl : e = e' := Option.some.inj (he.symm.trans he')
        refine ⟨j, i, m, m'', e, hj, he, ho, hi, ?_, hs, ?_, hs'⟩
        · obtain ⟨h1, h2, h3⟩ := h v
          simp only [Pres.points, List.headD_cons, shown, Present.point_eq, h1, h2, h3, Present.hPoint_eq,
            Prod.mk.injEq, true_and]
          constructor <;> module
        · simp only [Pres.points, entry, Present.point_eq, (h2 v).2.2, Present.hPoint_eq]
          module

/-! ## Simulated proofs -/

/-- The proofs that a simulator makes, which does not know the secrets. -/
noncomputable def simulated : Provers G where
  issuance p _ := Spec.IssuanceRevealed.simulated [.init "AEONFLUX ISSUANCE"] p
  credential p _ := Spec.ValidCredential.simulated [.init "AEONFLUX SHOW"] p
  roster p _ := Spec.CommittedValuesEqual.simulated [.init "SIGNAL GROUP MEMBERSHIP"] p

/-- Probabilities stay between 0 and 1. -/
structure Fair (pr : Provers G) : Prop where
  issuance : ∀ p s l f, Sim.Unit01 f → 0 ≤ pr.issuance p s l f ∧ pr.issuance p s l f ≤ 1
  credential : ∀ p s l f, Sim.Unit01 f → 0 ≤ pr.credential p s l f ∧ pr.credential p s l f ≤ 1
  roster : ∀ p s l f, Sim.Unit01 f → 0 ≤ pr.roster p s l f ∧ pr.roster p s l f ≤ 1

theorem fair_honest (O : Oracle) : Fair (honest (G := G) O) :=
  ⟨fun _ _ _ _ h => IssuanceRevealed.honest01 _ _ _ _ _ h,
    fun _ _ _ _ h => ValidCredential.honest01 _ _ _ _ _ h,
    fun _ _ _ _ h => CommittedValuesEqual.honest01 _ _ _ _ _ h⟩

theorem fair_simulated : Fair (simulated (G := G)) :=
  ⟨fun _ _ _ _ h => IssuanceRevealed.simulated01 _ _ _ h,
    fun _ _ _ _ h => ValidCredential.simulated01 _ _ _ h,
    fun _ _ _ _ h => CommittedValuesEqual.simulated01 _ _ _ h⟩

theorem wins01 (O : Oracle) {pr : Provers G} (h : Fair pr) (v : Hidden N) (A : Attacker N) :
    ∀ S l, 0 ≤ A.wins O pr v S l ∧ A.wins O pr v S l ≤ 1 := by
  have z : (0 : ℚ) ≤ 0 ∧ (0 : ℚ) ≤ 1 := ⟨le_rfl, zero_le_one⟩
  have o : (0 : ℚ) ≤ 1 ∧ (1 : ℚ) ≤ 1 := ⟨zero_le_one, le_rfl⟩
  induction A with
  | issue m next ih =>
    intro S l
    rw [Attacker.wins]
    split
    · exact h.issuance _ _ _ _ fun l π => ih _ _ _
    · exact z
  | enrol m next ih =>
    intro S l
    rw [Attacker.wins]
    split
    · exact ih _ _
    · exact z
  | watch i next ih =>
    intro S l
    rw [Attacker.wins]
    split
    · exact z
    · split
      · exact h.credential _ _ _ _ fun l π => h.roster _ _ _ _ fun l' π' => ih _ _ _ _
      · exact z
  | test L yes no ih ih' =>
    intro S l
    rw [Attacker.wins]
    split
    · exact ih _ _
    · exact ih' _ _
  | toss next ih => exact fun S l => Sim.mean01 fun c => ih _ _ _
  | hash q next ih => exact fun S l => Sim.mean01 fun c => ih _ _ _
  | present p next ih => exact fun S l => Sim.mean01 fun c => ih _ _ _
  | member p next ih => exact fun S l => Sim.mean01 fun c => ih _ _ _
  | outputShow p =>
    intro S l
    rw [Attacker.wins]
    refine Sim.mean01 fun a => ?_
    dsimp only
    split
    · exact o
    · exact z
  | outputMember p =>
    intro S l
    rw [Attacker.wins]
    refine Sim.mean01 fun a => Sim.mean01 fun a' => ?_
    dsimp only
    split
    · exact o
    · exact z

/-- Proofs that look alike, for true statements. -/
structure Near (pr pr' : Provers G) : Prop where
  issuance : ∀ p s, Spec.IssuanceRevealed p s → p.B ≠ 0 → ∀ l f g ε, Sim.Unit01 f →
    (∀ l' π, l'.length = l.length + 1 → |f l' π - g l' π| ≤ ε) →
    |pr.issuance p s l f - pr'.issuance p s l g| ≤ ε + l.length / ell
  credential : ∀ p s, Spec.ValidCredential p s → p.A ≠ 0 → ∀ l f g ε, Sim.Unit01 f →
    (∀ l' π, l'.length = l.length + 1 → |f l' π - g l' π| ≤ ε) →
    |pr.credential p s l f - pr'.credential p s l g| ≤ ε + l.length / ell
  roster : ∀ p s, Spec.CommittedValuesEqual p s → p.A ≠ 0 → ∀ l f g ε, Sim.Unit01 f →
    (∀ l' π, l'.length = l.length + 1 → |f l' π - g l' π| ≤ ε) →
    |pr.roster p s l f - pr'.roster p s l g| ≤ ε + l.length / ell

theorem near_simulated (O : Oracle) : Near (honest (G := G) O) simulated :=
  ⟨fun _ _ hs hB l f g ε hf h => IssuanceRevealed.zk_close O _ hs (.inr (.inl hB)) l f g ε hf h,
    fun _ _ hs hA l f g ε hf h => ValidCredential.zk_close O _ hs (.inr (.inl hA)) l f g ε hf h,
    fun _ _ hs hA l f g ε hf h => CommittedValuesEqual.zk_close O _ hs (.inr (.inl hA)) l f g ε hf h⟩

/-- The adversary does not see a difference between proofs that look alike. -/
theorem wins_close (O : Oracle) {pr pr' : Provers G} (hp : Fair pr) (hpr : Near pr pr') {v : Hidden N}
    (hv : v .eta ≠ 0) (A : Attacker N) : ∀ n, A.Within n → ∀ S l,
    |A.wins O pr v S l - A.wins O pr' v S l| ≤ n * (2 * l.length + 2 * n) / ell := by
  have hell := ell_pos
  have hA : (hPoint v : G) ≠ 0 := fun h => hv (smul_base_eq_zero.1 h)
  have hB : (basepoint G : G) ≠ 0 := fun h => one_ne_zero (smul_base_eq_zero.1 (by rw [h, smul_zero]))
  have z : ∀ (n : ℕ) (l : Spec.HashLog), |(0 : ℚ) - 0| ≤ n * (2 * l.length + 2 * n) / ell := by
    intro n l
    rw [sub_zero, abs_zero]
    positivity
  have mono : ∀ (k a b l : ℕ), b ≤ 2 * l + 1 → a ≤ 2 →
      ((k * (2 * (l + a : ℕ) + 2 * k) / ell + b / ell : ℚ)) ≤
        ((k + 1 : ℕ) : ℚ) * (2 * l + 2 * (k + 1 : ℕ)) / ell := by
    intro k a b l hb ha
    rw [← add_div, div_le_div_iff_of_pos_right hell]
    have : k * (2 * (l + a) + 2 * k) + b ≤ (k + 1) * (2 * l + 2 * (k + 1)) := by nlinarith
    exact_mod_cast this
  have mono0 : ∀ (k a : ℕ) (l l' : Spec.HashLog), l'.length = l.length + a →
      a ≤ 2 → ((k * (2 * l'.length + 2 * k) / ell : ℚ)) ≤
        ((k + 1 : ℕ) : ℚ) * (2 * l.length + 2 * (k + 1 : ℕ)) / ell := by
    intro k a l l' h ha
    have := mono k a 0 l.length (by omega) ha
    rw [h]
    simpa using this
  induction A with
  | issue m next ih =>
    rintro _ ⟨k, rfl, hk⟩ S l
    rw [Attacker.wins, Attacker.wins]
    split
    · refine (hpr.issuance _ _ ?_ hB l _ _
        (k * (2 * (l.length + 1 : ℕ) + 2 * k) / ell)
        (fun l' π => wins01 O hp v _ _ _) fun l' π hl => ?_).trans ?_
      · refine ⟨?_, ?_, ?_⟩ <;> simp only [Scalar.val_ofF, Scalar.val_mul]
        module
      · have := ih π k (hk π) ⟨{ S.view with issued := S.view.issued ++ [m] }, S.sent⟩ l'
        rwa [hl] at this
      · exact mono k 1 l.length l.length (by omega) (by omega)
    · exact z _ _
  | enrol m next ih =>
    rintro _ ⟨k, rfl, hk⟩ S l
    rw [Attacker.wins, Attacker.wins]
    split
    · exact (ih k hk _ _).trans (mono0 k 0 l l rfl (by omega))
    · exact z _ _
  | watch i next ih =>
    rintro _ ⟨k, rfl, hk⟩ S l
    rw [Attacker.wins, Attacker.wins]
    split
    · exact z _ _
    · rename_i m _
      split
      · rename_i hN
        refine (hpr.credential _ _ ?_ hA l _ _
          (k * (2 * (l.length + 2 : ℕ) + 2 * k) / ell + (l.length + 1 : ℕ) / ell)
          (fun l' π => hp.roster _ _ _ _ fun l' π => wins01 O hp v _ _ _)
          fun l' π hl => ?_).trans ?_
        · constructor <;> simp only [Scalar.val_ofF, Scalar.val_neg]
          module
        · refine (hpr.roster _ _ ?_ hA l' _ _
            (k * (2 * (l.length + 2 : ℕ) + 2 * k) / ell)
            (fun l' π => wins01 O hp v _ _ _) fun l'' π' hl' => ?_).trans (by rw [hl])
          · constructor <;> simp only [Scalar.val_ofF, entry]
          · have := ih π π' k (hk π π')
              ⟨{ S.view with watched := S.view.watched ++ [m] }, S.sent ++ [⟨i, π, π'⟩]⟩ l''
            rwa [hl', hl] at this
        · refine le_trans (le_of_eq ?_) (mono k 2 (2 * l.length + 1) l.length le_rfl le_rfl)
          push_cast
          ring
      · exact z _ _
  | test L yes no ih ih' =>
    rintro _ ⟨k, rfl, hy, hn⟩ S l
    rw [Attacker.wins, Attacker.wins]
    split
    · exact (ih k hy _ _).trans (mono0 k 0 l l rfl (by omega))
    · exact (ih' k hn _ _).trans (mono0 k 0 l l rfl (by omega))
  | toss next ih =>
    rintro _ ⟨k, rfl, hk⟩ S l
    exact Sim.abs_sub_mean_le fun c => (ih c k (hk c) _ _).trans (mono0 k 0 l l rfl (by omega))
  | hash q next ih =>
    rintro _ ⟨k, rfl, hk⟩ S l
    exact Sim.abs_sub_mean_le fun a => (ih _ k (hk _) _ _).trans
      (mono0 k 1 l _ (by simp [Spec.HashLog.asked]) (by omega))
  | present p next ih =>
    rintro _ ⟨k, rfl, hk⟩ S l
    exact Sim.abs_sub_mean_le fun a => (ih _ k (hk _) _ _).trans
      (mono0 k 1 l _ (by simp [Spec.HashLog.asked]) (by omega))
  | member p next ih =>
    rintro _ ⟨k, rfl, hk⟩ S l
    exact Sim.abs_sub_mean_le fun a => (ih _ k (hk _) _ _).trans
      (mono0 k 1 l _ (by simp [Spec.HashLog.asked]) (by omega))
  | outputShow p =>
    intro n _ S l
    rw [Attacker.wins, Attacker.wins, sub_self, abs_zero]
    positivity
  | outputMember p =>
    intro n _ S l
    rw [Attacker.wins, Attacker.wins, sub_self, abs_zero]
    positivity

/-! ## The bound with simulated proofs -/

theorem sim_issuance (p : IssuanceRevealed.Publics G) (s : IssuanceRevealed.Secrets) (l : Spec.HashLog)
    (k : Spec.HashLog → IssuanceRevealed.Proof → ℚ) : simulated.issuance p s l k =
      Spec.mean fun a : Spec.Answer => Spec.mean fun y : F × F × F × F =>
        k (l ++ [(IssuanceRevealed.verifyTranscript [.init "AEONFLUX ISSUANCE"] p (IssuanceRevealed.recommit p
          ⟨Scalar.fromWide a.1, IssuanceRevealed.respOf y⟩), a)])
          ⟨Scalar.fromWide a.1, IssuanceRevealed.respOf y⟩ := rfl

theorem sim_credential (p : ValidCredential.Publics G) (s : ValidCredential.Secrets) (l : Spec.HashLog)
    (k : Spec.HashLog → ValidCredential.Proof → ℚ) : simulated.credential p s l k =
      Spec.mean fun a : Spec.Answer => Spec.mean fun y : F × F × F =>
        k (l ++ [(ValidCredential.verifyTranscript [.init "AEONFLUX SHOW"] p (ValidCredential.recommit p
          ⟨Scalar.fromWide a.1, ValidCredential.respOf y⟩), a)])
          ⟨Scalar.fromWide a.1, ValidCredential.respOf y⟩ := rfl

theorem sim_roster (p : CommittedValuesEqual.Publics G) (s : CommittedValuesEqual.Secrets) (l : Spec.HashLog)
    (k : Spec.HashLog → CommittedValuesEqual.Proof → ℚ) : simulated.roster p s l k =
      Spec.mean fun a : Spec.Answer => Spec.mean fun y : F × F × F =>
        k (l ++ [(CommittedValuesEqual.verifyTranscript [.init "SIGNAL GROUP MEMBERSHIP"] p
          (CommittedValuesEqual.recommit p ⟨Scalar.fromWide a.1, CommittedValuesEqual.respOf y⟩), a)])
          ⟨Scalar.fromWide a.1, CommittedValuesEqual.respOf y⟩ := rfl

attribute [local irreducible] Spec.mean Attacker.wins simulated

theorem swap_le {α β : Type} [Fintype α] [Fintype β] [Nonempty α] [Nonempty β]
    {f : Hidden N → α → β → ℚ} {B : ℚ} (h : ∀ a z, (Spec.mean fun v => f v a z) ≤ B) :
    (Spec.mean fun v => Spec.mean fun a => Spec.mean fun z => f v a z) ≤ B := by
  rw [Sim.mean_comm fun v a => Spec.mean fun z => f v a z]
  refine (Sim.mean_mono fun a => ?_).trans (Sim.mean_const (α := α) B).le
  rw [Sim.mean_comm fun v z => f v a z]
  exact (Sim.mean_mono fun z => h a z).trans (Sim.mean_const (α := β) B).le

/-- Every query so far is sound. -/
def Inv (G : Type) [AddCommGroup G] [Module F G] [Ristretto G] (S : Scene) (σ : SymLog N) : Prop :=
  S.sent.length = S.view.watched.length ∧ ∀ e ∈ σ, Tame G e.1 ∧ SoundBoth G S e.1 e.2

theorem Inv.later {S S' : Scene} {σ : SymLog N} (h : Inv G S σ) (hS : Later S S')
    (ho : S'.sent.length = S'.view.watched.length) : Inv G S' σ :=
  ⟨ho, fun e he => ⟨(h.2 e he).1, (h.2 e he).2.later hS⟩⟩

theorem Inv.append {S : Scene} {σ : SymLog N} {T : Hidden N → Transcript} {a : Spec.Answer}
    (h : Inv G S σ) (hT : Tame G T) (ha : SoundBoth G S T a) : Inv G S (σ ++ [(T, a)]) := by
  refine ⟨h.1, fun e he => ?_⟩
  rcases List.mem_append.1 he with he | he
  · exact h.2 e he
  · obtain rfl := List.mem_singleton.1 he
    exact ⟨hT, ha⟩

/-- Asking the hash keeps the queries sound. -/
theorem ask_inv {S : Scene} {σ : SymLog N} {T : Hidden N → Transcript} (h : Inv G S σ) (hT : Tame G T)
    (k : Spec.Answer → Spec.HashLog → Hidden N → ℚ) (hk : ∀ a l v, 0 ≤ k a l v ∧ k a l v ≤ 1) (B : ℚ)
    (hB : 0 ≤ B) (hgood : ∀ a, SoundBoth G S T a → Inv G S (σ ++ [(T, a)]) →
      (Spec.mean fun v => k a (SymLog.at (σ ++ [(T, a)]) v) v) ≤ B) :
    (Spec.mean fun v => Spec.mean fun a =>
      k (((SymLog.at σ v).lookup (T v)).getD a) ((SymLog.at σ v).asked (T v) a) v) ≤
      B + (3 * σ.length + 4) / ell :=
  ask_bound (fun e he => (h.2 e he).1) hT (SoundBoth G S T) (fun _ ha => (h.2 _ ha).2)
    (fresh_sound S T) k hk B hB fun a ha => hgood a ha (h.append hT ha)

theorem sim_bound (O : Oracle) (A : Attacker N) : ∀ n, A.Within n → ∀ (S : Scene) (σ : SymLog N),
    Inv G S σ → (Spec.mean fun v => A.wins O (simulated (G := G)) v S (SymLog.at σ v)) ≤
      n * (6 * σ.length + 6 * n + 5) / ell := by
  classical
  have hell := ell_pos
  have z : ∀ n l : ℕ, (Spec.mean fun _ : Hidden N => (0 : ℚ)) ≤ n * (6 * l + 6 * n + 5) / ell := by
    intro n l
    rw [Sim.mean_const]
    positivity
  have mono : ∀ (k a b l : ℕ), b ≤ 3 * l + 4 → a ≤ 2 →
      ((k * (6 * (l + a : ℕ) + 6 * k + 5) / ell + b / ell : ℚ)) ≤
        ((k + 1 : ℕ) : ℚ) * (6 * l + 6 * (k + 1 : ℕ) + 5) / ell := by
    intro k a b l hb ha
    rw [← add_div, div_le_div_iff_of_pos_right hell]
    have : k * (6 * (l + a) + 6 * k + 5) + b ≤ (k + 1) * (6 * l + 6 * (k + 1) + 5) := by nlinarith
    exact_mod_cast this
  have mono0 : ∀ (k a l : ℕ), a ≤ 2 → ((k * (6 * (l + a : ℕ) + 6 * k + 5) / ell : ℚ)) ≤
        ((k + 1 : ℕ) : ℚ) * (6 * l + 6 * (k + 1 : ℕ) + 5) / ell := by
    intro k a l ha
    have := mono k a 0 l (by omega) ha
    simpa using this
  have pos : ∀ k l : ℕ, (0 : ℚ) ≤ k * (6 * l + 6 * k + 5) / ell := fun k l => by positivity
  have len : ∀ (σ : SymLog N) T a, (σ ++ [(T, a)]).length = σ.length + 1 := fun σ T a => by simp
  induction A with
  | issue m next ih =>
    rintro _ ⟨k, rfl, hk⟩ S σ hI
    by_cases hN : S.view.issued.length < N
    · simp only [Attacker.wins, dif_pos hN, sim_issuance]
      let S' : Scene := ⟨{ S.view with issued := S.view.issued ++ [m] }, S.sent⟩
      have hS : Later S S' := ⟨le_issue _ _, List.prefix_rfl⟩
      refine swap_le fun a y => ?_
      have := ih ⟨Scalar.fromWide a.1, IssuanceRevealed.respOf y⟩ k (hk _) S'
        (σ ++ [(Sym G (issueQ ⟨_, hN⟩ m ⟨Scalar.fromWide a.1, IssuanceRevealed.respOf y⟩), a)])
        ((hI.later hS hI.1).append (tame_issue _ _ _) (sound_issue _ _ _ _ _))
      refine (le_of_eq (Sim.mean_congr fun v => ?_)).trans (this.trans ?_)
      · rw [at_append, ← issueQ_eq]
      · rw [len]
        exact mono0 k 1 _ (by omega)
    · simp only [Attacker.wins, dif_neg hN]
      exact z _ _
  | enrol m next ih =>
    rintro _ ⟨k, rfl, hk⟩ S σ hI
    by_cases hN : S.view.enrolled.length < N
    · simp only [Attacker.wins, if_pos hN]
      let S' : Scene := ⟨{ S.view with enrolled := S.view.enrolled ++ [m] }, S.sent⟩
      have hS : Later S S' := ⟨le_enrol _ _, List.prefix_rfl⟩
      exact (ih k hk S' σ (hI.later hS hI.1)).trans (mono0 k 0 _ (by omega))
    · simp only [Attacker.wins, if_neg hN]
      exact z _ _
  | watch i next ih =>
    rintro _ ⟨k, rfl, hk⟩ S σ hI
    cases hm : S.view.enrolled[i]? with
    | none =>
      simp only [Attacker.wins, hm]
      exact z _ _
    | some m =>
      by_cases hN : S.view.watched.length < N ∧ i < N
      · simp only [Attacker.wins, hm, dif_pos hN, sim_credential]
        refine swap_le fun a y => ?_
        simp only [sim_roster]
        refine swap_le fun a' y' => ?_
        let e : Sent := ⟨i, ⟨Scalar.fromWide a.1, ValidCredential.respOf y⟩,
          ⟨Scalar.fromWide a'.1, CommittedValuesEqual.respOf y'⟩⟩
        let S' : Scene := ⟨{ S.view with watched := S.view.watched ++ [m] }, S.sent ++ [e]⟩
        have hS : Later S S' := ⟨le_watch _ _, List.prefix_append _ _⟩
        have hI' : Inv G S' σ := hI.later hS (by simp [S', hI.1])
        have hw : S'.view.watched[S.view.watched.length]? = some m := by simp [S']
        have he : S'.sent[S.view.watched.length]? = some e := by simp [S', ← hI.1]
        have := ih ⟨Scalar.fromWide a.1, ValidCredential.respOf y⟩
          ⟨Scalar.fromWide a'.1, CommittedValuesEqual.respOf y'⟩ k (hk _ _) S'
          (σ ++ [(Sym G (credQ ⟨_, hN.1⟩ m ⟨Scalar.fromWide a.1, ValidCredential.respOf y⟩), a)] ++
            [(Sym G (rosterQ ⟨_, hN.1⟩ ⟨i, hN.2⟩ m
              ⟨Scalar.fromWide a'.1, CommittedValuesEqual.respOf y'⟩), a')])
          ((hI'.append (tame_cred _ _ _) (sound_cred (j := ⟨_, hN.1⟩) (e := e) hw he rfl)).append (tame_roster _ _ _ _)
            (sound_roster (j := ⟨_, hN.1⟩) (i := ⟨i, hN.2⟩) (e := e) hw he rfl hm rfl))
        refine (le_of_eq (Sim.mean_congr fun v => ?_)).trans (this.trans ?_)
        · rw [at_append, at_append, ← credQ_eq, ← rosterQ_eq]
        · rw [len, len]
          exact mono0 k 2 _ le_rfl
      · simp only [Attacker.wins, hm, dif_neg hN]
        exact z _ _
  | test L yes no ih ih' =>
    rintro _ ⟨k, rfl, hy, hn⟩ S σ hI
    simp only [Attacker.wins]
    rcases dich_test (G := G) L S.view with h | h
    · refine (le_of_eq (Sim.mean_congr fun v => if_pos (h v))).trans
        ((ih k hy S σ hI).trans (mono0 k 0 _ (by omega)))
    · refine (mean_rare h (fun v => ?_) (fun v => (wins01 O fair_simulated v no S (SymLog.at σ v)).1)
        fun v hv => (le_of_eq (if_neg hv))).trans
        ((add_le_add (ih' k hn S σ hI) le_rfl).trans (mono k 0 2 _ (by omega) (by omega)))
      split
      · exact (wins01 O fair_simulated v _ _ _).2
      · exact (wins01 O fair_simulated v _ _ _).2
  | toss next ih =>
    rintro _ ⟨k, rfl, hk⟩ S σ hI
    simp only [Attacker.wins]
    rw [Sim.mean_comm fun v c => (next c).wins O (simulated (G := G)) v S (SymLog.at σ v)]
    exact ((Sim.mean_mono fun c => (ih c k (hk c) S σ hI).trans (mono0 k 0 _ (by omega)))).trans
      (Sim.mean_const (α := F) _).le
  | hash q next ih =>
    rintro _ ⟨k, rfl, hk⟩ S σ hI
    simp only [Attacker.wins]
    refine (ask_inv hI (tame_ask q S.view) (fun a l v => (next a).wins O (simulated (G := G)) v S l)
      (fun a l v => wins01 O fair_simulated v _ _ _) _ (pos k (σ.length + 1)) fun a _ hI' => ?_).trans ?_
    · have := ih a k (hk a) S _ hI'
      rwa [len] at this
    · have := mono k 1 (3 * σ.length + 4) σ.length le_rfl (by omega)
      refine le_trans (le_of_eq ?_) this
      push_cast
      ring
  | present p next ih =>
    rintro _ ⟨k, rfl, hk⟩ S σ hI
    simp only [Attacker.wins]
    refine le_trans (le_of_eq (Sim.mean_congr fun v => Sim.mean_congr fun a => ?_))
      ((ask_inv hI (tame_show p S.view)
      (fun a l v => (next (decide (Scalar.fromWide a.1 = p.proof.challenge))).wins O
        (simulated (G := G)) v S l)
      (fun a l v => wins01 O fair_simulated v _ _ _) _ (pos k (σ.length + 1)) fun a _ hI' => ?_).trans ?_)
    · rw [showTranscript_eq, decide_eq_decide.2 (shows_iff (G := G) O (s := S.view) (p := p)
        (b := ((SymLog.at σ v).lookup (Sym G (showQ p S.view) v)).getD a) ?_)]
      rw [showTranscript_eq, Sim.lookup_asked]
    · have := ih (decide (Scalar.fromWide a.1 = p.proof.challenge)) k (hk _) S _ hI'
      rwa [len] at this
    · have := mono k 1 (3 * σ.length + 4) σ.length le_rfl (by omega)
      refine le_trans (le_of_eq ?_) this
      push_cast
      ring
  | member p next ih =>
    rintro _ ⟨k, rfl, hk⟩ S σ hI
    simp only [Attacker.wins]
    refine le_trans (le_of_eq (Sim.mean_congr fun v => Sim.mean_congr fun a => ?_))
      ((ask_inv hI (tame_member p S.view)
      (fun a l v => (next (decide (Scalar.fromWide a.1 = p.roster.challenge))).wins O
        (simulated (G := G)) v S l)
      (fun a l v => wins01 O fair_simulated v _ _ _) _ (pos k (σ.length + 1)) fun a _ hI' => ?_).trans ?_)
    · rw [memberTranscript_eq, decide_eq_decide.2 (belongs_iff (G := G) O (s := S.view) (p := p)
        (b := ((SymLog.at σ v).lookup (Sym G (memberQ p S.view) v)).getD a) ?_)]
      rw [memberTranscript_eq, Sim.lookup_asked]
    · have := ih (decide (Scalar.fromWide a.1 = p.roster.challenge)) k (hk _) S _ hI'
      rwa [len] at this
    · have := mono k 1 (3 * σ.length + 4) σ.length le_rfl (by omega)
      refine le_trans (le_of_eq ?_) this
      push_cast
      ring
  | outputShow p =>
    rintro _ ⟨k, rfl⟩ S σ hI
    simp only [Attacker.wins]
    refine le_trans (le_of_eq (Sim.mean_congr fun v => Sim.mean_congr fun a => ?_))
      ((ask_inv hI (tame_show p S.view)
      (fun a _ v => if Scalar.fromWide a.1 = p.proof.challenge ∧ (p.P.point v S.view : G) ≠ 0 ∧
        ¬ Copies v S (p.points G v S.view) ∧ ∀ m, ¬ Opens G v S.view p m then 1 else 0)
      (fun a l v => ?_) 0 le_rfl fun a ha _ => ?_).trans ?_)
    · rw [showTranscript_eq]
      have := shows_iff (G := G) O (v := v) (s := S.view) (p := p)
        (l := (SymLog.at σ v).asked (Sym G (showQ p S.view) v) a)
        (b := ((SymLog.at σ v).lookup (Sym G (showQ p S.view) v)).getD a)
        (by rw [showTranscript_eq, Sim.lookup_asked])
      simp only [this]
    · split <;> norm_num
    · refine le_of_eq ((Sim.mean_congr fun v => ?_).trans (Sim.mean_const 0))
      rw [if_neg]
      rintro ⟨h1, h2, h3, h4⟩
      rcases fine_show (G := G) (ha.1 S p (Later.refl S) (fun v => rfl) h1) v with h | h | ⟨m, h⟩
      · exact h2 h
      · exact h3 h
      · exact h4 m h
    · have := mono k 1 (3 * σ.length + 4) σ.length le_rfl (by omega)
      refine le_trans ?_ this
      have h0 := pos k (σ.length + 1)
      push_cast at h0 ⊢
      linarith
  | outputMember p =>
    rintro _ ⟨k, rfl⟩ S σ hI
    simp only [Attacker.wins]
    refine le_trans (le_of_eq (Sim.mean_congr fun v => Sim.mean_congr fun a => Sim.mean_congr fun a' => ?_))
      ((ask_inv hI (tame_show p S.view) (fun a l v => Spec.mean fun a' =>
        if Scalar.fromWide a.1 = p.proof.challenge ∧
          Scalar.fromWide ((l.lookup (Sym G (memberQ p S.view) v)).getD a').1 = p.roster.challenge ∧
          (p.P.point v S.view : G) ≠ 0 ∧ ¬ CopiesAll v S (p.points G v S.view) ∧
          ∀ m, ¬ (Opens G v S.view p m ∧ OpensRoster G v S.view p m) then 1 else 0)
      (fun a l v => Sim.mean01 fun a' => ?_) ((3 * (σ.length + 1 : ℕ) + 4) / ell) (by positivity)
      fun a ha hI' => ?_).trans ?_)
    · rw [showTranscript_eq, memberTranscript_eq]
      have h1 := shows_iff (G := G) O (v := v) (s := S.view) (p := p)
        (l := ((SymLog.at σ v).asked (Sym G (showQ p S.view) v) a).asked (Sym G (memberQ p S.view) v) a')
        (b := ((SymLog.at σ v).lookup (Sym G (showQ p S.view) v)).getD a)
        (by rw [showTranscript_eq]; exact Sim.lookup_asked_of_some (Sim.lookup_asked _ _ _) _ _)
      have h2 := belongs_iff (G := G) O (v := v) (s := S.view) (p := p)
        (l := ((SymLog.at σ v).asked (Sym G (showQ p S.view) v) a).asked (Sym G (memberQ p S.view) v) a')
        (b := (((SymLog.at σ v).asked (Sym G (showQ p S.view) v) a).lookup
          (Sym G (memberQ p S.view) v)).getD a')
        (by rw [memberTranscript_eq, Sim.lookup_asked])
      simp only [h1, h2]
    · split <;> norm_num
    · refine (ask_inv hI' (tame_member p S.view) (fun a' _ v =>
        if Scalar.fromWide a.1 = p.proof.challenge ∧ Scalar.fromWide a'.1 = p.roster.challenge ∧
          (p.P.point v S.view : G) ≠ 0 ∧ ¬ CopiesAll v S (p.points G v S.view) ∧
          ∀ m, ¬ (Opens G v S.view p m ∧ OpensRoster G v S.view p m) then 1 else 0)
        (fun a l v => ?_) 0 le_rfl fun a' ha' _ => ?_).trans ?_
      · split <;> norm_num
      · refine le_of_eq ((Sim.mean_congr fun v => ?_).trans (Sim.mean_const 0))
        rw [if_neg]
        rintro ⟨h1, h2, h3, h4, h5⟩
        rcases fine_member (G := G) (ha.1 S p (Later.refl S) (fun v => rfl) h1)
          (ha'.2 S p (Later.refl S) (fun v => rfl) h2) v with h | h | ⟨m, h⟩
        · exact h3 h
        · exact h4 h
        · exact h5 m h
      · rw [len, zero_add]
    · rw [← add_div, div_le_div_iff_of_pos_right hell]
      have : 3 * (σ.length + 1) + 4 + (3 * σ.length + 4) ≤
          (k + 1) * (6 * σ.length + 6 * (k + 1) + 5) := by nlinarith
      exact_mod_cast this

/-! ## C84 -/

/-- C84: an adversary that gets issuances with their proofs, sees presentations of other users with both
proofs, and may have presentations verified, wins with probability at most `(8n² + 5n + 1)/ℓ` in `n`
steps, if the hash is a random function and the elements it sends are combinations of those it has. -/
theorem C84_unforgeable (O : Oracle) (A : Attacker N) {n : ℕ} (h : A.Within n) :
    A.probability G O ≤ (8 * n ^ 2 + 5 * n + 1) / ell := by
  have h1 := sim_bound (G := G) O A n h ⟨⟨[], [], []⟩, []⟩ [] ⟨rfl, fun e he => by cases he⟩
  have h2 := mean_rare (N := N) (p := fun v => v .eta = 0) (k := 1)
    (f := fun v => A.wins O (honest (G := G) O) v ⟨⟨[], [], []⟩, []⟩ [])
    (g := fun v => A.wins O (simulated (G := G)) v ⟨⟨[], [], []⟩, []⟩ [] + 2 * n ^ 2 / ell)
    (ncard_zero (poly_var .eta) (v := fun _ => 1) one_ne_zero)
    (fun v => (wins01 O (fair_honest O) v A _ _).2)
    (fun v => add_nonneg (wins01 O fair_simulated v A _ _).1 (by positivity)) fun v hv => by
      have := (abs_le.1 (wins_close O (fair_honest (G := G) O) (near_simulated O) hv A n h
        ⟨⟨[], [], []⟩, []⟩ [])).2
      have he : (n * (2 * ((([] : Spec.HashLog).length : ℕ) : ℚ) + 2 * n) / ell : ℚ) = 2 * n ^ 2 / ell := by
        simp only [List.length_nil]
        push_cast
        ring
      rw [he] at this
      linarith
  rw [Sim.mean_add, Sim.mean_const] at h2
  refine h2.trans ((add_le_add (add_le_add h1 le_rfl) le_rfl).trans (le_of_eq ?_))
  simp only [List.length_nil]
  push_cast
  ring

/-! ## The game is about the code -/

attribute [local semireducible] Spec.mean Attacker.wins simulated

theorem point_issued {v : Hidden N} {s : View} {j : Fin N} {m : F} (h : s.issued[j.1]? = some m)
    (a b c : F) : ((⟨0, 0, 0, Pi.single j a, Pi.single j b, Pi.single j c, 0, 0, 0, 0⟩ : Lin N).point v s : G) =
      a • (v (.b j) • basepoint G) + b • ((v .x0 + v .x1 * m) • (v (.b j) • basepoint G)) +
        c • (v .x0 • basepoint G + v (.t j) • hPoint v) := by
  unfold Lin.point
  rw [Finset.sum_eq_single j, Finset.sum_eq_zero, Finset.sum_eq_zero, h]
  · simp
  · intro i _
    split <;> simp
  · intro i _
    split <;> simp
  · intro i _ hi
    split <;> simp [hi]
  · exact fun h => absurd (Finset.mem_univ j) h

theorem point_watched {v : Hidden N} {s : View} {j : Fin N} {m : F} (h : s.watched[j.1]? = some m)
    (a b c : F) : ((⟨0, 0, 0, 0, 0, 0, Pi.single j a, Pi.single j b, Pi.single j c, 0⟩ : Lin N).point v s : G) =
      a • (v (.rho j) • basepoint G) + b • (m • (v (.rho j) • basepoint G) + v (.zeta j) • hPoint v) +
        c • ((v .x0 + v .x1 * m) • (v (.rho j) • basepoint G) + v (.xi j) • hPoint v) := by
  unfold Lin.point
  rw [Finset.sum_eq_zero, Finset.sum_eq_single j, Finset.sum_eq_zero, h]
  · simp
  · intro i _
    split <;> simp
  · intro i _ hi
    split <;> simp [hi]
  · exact fun h => absurd (Finset.mem_univ j) h
  · intro i _
    split <;> simp

theorem point_enrolled {v : Hidden N} {s : View} {j : Fin N} {m : F} (h : s.enrolled[j.1]? = some m) (a : F) :
    ((⟨0, 0, 0, 0, 0, 0, 0, 0, 0, Pi.single j a⟩ : Lin N).point v s : G) =
      a • (m • hPoint v + v (.y j) • basepoint G) := by
  unfold Lin.point
  rw [Finset.sum_eq_zero, Finset.sum_eq_zero, Finset.sum_eq_single j, h]
  · simp
  · intro i _ hi
    split <;> simp [hi]
  · exact fun h => absurd (Finset.mem_univ j) h
  · intro i _
    split <;> simp
  · intro i _
    split <;> simp

/-- C84 (the game is about the code): the issuance in the game is that of `Issuer::issue`, see
`C83_issue_is_issued`, with the unknowns `b` and `t` as coins for the nonce and the key commitment. Its
elements are then among those that the adversary combines, and its proof is given to it. -/
theorem C84_issue_step (O : Oracle) (v : Hidden N) (m : F) (next : IssuanceRevealed.Proof → Attacker N)
    (S : Scene) (l : Spec.HashLog) (hN : S.view.issued.length < N) :
    (Attacker.issue m next).wins O (honest (G := G) O) v S l =
      (let S' : Scene := ⟨{ S.view with issued := S.view.issued ++ [m] }, S.sent⟩
      let sp := (issuer G v).systemParameters
      let P := v (.b ⟨_, hN⟩) • basepoint G
      let p : IssuanceRevealed.Publics G := ⟨P, (v .x0 + v .x1 * m) • P,
        v .x0 • sp.g + v (.t ⟨_, hN⟩) • sp.h, sp.g, sp.h, v .x1 • sp.h⟩
      Spec.mean fun ρ : F × F × F × F => Spec.mean fun a : Spec.Answer =>
        let l' := l.asked (IssuanceRevealed.commitCommitments
          (IssuanceRevealed.commitPublics [.init "AEONFLUX ISSUANCE"] p)
          (IssuanceRevealed.commitmentsOf p (IssuanceRevealed.randOf ρ))) a
        (next (Spec.issued (l'.oracle O) sp (.ofF (v .x0)) (.ofF (v .x1)) (.ofF m) (v (.b ⟨_, hN⟩))
          (v (.t ⟨_, hN⟩)) ρ).proof).wins O (honest (G := G) O) v S' l') ∧
    ∀ (O' : Oracle) (ρ : F × F × F × F) (s : View), s.issued = S.view.issued ++ [m] →
      let c := Spec.issued O' (issuer G v).systemParameters (.ofF (v .x0)) (.ofF (v .x1)) (.ofF m)
        (v (.b ⟨_, hN⟩)) (v (.t ⟨_, hN⟩)) ρ
      c.credential.mac.nonce = (⟨0, 0, 0, Pi.single ⟨_, hN⟩ 1, 0, 0, 0, 0, 0, 0⟩ : Lin N).point v s ∧
      c.credential.mac.mac = (⟨0, 0, 0, 0, Pi.single ⟨_, hN⟩ 1, 0, 0, 0, 0, 0⟩ : Lin N).point v s ∧
      c.secretKeyCommitment = (⟨0, 0, 0, 0, 0, Pi.single ⟨_, hN⟩ 1, 0, 0, 0, 0⟩ : Lin N).point v s := by
  constructor
  · rw [Attacker.wins, dif_pos hN]
    refine Sim.mean_congr fun ρ => Sim.mean_congr fun a => ?_
    simp only [Spec.issued, Scalar.val_ofF]
    rfl
  · intro O' ρ s hs
    have hj : s.issued[S.view.issued.length]? = some m := by simp [hs]
    have h1 := point_issued (G := G) (v := v) (j := ⟨_, hN⟩) hj 1 0 0
    have h2 := point_issued (G := G) (v := v) (j := ⟨_, hN⟩) hj 0 1 0
    have h3 := point_issued (G := G) (v := v) (j := ⟨_, hN⟩) hj 0 0 1
    simp only [Pi.single_zero, zero_smul, one_smul, zero_add, add_zero] at h1 h2 h3
    rw [h1, h2, h3]
    simp only [Spec.issued, issuer, Scalar.val_ofF, and_self]

/-- The first proof is the same with the hash answers known at the end. -/
theorem two_proofs (O : Oracle) (p : ValidCredential.Publics G) (s : ValidCredential.Secrets)
    (p' : CommittedValuesEqual.Publics G) (s' : CommittedValuesEqual.Secrets) (l : Spec.HashLog)
    (k : Spec.HashLog → ValidCredential.Proof → CommittedValuesEqual.Proof → ℚ) :
    ((honest O).credential p s l fun l' π => (honest O).roster p' s' l' fun l'' π' => k l'' π π') =
      Spec.mean fun ρ : F × F × F => Spec.mean fun a : Spec.Answer =>
      Spec.mean fun ρ' : F × F × F => Spec.mean fun a' : Spec.Answer =>
        let l₁ := l.asked (ValidCredential.commitCommitments
          (ValidCredential.commitPublics [.init "AEONFLUX SHOW"] p)
          (ValidCredential.commitmentsOf p (ValidCredential.randOf ρ))) a
        let l₂ := l₁.asked (CommittedValuesEqual.commitCommitments
          (CommittedValuesEqual.commitPublics [.init "SIGNAL GROUP MEMBERSHIP"] p')
          (CommittedValuesEqual.commitmentsOf p' (CommittedValuesEqual.randOf ρ'))) a'
        k l₂ (ValidCredential.createWith (l₂.oracle O) [.init "AEONFLUX SHOW"] p s
            (ValidCredential.randOf ρ))
          (CommittedValuesEqual.createWith (l₂.oracle O) [.init "SIGNAL GROUP MEMBERSHIP"] p' s'
            (CommittedValuesEqual.randOf ρ')) := by
  refine Sim.mean_congr fun ρ => Sim.mean_congr fun a => Sim.mean_congr fun ρ' => Sim.mean_congr fun a' => ?_
  have h1 := Sim.lookup_asked l (ValidCredential.commitCommitments
    (ValidCredential.commitPublics [.init "AEONFLUX SHOW"] p)
    (ValidCredential.commitmentsOf p (ValidCredential.randOf ρ))) a
  simp only [ValidCredential.createWith]
  rw [Sim.getChallenge_oracle (Sim.lookup_asked_of_some h1 _ _), Sim.getChallenge_oracle h1]

/-- C84 (the game is about the code): the presentation in the game is that of `SignalUser::show`, see
`C43_show_is_present`, for a user with any credential on the number whose nonce `β • g` is not the
identity, with the unknowns `ζ`, `ρ/β` and `ξ` as coins. Its elements are then among those that the
adversary combines, and its two proofs are given to it. -/
theorem C84_watch_step (O : Oracle) (v : Hidden N) (i : ℕ)
    (next : ValidCredential.Proof → CommittedValuesEqual.Proof → Attacker N) (S : Scene)
    (l : Spec.HashLog) {m : F} (hm : S.view.enrolled[i]? = some m)
    (hN : S.view.watched.length < N ∧ i < N) {β : F} (hβ : β ≠ 0) (as : List Scalar) :
    let j : Fin N := ⟨_, hN.1⟩
    let sp := (issuer G v).systemParameters
    let c : Credential G := ⟨⟨β • basepoint G, (v .x0 + v .x1 * m) • (β • basepoint G)⟩, as⟩
    let ros : RosterEntryCommitment G := ⟨m • sp.h + v (.y ⟨i, hN.2⟩) • sp.g, .ofF (v (.y ⟨i, hN.2⟩))⟩
    let d : F × F × F := (v (.zeta j), v (.rho j) / β, v (.xi j))
    (Attacker.watch i next).wins O (honest (G := G) O) v S l =
      (let X := v .x1 • sp.h
      let P := d.2.1 • c.mac.nonce
      let C := m • P + d.1 • sp.h
      let p : ValidCredential.Publics G := ⟨sp.g, sp.h, X, P, d.1 • X - d.2.2 • sp.h, C⟩
      let p' : CommittedValuesEqual.Publics G := ⟨sp.g, sp.h, P, C, ros.commitment⟩
      Spec.mean fun ρ : F × F × F => Spec.mean fun a : Spec.Answer =>
      Spec.mean fun ρ' : F × F × F => Spec.mean fun a' : Spec.Answer =>
        let l₁ := l.asked (ValidCredential.commitCommitments
          (ValidCredential.commitPublics [.init "AEONFLUX SHOW"] p)
          (ValidCredential.commitmentsOf p (ValidCredential.randOf ρ))) a
        let l₂ := l₁.asked (CommittedValuesEqual.commitCommitments
          (CommittedValuesEqual.commitPublics [.init "SIGNAL GROUP MEMBERSHIP"] p')
          (CommittedValuesEqual.commitmentsOf p' (CommittedValuesEqual.randOf ρ'))) a'
        let π := Spec.present (l₂.oracle O) sp X c (.ofF m) ros d ρ ρ'
        let S' : Scene := ⟨{ S.view with watched := S.view.watched ++ [m] },
          S.sent ++ [⟨i, π.presentation.proof, π.rosterMembershipProof⟩]⟩
        (next π.presentation.proof π.rosterMembershipProof).wins O (honest (G := G) O) v S' l₂) ∧
    ∀ (O' : Oracle) (ρ ρ' : F × F × F) (s : View), s.watched = S.view.watched ++ [m] →
      s.enrolled[i]? = some m →
      let π := Spec.present O' sp (v .x1 • sp.h) c (.ofF m) ros d ρ ρ'
      π.presentation.rerandomizedNonce =
        (⟨0, 0, 0, 0, 0, 0, Pi.single j 1, 0, 0, 0⟩ : Lin N).point v s ∧
      π.presentation.attributesBlinded =
        [(⟨0, 0, 0, 0, 0, 0, 0, Pi.single j 1, 0, 0⟩ : Lin N).point v s] ∧
      π.presentation.rerandomizedMacCommitment =
        (⟨0, 0, 0, 0, 0, 0, 0, 0, Pi.single j 1, 0⟩ : Lin N).point v s ∧
      π.rosterEntryCommitment =
        (⟨0, 0, 0, 0, 0, 0, 0, 0, 0, Pi.single ⟨i, hN.2⟩ 1⟩ : Lin N).point v s := by
  intro j sp c ros d
  have hP : d.2.1 • c.mac.nonce = v (.rho j) • basepoint G := by
    simp only [d, c, smul_smul, div_mul_cancel₀ _ hβ]
  have hQ : d.2.1 • c.mac.mac = (v .x0 + v .x1 * m) • (v (.rho j) • basepoint G) := by
    rw [← hP]
    simp only [c]
    module
  constructor
  · rw [Attacker.wins, hm]
    dsimp only
    rw [dif_pos hN, hP]
    refine (two_proofs O _ _ _ _ _ _).trans ?_
    refine Sim.mean_congr fun ρ => Sim.mean_congr fun a => Sim.mean_congr fun ρ' => Sim.mean_congr fun a' => ?_
    simp only [Spec.present, hP, Scalar.val_ofF]
    rfl
  · intro O' ρ ρ' s hs hi
    have hj : s.watched[j.1]? = some m := by simp [hs, j]
    have h1 := point_watched (G := G) (v := v) hj 1 0 0
    have h2 := point_watched (G := G) (v := v) hj 0 1 0
    have h3 := point_watched (G := G) (v := v) hj 0 0 1
    have h4 := point_enrolled (G := G) (v := v) (j := ⟨i, hN.2⟩) hi 1
    simp only [Pi.single_zero, zero_smul, one_smul, zero_add, add_zero] at h1 h2 h3 h4
    rw [h1, h2, h3, h4]
    simp only [Spec.present, hP, hQ, Scalar.val_ofF]
    exact ⟨trivial, rfl, rfl, rfl⟩

/-! ## Copies are exact -/

/-- All scalars are reduced. -/
def Canonical (e : Sent) : Prop :=
  (e.proof.challenge.Reduced ∧ e.proof.responses.m0.Reduced ∧ e.proof.responses.z0.Reduced ∧
    e.proof.responses.minus_zQ.Reduced) ∧
  e.roster.challenge.Reduced ∧ e.roster.responses.m0.Reduced ∧ e.roster.responses.z0.Reduced ∧
    e.roster.responses.z1.Reduced

/-- C84 (copies): a presentation that comes from bytes and repeats one of another user (`CopiesAll`) is equal to it,
in all its fields. -/
theorem C84_copy {b : Bytes} {p : SignalCredentialPresentation G}
    (hb : SignalCredentialPresentation.fromBytes b = .ok p) {v : Hidden N} {S : Scene}
    (hS : ∀ e ∈ S.sent, Canonical e) (h : CopiesAll v S p) :
    ∃ (j i : Fin N) (m m' : F) (e : Sent), S.view.watched[j.1]? = some m ∧ S.sent[j.1]? = some e ∧
      e.owner = i.1 ∧ S.view.enrolled[i.1]? = some m' ∧
      p = ⟨entry G v i m', ⟨(shown G v j m).2.2, (shown G v j m).1, [], [(shown G v j m).2.1], e.proof⟩, e.roster⟩ := by
  obtain ⟨j, i, m, m', e, hj, he, ho, hi, h1, ⟨h2, h3, h4, h5⟩, h6, h7, h8, h9, h10⟩ := h
  obtain ⟨⟨-, c1, c2, c3⟩, -, d1, d2, d3⟩ := hS e (List.mem_of_getElem? he)
  obtain ⟨Cm, -, ⟨⟨r1, r2, -, k1, k2, k3⟩, -, l1, l2, l3⟩, -⟩ := (C10_ok_iff b p).1 hb
  refine ⟨j, i, m, m', e, hj, he, ho, hi, ?_⟩
  have p1 := Scalar.val_inj_of_reduced k1 c1 h3
  have p2 := Scalar.val_inj_of_reduced k2 c2 h4
  have p3 := Scalar.val_inj_of_reduced k3 c3 h5
  have p4 := Scalar.val_inj_of_reduced l1 d1 h8
  have p5 := Scalar.val_inj_of_reduced l2 d2 h9
  have p6 := Scalar.val_inj_of_reduced l3 d3 h10
  rw [← h1]
  obtain ⟨R, ⟨CQ, P, as, bs, ⟨c, ⟨m0, z0, mz⟩⟩⟩, ⟨c', ⟨m0', z0', z1'⟩⟩⟩ := p
  obtain ⟨o, ⟨c'', ⟨m0'', z0'', mz''⟩⟩, ⟨c3', ⟨m3', z3', z4'⟩⟩⟩ := e
  simp only at *
  subst h2 h6 h7 p1 p2 p3 p4 p5 p6 r1 r2
  rfl

/-- A message of another user that is sent again is such a presentation. -/
example (v : Hidden 1) (m : F) (e : Sent) (h : Canonical e) (ho : e.owner = 0) :
    let S : Scene := ⟨⟨[], [m], [m]⟩, [e]⟩
    let p : SignalCredentialPresentation G := ⟨entry G v 0 m,
      ⟨(shown G v 0 m).2.2, (shown G v 0 m).1, [], [(shown G v 0 m).2.1], e.proof⟩, e.roster⟩
    SignalCredentialPresentation.fromBytes p.toBytes = .ok p ∧ (∀ e ∈ S.sent, Canonical e) ∧ CopiesAll v S p := by
  intro S p
  refine ⟨(C10_roundtrip p _ ⟨⟨rfl, rfl, h.1⟩, h.2⟩).1, fun e' he' => (List.mem_singleton.1 he') ▸ h,
    0, 0, m, m, e, rfl, rfl, ho, rfl, rfl, ⟨rfl, rfl, rfl, rfl⟩, rfl, rfl, rfl, rfl, rfl⟩

/-- The proofs that users make are of this kind. -/
theorem C84_canonical (O : Oracle) (sp : SystemParameters G) (X : G) (c : Credential G) (m : Scalar)
    (ros : RosterEntryCommitment G) (d ρ ρ' : F × F × F) (i : ℕ) :
    let π := Spec.present O sp X c m ros d ρ ρ'
    Canonical ⟨i, π.presentation.proof, π.rosterMembershipProof⟩ :=
  ⟨⟨Scalar.reduced_ofF _, Scalar.reduced_ofF _, Scalar.reduced_ofF _, Scalar.reduced_ofF _⟩,
    Scalar.reduced_ofF _, Scalar.reduced_ofF _, Scalar.reduced_ofF _, Scalar.reduced_ofF _⟩

/-! ## Examples -/

/-- Combinations of `g` alone. -/
def onlyG (a : F) : Lin N := ⟨a, 0, 0, 0, 0, 0, 0, 0, 0, 0⟩

private theorem log_onlyG (a : F) (v : Hidden N) (s : View) : log (onlyG a) v s = a := by
  unfold log onlyG
  rw [Finset.sum_eq_zero, Finset.sum_eq_zero, Finset.sum_eq_zero]
  · simp
  all_goals
    intro i _
    split <;> simp

/-- An adversary that bets on the key and `h` being zero: it presents the number 5, which was not issued. -/
def lucky : Attacker N :=
  .hash (Spec.Query.acts (.validCredential "AEONFLUX SHOW"
      ⟨onlyG 1, onlyG 0, onlyG 0, onlyG 1, onlyG 0, onlyG 5⟩ ⟨onlyG 0, onlyG 0⟩)) fun a =>
    .outputShow ⟨onlyG 0, onlyG 0, onlyG 1, onlyG 5,
      ⟨Scalar.fromWide a.1, ⟨Scalar.ofF (5 * (Scalar.fromWide a.1).val), 0, 0⟩⟩, ⟨0, ⟨0, 0, 0⟩⟩⟩

/-- It makes two steps, so `C84_unforgeable` bounds its probability by `43/ℓ`. -/
example (O : Oracle) : Attacker.Within (lucky : Attacker N) 2 ∧
    (lucky : Attacker N).probability G O ≤ 43 / ell := by
  have h : Attacker.Within (lucky : Attacker N) 2 := ⟨1, rfl, fun a => ⟨0, rfl⟩⟩
  refine ⟨h, (C84_unforgeable O lucky h).trans (le_of_eq ?_)⟩
  norm_num

/-- When it is lucky, it wins. -/
example (O : Oracle) : (lucky : Attacker N).wins O (honest (G := G) O) (fun _ => 0) ⟨⟨[], [], []⟩, []⟩ [] = 1 := by
  simp only [lucky, Attacker.wins]
  refine ((Sim.mean_congr fun a => Sim.mean_congr fun a' => ?_).trans
    ((Sim.mean_congr fun a => Sim.mean_const 1).trans (Sim.mean_const 1)))
  simp only [List.lookup_nil, Option.getD_none]
  refine if_pos ?_
  refine ⟨(shows_iff (G := G) O (b := a) ?_).2 rfl, ?_, ?_, ?_⟩
  · refine Sim.lookup_asked_of_some ?_ _ _
    rw [showTranscript_eq]
    have : Ask.transcript G (fun _ => 0) ⟨[], [], []⟩ (Spec.Query.acts (.validCredential "AEONFLUX SHOW"
        ⟨onlyG 1, onlyG 0, onlyG 0, onlyG 1, onlyG 0, onlyG 5⟩ ⟨onlyG 0, onlyG 0⟩) : Ask N) =
        Sym G (showQ (N := N) ⟨onlyG 0, onlyG 0, onlyG 1, onlyG 5,
          ⟨Scalar.fromWide a.1, ⟨Scalar.ofF (5 * (Scalar.fromWide a.1).val), 0, 0⟩⟩, ⟨0, ⟨0, 0, 0⟩⟩⟩
          ⟨[], [], []⟩) (fun _ => 0) := by
      rw [ask_query, Sym]
      refine congrArg (fun q : Spec.Query G => q.ops) ?_
      simp only [showQ, Spec.Query.map, Present.point_eq, log_onlyG, Scalar.val_ofF]
      congr 2 <;> simp [mul_comm]
    rw [this, Sim.lookup_asked]
    simp
  · rw [Present.point_eq, log_onlyG, one_smul]
    exact fun h => one_ne_zero ((smul_base_eq_zero (G := G)).1 (by rw [h, smul_zero]))
  · rintro ⟨j, m, e, h, -⟩
    cases h
  · rintro m ⟨h, -⟩
    cases h

end Attack
end Verif
