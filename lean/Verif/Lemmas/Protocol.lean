import Verif.Model.Signal

/-!
# Straight-line forms of `issue`, `show` and `verify` for one attribute
-/

namespace Verif

variable {G : Type} [AddCommGroup G] [Module F G] [Ristretto G]

/-- The issuance made from the drawn scalars `b` (MAC nonce) and `x0t` (commitment opening), with
`mk` making the proof. -/
def issuanceData (sp : SystemParameters G) (X1 : G) (x0 x1 m b x0t : Scalar)
    (mk : IssuanceRevealed.Publics G → IssuanceRevealed.Secrets → IssuanceRevealed.Proof) :
    CredentialIssuance G :=
  let P : G := b • basepoint G
  let Q : G := (x0 + x1 * m) • P
  let Cx0 : G := x0 • sp.g + x0t • sp.h
  { secretKeyCommitment := Cx0
    credential := { mac := ⟨P, Q⟩, attributes := [m] }
    proof := mk ⟨P, Q, Cx0, sp.g, sp.h, X1⟩ ⟨x0, x1, x0t, m * x1⟩ }

/-- The scalars drawn by `issue`. -/
def issueDraws {R : Type} [RngCore R] (O : Oracle) (rng : R) : Scalar × Scalar :=
  let csprng := (forkReseed O Issuer.issuanceTranscript [] rng).1
  let d := Scalar.random csprng
  (d.1, (Scalar.random d.2).1)

theorem issue_one {R : Type} [RngCore R] (O : Oracle) {sp : SystemParameters G} {X1 : G} {Xs : List G}
    {x0 x1 : Scalar} (m : Scalar) (rng : R) (entropy : Bytes) :
    (Issuer.issue O ⟨sp, ⟨⟨X1 :: Xs⟩, ⟨x0, [x1]⟩⟩⟩ ⟨[m]⟩ rng entropy).1 =
      .ok (issuanceData sp X1 x0 x1 m (issueDraws O rng).1 (issueDraws O rng).2
        (IssuanceRevealed.create O Issuer.issuanceTranscript entropy)) := rfl

/-- The rng state after `issue` only depends on the rng. -/
theorem issue_one_rng {R : Type} [RngCore R] (O : Oracle) {sp : SystemParameters G} {X1 : G}
    {Xs : List G} {x0 x1 : Scalar} (m : Scalar) (rng : R) (entropy : Bytes) :
    (Issuer.issue O ⟨sp, ⟨⟨X1 :: Xs⟩, ⟨x0, [x1]⟩⟩⟩ ⟨[m]⟩ rng entropy).2 =
      (RngCore.fill rng 32).2 := rfl

/-- The presentation made from the drawn scalars, with `mk` making the proof. -/
def presentationData (sp : SystemParameters G) (X : G) (tag : Amacs.Tag G) (m z0 r zQ : Scalar)
    (mk : ValidCredential.Publics G → ValidCredential.Secrets → ValidCredential.Proof) :
    CredentialPresentation G :=
  let P := r • tag.nonce
  let CQ := r • tag.mac + zQ • sp.h
  let Cm0 := m • P + z0 • sp.h
  let V := 0 + z0 • X - zQ • sp.h
  { rerandomizedMacCommitment := CQ, rerandomizedNonce := P, attributesRevealed := []
    attributesBlinded := [Cm0]
    proof := mk ⟨sp.g, sp.h, X, P, V, Cm0⟩ ⟨m, z0, -zQ⟩ }

/-- The scalars drawn by `show`: rerandomisation and blinding of the MAC. -/
def showDraws {R : Type} [RngCore R] (O : Oracle) (rng : R) : Scalar × Scalar :=
  let csprng := (forkReseed O Issuer.showTranscript [] rng).1
  let d := Scalar.random csprng
  (d.1, (Scalar.random d.2).1)

theorem show_one {R : Type} [RngCore R] (O : Oracle) {sp : SystemParameters G} {X : G} {Xs : List G}
    {k : Option (Elgamal.Keypair G)} {tag : Amacs.Tag G} (m z0 : Scalar) (rng : R) (entropy : Bytes) :
    (User.show O ⟨sp, ⟨X :: Xs⟩, k, some ⟨tag, [m]⟩⟩ [z0] rng entropy).1 =
      .ok (presentationData sp X tag m z0 (showDraws O rng).1 (showDraws O rng).2
        (ValidCredential.create O Issuer.showTranscript entropy)) := rfl

theorem verify_one (O : Oracle) {sp : SystemParameters G} {X : G} {Xs : List G} {x0 x1 : Scalar}
    {xs : List Scalar} {CQ P C : G} {proof : ValidCredential.Proof} :
    Issuer.verify O ⟨sp, ⟨⟨X :: Xs⟩, ⟨x0, x1 :: xs⟩⟩⟩ ⟨CQ, P, [], [C], proof⟩ =
      if ValidCredential.verify O Issuer.showTranscript proof
          ⟨sp.g, sp.h, X, P, x0 • P + x1 • C - CQ, C⟩ = true then
        .ok ⟨⟨CQ, P, [], [C], proof⟩⟩
      else .err .macVerification := rfl

omit [Ristretto G] in
/-- The roster entry made from the drawn opening. -/
theorem roster_create {R : Type} [RngCore R] (b : Bytes) (sp : SystemParameters G) (r : R)
    {number : Scalar} (h : PhoneNumber.tryFromBytes b = .ok number) :
    (RosterEntryCommitment.create b sp r).1 =
      .ok ⟨number • sp.h + (Scalar.random r).1 • sp.g, (Scalar.random r).1⟩ := by
  simp only [RosterEntryCommitment.create, h, Res.ok_bind]
  rfl

/-- The draws of `SignalUser::show`: nonce `z0`, then those of `User::show`. -/
def signalShowDraws {R : Type} [RngCore R] (O : Oracle) (rng : R) : Scalar × Scalar × Scalar :=
  let z := Scalar.random rng
  (z.1, showDraws O z.2)

/-- The presentation of `SignalUser::show` from the drawn scalars. -/
def signalPresentationData (sp : SystemParameters G) (X : G) (tag : Amacs.Tag G) (m z0 r zQ : Scalar)
    (roster : RosterEntryCommitment G)
    (mk : ValidCredential.Publics G → ValidCredential.Secrets → ValidCredential.Proof)
    (mk' : CommittedValuesEqual.Publics G → CommittedValuesEqual.Secrets → CommittedValuesEqual.Proof) :
    SignalCredentialPresentation G :=
  { rosterEntryCommitment := roster.commitment
    presentation := presentationData sp X tag m z0 r zQ mk
    rosterMembershipProof := mk'
      ⟨sp.g, sp.h, r • tag.nonce, m • (r • tag.nonce) + z0 • sp.h, roster.commitment⟩
      ⟨m, z0, roster.opening⟩ }

theorem signal_show_one {R : Type} [RngCore R] (O : Oracle) {sp : SystemParameters G} {X : G}
    {Xs : List G} {k : Option (Elgamal.Keypair G)} {tag : Amacs.Tag G} (number m : Scalar) (rng : R)
    (roster : RosterEntryCommitment G) (e1 e2 : Bytes) :
    (SignalUser.show O ⟨number, ⟨sp, ⟨X :: Xs⟩, k, some ⟨tag, [m]⟩⟩⟩ rng roster e1 e2).1 =
      .ok (signalPresentationData sp X tag m (signalShowDraws O rng).1 (signalShowDraws O rng).2.1
        (signalShowDraws O rng).2.2 roster (ValidCredential.create O Issuer.showTranscript e1)
        (CommittedValuesEqual.create O SignalIssuer.membershipTranscript e2)) := rfl

theorem verifyRoster_one (O : Oracle) {i : SignalIssuer G} {CQ P C R : G} {as : List Scalar}
    {proof : ValidCredential.Proof} {proof' : CommittedValuesEqual.Proof} :
    SignalIssuer.verifyRosterMembership O i ⟨⟨R, ⟨CQ, P, as, [C], proof⟩, proof'⟩⟩ =
      if CommittedValuesEqual.verify O SignalIssuer.membershipTranscript proof'
          ⟨i.issuer.systemParameters.g, i.issuer.systemParameters.h, P, C, R⟩ = true then
        .ok R
      else .err .verificationFailure := rfl

end Verif
