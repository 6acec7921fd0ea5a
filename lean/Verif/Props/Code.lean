import Verif.Lemmas.Program
import Verif.Props.Coins

/-!
# C88: the code, with its own generators

In C82, C83 and C87 users and issuers draw every scalar freshly. The code draws some of them from transcript
generators. Here `SignalUser::show` and `Issuer::issue` are run as they are, with the hash and the transcript
generators being random functions that the observer can evaluate too.
-/

set_option maxRecDepth 100000
set_option exponentiation.threshold 600

namespace Verif

variable {G : Type} [AddCommGroup G] [Module F G] [Ristretto G]

/-! ## The programs -/

namespace Spec.Program

variable {β : Type}

/-- `issuance_revealed::Proof::create`, with the `i`-th key. -/
def issuanceRevealed (i : ℕ) (t : Transcript) (p : IssuanceRevealed.Publics G) (s : IssuanceRevealed.Secrets)
    (next : IssuanceRevealed.Proof → Spec.Program β) : Spec.Program β :=
  let t' := IssuanceRevealed.commitPublics t p
  let w := IssuanceRevealed.witnesses s
  .seed <| .read i t' w 0 fun b0 => .read i t' w 1 fun b1 => .read i t' w 2 fun b2 => .read i t' w 3 fun b3 =>
    let rand := IssuanceRevealed.randOf (Spec.drawn4 (b0, b1, b2, b3))
    .hash (IssuanceRevealed.commitCommitments t' (IssuanceRevealed.commitmentsOf p rand)) fun a =>
      next ⟨Scalar.fromWide a.1, IssuanceRevealed.respond (Scalar.fromWide a.1) s rand⟩

/-- `valid_credential::Proof::create`, with the `i`-th key. -/
def validCredential (i : ℕ) (t : Transcript) (p : ValidCredential.Publics G) (s : ValidCredential.Secrets)
    (next : ValidCredential.Proof → Spec.Program β) : Spec.Program β :=
  let t' := ValidCredential.commitPublics t p
  let w := ValidCredential.witnesses s
  .seed <| .read i t' w 0 fun b0 => .read i t' w 1 fun b1 => .read i t' w 2 fun b2 =>
    let rand := ValidCredential.randOf (Spec.drawn3 (b0, b1, b2))
    .hash (ValidCredential.commitCommitments t' (ValidCredential.commitmentsOf p rand)) fun a =>
      next ⟨Scalar.fromWide a.1, ValidCredential.respond (Scalar.fromWide a.1) s rand⟩

/-- `committed_values_equal::Proof::create`, with the `i`-th key. -/
def committedValuesEqual (i : ℕ) (t : Transcript) (p : CommittedValuesEqual.Publics G) (s : CommittedValuesEqual.Secrets)
    (next : CommittedValuesEqual.Proof → Spec.Program β) : Spec.Program β :=
  let t' := CommittedValuesEqual.commitPublics t p
  let w := CommittedValuesEqual.witnesses s
  .seed <| .read i t' w 0 fun b0 => .read i t' w 1 fun b1 => .read i t' w 2 fun b2 =>
    let rand := CommittedValuesEqual.randOf (Spec.drawn3 (b0, b1, b2))
    .hash (CommittedValuesEqual.commitCommitments t' (CommittedValuesEqual.commitmentsOf p rand)) fun a =>
      next ⟨Scalar.fromWide a.1, CommittedValuesEqual.respond (Scalar.fromWide a.1) s rand⟩

/-- `SignalUser::show`: 64 bytes and the key of a generator are drawn from the caller's generator, two scalars are
read from the latter, and there are two proofs with keys of their own. `next` gets the three scalars and the result. -/
def showThen (sp : SystemParameters G) (X : G) (c : Credential G) (m : Scalar) (ros : RosterEntryCommitment G)
    (next : F × F × F → SignalCredentialPresentation G → Spec.Program β) : Spec.Program β :=
  .draw fun z => .seed <| .read 0 [.init "AEONFLUX SHOW"] [] 0 fun a1 => .read 0 [.init "AEONFLUX SHOW"] [] 1 fun a2 =>
    let d := Spec.drawn3 (z, a1, a2)
    let P := d.2.1 • c.mac.nonce
    let C := m.val • P + d.1 • sp.h
    validCredential 1 [.init "AEONFLUX SHOW"] ⟨sp.g, sp.h, X, P, d.1 • X - d.2.2 • sp.h, C⟩
      ⟨m, Scalar.ofF d.1, -Scalar.ofF d.2.2⟩ fun π =>
    committedValuesEqual 2 [.init "SIGNAL GROUP MEMBERSHIP"] ⟨sp.g, sp.h, P, C, ros.commitment⟩
      ⟨m, Scalar.ofF d.1, ros.opening⟩ fun π' =>
    next d ⟨ros.commitment, ⟨d.2.1 • c.mac.mac + d.2.2 • sp.h, P, [], [C], π⟩, π'⟩

/-- `SignalUser::show`. -/
def «show» (sp : SystemParameters G) (X : G) (c : Credential G) (m : Scalar) (ros : RosterEntryCommitment G) :
    Spec.Program (SignalCredentialPresentation G) :=
  showThen sp X c m ros fun _ p => .ret p

/-- `Issuer::issue`: the key of a generator is drawn from the caller's generator, two scalars are read from it, and
there is a proof with its own key. `next` gets the two scalars and the result. -/
def issueThen (sp : SystemParameters G) (x0 x1 m : Scalar) (next : F × F → CredentialIssuance G → Spec.Program β) :
    Spec.Program β :=
  .seed <| .read 0 [.init "AEONFLUX ISSUANCE"] [] 0 fun a1 => .read 0 [.init "AEONFLUX ISSUANCE"] [] 1 fun a2 =>
    let b := Spec.coin a1.1
    let z := Spec.coin a2.1
    let P := b • basepoint G
    let Q := (x0.val + x1.val * m.val) • P
    let C := x0.val • sp.g + z • sp.h
    issuanceRevealed 1 [.init "AEONFLUX ISSUANCE"] ⟨P, Q, C, sp.g, sp.h, x1.val • sp.h⟩
      ⟨x0, x1, Scalar.ofF z, m * x1⟩ fun π =>
    next (b, z) ⟨C, ⟨⟨P, Q⟩, [m]⟩, π⟩

/-- `Issuer::issue`. -/
def issue (sp : SystemParameters G) (x0 x1 m : Scalar) : Spec.Program (CredentialIssuance G) :=
  issueThen sp x0 x1 m fun _ c => .ret c

end Spec.Program

namespace Code

variable {β : Type}

/-- A program has one result. -/
theorem returns_unique (O : Oracle) (p : Spec.Program β) : ∀ env tape x y,
    p.Returns O env tape x → p.Returns O env tape y → x = y := by
  induction p with
  | ret b => exact fun env tape x y hx hy => hx.2.symm.trans hy.2
  | draw next ih =>
    rintro env _ x y ⟨z, rest, rfl, hx⟩ ⟨z', rest', h, hy⟩
    obtain ⟨h1, rfl⟩ := List.cons_eq_cons.1 h
    obtain rfl := Subtype.ext h1
    exact ih _ _ _ _ _ hx hy
  | seed next ih =>
    rintro env _ x y ⟨z, rest, rfl, hx⟩ ⟨z', rest', h, hy⟩
    obtain ⟨h1, rfl⟩ := List.cons_eq_cons.1 h
    obtain rfl := Subtype.ext h1
    exact ih _ _ _ _ hx hy
  | read i o w n next ih => exact fun env tape x y hx hy => ih _ _ _ _ _ hx hy
  | hash t next ih => exact fun env tape x y hx hy => ih _ _ _ _ _ hx hy

theorem issuanceRevealed_returns (O : Oracle) (t : Transcript) (p : IssuanceRevealed.Publics G) (s : IssuanceRevealed.Secrets)
    (next : IssuanceRevealed.Proof → Spec.Program β) (env rest : List Bytes) (e : Spec.Seed) (x : β) :
    (Spec.Program.issuanceRevealed env.length t p s next).Returns O env (e.1 :: rest) x ↔
      (next (IssuanceRevealed.create O t e.1 p s)).Returns O (env ++ [e.1]) rest x := by
  have h0 : (env ++ [e.1]).getD env.length [] = e.1 := by
    rw [List.getD_append_right _ _ _ _ le_rfl, Nat.sub_self]
    rfl
  have h1 : IssuanceRevealed.create O t e.1 p s = IssuanceRevealed.createWith O t p s (IssuanceRevealed.randOf (Spec.drawn4
      (Spec.Read.bytes O ⟨IssuanceRevealed.commitPublics t p, IssuanceRevealed.witnesses s, e.1, 0⟩, Spec.Read.bytes O ⟨IssuanceRevealed.commitPublics t p, IssuanceRevealed.witnesses s, e.1, 1⟩, Spec.Read.bytes O ⟨IssuanceRevealed.commitPublics t p, IssuanceRevealed.witnesses s, e.1, 2⟩, Spec.Read.bytes O ⟨IssuanceRevealed.commitPublics t p, IssuanceRevealed.witnesses s, e.1, 3⟩))) := by
    rw [IssuanceRevealed.create]
    congr 1
  rw [h1]
  simp only [Spec.Program.issuanceRevealed, Spec.Program.Returns]
  constructor
  · rintro ⟨e', rest', h, hx⟩
    obtain ⟨h3, rfl⟩ := List.cons_eq_cons.1 h
    obtain rfl := Subtype.ext h3
    rw [h0] at hx
    exact hx
  · intro hx
    refine ⟨e, rest, rfl, ?_⟩
    rw [h0]
    exact hx

theorem issuanceRevealed_ideal (O : Oracle) (i : ℕ) (t : Transcript) (p : IssuanceRevealed.Publics G) (s : IssuanceRevealed.Secrets)
    (next : IssuanceRevealed.Proof → Spec.Program β) (l : Spec.HashLog) (k : Spec.HashLog → β → ℚ) :
    (Spec.Program.issuanceRevealed i t p s next).ideal l k =
      Spec.IssuanceRevealed.drawn O t p s l fun l' π => (next π).ideal l' k := by
  unfold Spec.IssuanceRevealed.drawn
  simp only [Sim.mean_pair, Spec.Program.issuanceRevealed, Spec.Program.ideal]
  refine Sim.mean_congr fun b0 => Sim.mean_congr fun b0 => Sim.mean_congr fun b0 => Sim.mean_congr fun b0 => Sim.mean_congr fun a => ?_
  simp only [IssuanceRevealed.createWith]
  rw [Sim.getChallenge_oracle (Sim.lookup_asked l _ a)]

theorem validCredential_returns (O : Oracle) (t : Transcript) (p : ValidCredential.Publics G) (s : ValidCredential.Secrets)
    (next : ValidCredential.Proof → Spec.Program β) (env rest : List Bytes) (e : Spec.Seed) (x : β) :
    (Spec.Program.validCredential env.length t p s next).Returns O env (e.1 :: rest) x ↔
      (next (ValidCredential.create O t e.1 p s)).Returns O (env ++ [e.1]) rest x := by
  have h0 : (env ++ [e.1]).getD env.length [] = e.1 := by
    rw [List.getD_append_right _ _ _ _ le_rfl, Nat.sub_self]
    rfl
  have h1 : ValidCredential.create O t e.1 p s = ValidCredential.createWith O t p s (ValidCredential.randOf (Spec.drawn3
      (Spec.Read.bytes O ⟨ValidCredential.commitPublics t p, ValidCredential.witnesses s, e.1, 0⟩, Spec.Read.bytes O ⟨ValidCredential.commitPublics t p, ValidCredential.witnesses s, e.1, 1⟩, Spec.Read.bytes O ⟨ValidCredential.commitPublics t p, ValidCredential.witnesses s, e.1, 2⟩))) := by
    rw [ValidCredential.create]
    congr 1
  rw [h1]
  simp only [Spec.Program.validCredential, Spec.Program.Returns]
  constructor
  · rintro ⟨e', rest', h, hx⟩
    obtain ⟨h3, rfl⟩ := List.cons_eq_cons.1 h
    obtain rfl := Subtype.ext h3
    rw [h0] at hx
    exact hx
  · intro hx
    refine ⟨e, rest, rfl, ?_⟩
    rw [h0]
    exact hx

theorem validCredential_ideal (O : Oracle) (i : ℕ) (t : Transcript) (p : ValidCredential.Publics G) (s : ValidCredential.Secrets)
    (next : ValidCredential.Proof → Spec.Program β) (l : Spec.HashLog) (k : Spec.HashLog → β → ℚ) :
    (Spec.Program.validCredential i t p s next).ideal l k =
      Spec.ValidCredential.drawn O t p s l fun l' π => (next π).ideal l' k := by
  unfold Spec.ValidCredential.drawn
  simp only [Sim.mean_pair, Spec.Program.validCredential, Spec.Program.ideal]
  refine Sim.mean_congr fun b0 => Sim.mean_congr fun b0 => Sim.mean_congr fun b0 => Sim.mean_congr fun a => ?_
  simp only [ValidCredential.createWith]
  rw [Sim.getChallenge_oracle (Sim.lookup_asked l _ a)]

theorem committedValuesEqual_returns (O : Oracle) (t : Transcript) (p : CommittedValuesEqual.Publics G) (s : CommittedValuesEqual.Secrets)
    (next : CommittedValuesEqual.Proof → Spec.Program β) (env rest : List Bytes) (e : Spec.Seed) (x : β) :
    (Spec.Program.committedValuesEqual env.length t p s next).Returns O env (e.1 :: rest) x ↔
      (next (CommittedValuesEqual.create O t e.1 p s)).Returns O (env ++ [e.1]) rest x := by
  have h0 : (env ++ [e.1]).getD env.length [] = e.1 := by
    rw [List.getD_append_right _ _ _ _ le_rfl, Nat.sub_self]
    rfl
  have h1 : CommittedValuesEqual.create O t e.1 p s = CommittedValuesEqual.createWith O t p s (CommittedValuesEqual.randOf (Spec.drawn3
      (Spec.Read.bytes O ⟨CommittedValuesEqual.commitPublics t p, CommittedValuesEqual.witnesses s, e.1, 0⟩, Spec.Read.bytes O ⟨CommittedValuesEqual.commitPublics t p, CommittedValuesEqual.witnesses s, e.1, 1⟩, Spec.Read.bytes O ⟨CommittedValuesEqual.commitPublics t p, CommittedValuesEqual.witnesses s, e.1, 2⟩))) := by
    rw [CommittedValuesEqual.create]
    congr 1
  rw [h1]
  simp only [Spec.Program.committedValuesEqual, Spec.Program.Returns]
  constructor
  · rintro ⟨e', rest', h, hx⟩
    obtain ⟨h3, rfl⟩ := List.cons_eq_cons.1 h
    obtain rfl := Subtype.ext h3
    rw [h0] at hx
    exact hx
  · intro hx
    refine ⟨e, rest, rfl, ?_⟩
    rw [h0]
    exact hx

theorem committedValuesEqual_ideal (O : Oracle) (i : ℕ) (t : Transcript) (p : CommittedValuesEqual.Publics G) (s : CommittedValuesEqual.Secrets)
    (next : CommittedValuesEqual.Proof → Spec.Program β) (l : Spec.HashLog) (k : Spec.HashLog → β → ℚ) :
    (Spec.Program.committedValuesEqual i t p s next).ideal l k =
      Spec.CommittedValuesEqual.drawn O t p s l fun l' π => (next π).ideal l' k := by
  unfold Spec.CommittedValuesEqual.drawn
  simp only [Sim.mean_pair, Spec.Program.committedValuesEqual, Spec.Program.ideal]
  refine Sim.mean_congr fun b0 => Sim.mean_congr fun b0 => Sim.mean_congr fun b0 => Sim.mean_congr fun a => ?_
  simp only [CommittedValuesEqual.createWith]
  rw [Sim.getChallenge_oracle (Sim.lookup_asked l _ a)]

theorem show_ideal (O : Oracle) {sp : SystemParameters G} {x0 x1 : Scalar} (x : Spec.Holder sp x0 x1)
    (l : Spec.HashLog) (k : Spec.HashLog → SignalCredentialPresentation G → ℚ) :
    (Spec.Program.show sp (x1.val • sp.h) x.credential x.m x.ros).ideal l k =
      Spec.drawnShow O sp x0 x1 x l k := by
  have h : Spec.drawnShow O sp x0 x1 x l k = Spec.mean fun wd : Spec.Answer × Spec.Answer × Spec.Answer =>
      let d := Spec.drawn3 wd
      Spec.ValidCredential.drawn O [.init "AEONFLUX SHOW"]
        ⟨sp.g, sp.h, x1.val • sp.h, d.2.1 • x.credential.mac.nonce,
          d.1 • (x1.val • sp.h) - d.2.2 • sp.h, x.m.val • (d.2.1 • x.credential.mac.nonce) + d.1 • sp.h⟩
        ⟨x.m, Scalar.ofF d.1, -Scalar.ofF d.2.2⟩ l fun l₁ π =>
          Spec.CommittedValuesEqual.drawn O [.init "SIGNAL GROUP MEMBERSHIP"]
            ⟨sp.g, sp.h, d.2.1 • x.credential.mac.nonce,
              x.m.val • (d.2.1 • x.credential.mac.nonce) + d.1 • sp.h, x.ros.commitment⟩
            ⟨x.m, Scalar.ofF d.1, x.ros.opening⟩ l₁ fun l₂ π' =>
              k l₂ ⟨x.ros.commitment, ⟨d.2.1 • x.credential.mac.mac + d.2.2 • sp.h,
                d.2.1 • x.credential.mac.nonce, [],
                [x.m.val • (d.2.1 • x.credential.mac.nonce) + d.1 • sp.h], π⟩, π'⟩ := by
    unfold Spec.drawnShow Spec.ValidCredential.drawn Spec.CommittedValuesEqual.drawn
    refine Sim.mean_congr fun wd => Sim.mean_congr fun w => Sim.mean_congr fun a => Sim.mean_congr fun w' =>
      Sim.mean_congr fun a' => ?_
    generalize Spec.drawn3 wd = d
    have h1 := Sim.lookup_asked l (ValidCredential.commitCommitments
      (ValidCredential.commitPublics [.init "AEONFLUX SHOW"]
        (⟨sp.g, sp.h, x1.val • sp.h, d.2.1 • x.credential.mac.nonce, d.1 • (x1.val • sp.h) - d.2.2 • sp.h,
          x.m.val • (d.2.1 • x.credential.mac.nonce) + d.1 • sp.h⟩ : ValidCredential.Publics G))
      (ValidCredential.commitmentsOf (⟨sp.g, sp.h, x1.val • sp.h, d.2.1 • x.credential.mac.nonce,
          d.1 • (x1.val • sp.h) - d.2.2 • sp.h,
          x.m.val • (d.2.1 • x.credential.mac.nonce) + d.1 • sp.h⟩ : ValidCredential.Publics G)
        (ValidCredential.randOf (Spec.drawn3 w)))) a
    simp only [Spec.present, ValidCredential.createWith]
    rw [Sim.getChallenge_oracle (Sim.lookup_asked_of_some h1 _ _), Sim.getChallenge_oracle h1]
  rw [h]
  simp only [Sim.mean_pair, Spec.Program.show, Spec.Program.showThen, Spec.Program.ideal, validCredential_ideal O,
    committedValuesEqual_ideal O]

theorem issue_ideal (O : Oracle) (sp : SystemParameters G) (x0 x1 m : Scalar)
    (l : Spec.HashLog) (k : Spec.HashLog → CredentialIssuance G → ℚ) :
    (Spec.Program.issue sp x0 x1 m).ideal l k = Spec.drawnIssue O sp x0 x1 m l k := by
  simp only [Spec.Program.issue, Spec.Program.issueThen, Spec.Program.ideal, issuanceRevealed_ideal O]
  rfl

end Code

/-- C88: `SignalUser::show` is `Spec.Program.show`, for every hash and generator. The tape is what is read from the
caller's generator, followed by the fresh bytes of the two proofs. -/
theorem C88_show_program {R : Type} [RngCore R] (O : Oracle) {u : SignalUser G} {X : G}
    {Xs : List G} {c : Credential G} {m : Scalar} (hX : u.user.issuerParameters.Xn = X :: Xs)
    (hc : u.user.credential = some c) (hm : c.attributes = [m]) (rng : R)
    (ros : RosterEntryCommitment G) (e1 e2 : Spec.Seed) :
    ∃ p, (u.show O rng ros e1.1 e2.1).1 = .ok p ∧ (Spec.Program.show u.user.systemParameters X c m ros).Returns O []
      ((Spec.reads [64, 32] rng).1 ++ [e1.1, e2.1]) p := by
  obtain ⟨number, ⟨sp, ⟨Xn⟩, k, cr⟩⟩ := u
  obtain ⟨tag, as⟩ := c
  dsimp only at hX hc hm
  subst hX hc hm
  rw [signal_show_one]
  refine ⟨_, rfl, ⟨(RngCore.fill rng 64).1, RngCore.fill_length _ _⟩, _, rfl,
    ⟨(RngCore.fill (RngCore.fill rng 64).2 32).1, RngCore.fill_length _ _⟩, _, rfl, ?_⟩
  simp only [Spec.Program.Returns]
  refine (Code.validCredential_returns O _ _ _ _ [(RngCore.fill (RngCore.fill rng 64).2 32).1] _ e1 _).2 ?_
  refine (Code.committedValuesEqual_returns O _ _ _ _ [(RngCore.fill (RngCore.fill rng 64).2 32).1, e1.1]
    _ e2 _).2 ⟨rfl, ?_⟩
  generalize hd : Spec.drawn3 _ = d
  have h1 : (signalShowDraws O rng).1 = Scalar.ofF d.1 := by rw [← hd]; rfl
  have h2 : (signalShowDraws O rng).2.1 = Scalar.ofF d.2.1 := by rw [← hd]; rfl
  have h3 : (signalShowDraws O rng).2.2 = Scalar.ofF d.2.2 := by rw [← hd]; rfl
  rw [h1, h2, h3]
  simp only [signalPresentationData, presentationData, Issuer.showTranscript,
    SignalIssuer.membershipTranscript, Scalar.smul_def, Scalar.val_ofF, zero_add]

/-- A user with a credential on the number 7. -/
example : ∃ u : SignalUser F, u.user.issuerParameters.Xn = [10] ∧
    u.user.credential = some ⟨⟨2, 76⟩, [⟨7, by decide⟩]⟩ :=
  ⟨⟨⟨7, by decide⟩, ⟨⟨1, 2⟩, ⟨[10]⟩, none, some ⟨⟨2, 76⟩, [⟨7, by decide⟩]⟩⟩⟩, rfl, rfl⟩

/-- C88: `Issuer::issue` is `Spec.Program.issue`. -/
theorem C88_issue_program {R : Type} [RngCore R] (O : Oracle) {i : Issuer G} {x0 x1 : Scalar}
    (hk : i.keypair.secretKey = ⟨x0, [x1]⟩)
    (hX : i.keypair.publicKey.Xn = [x1.val • i.systemParameters.h]) (m : Scalar) (rng : R)
    (entropy : Spec.Seed) :
    ∃ c, (i.issue O ⟨[m]⟩ rng entropy.1).1 = .ok c ∧ (Spec.Program.issue i.systemParameters x0 x1 m).Returns O []
      ((Spec.reads [32] rng).1 ++ [entropy.1]) c := by
  obtain ⟨sp, ⟨⟨Xn⟩, sk⟩⟩ := i
  dsimp only at hk hX
  subst hk hX
  rw [issue_one]
  refine ⟨_, rfl, ⟨(RngCore.fill rng 32).1, RngCore.fill_length _ _⟩, _, rfl, ?_⟩
  simp only [Spec.Program.Returns]
  refine (Code.issuanceRevealed_returns O _ _ _ _ [(RngCore.fill rng 32).1] _ entropy _).2 ⟨rfl, ?_⟩
  generalize hb : Spec.coin (Spec.Read.bytes O ⟨_, _, _, 0⟩).1 = b
  generalize hz : Spec.coin (Spec.Read.bytes O ⟨_, _, _, 1⟩).1 = z
  have h1 : (issueDraws O rng).1 = Scalar.ofF b := by rw [← hb]; rfl
  have h2 : (issueDraws O rng).2 = Scalar.ofF z := by rw [← hz]; rfl
  rw [h1, h2]
  simp only [issuanceData, Issuer.issuanceTranscript, Scalar.smul_def, Scalar.val_ofF,
    Scalar.val_add, Scalar.val_mul]

example : ∃ i : Issuer F, i.keypair.secretKey = ⟨⟨3, by decide⟩, [⟨5, by decide⟩]⟩ ∧
    i.keypair.publicKey.Xn = [(⟨5, by decide⟩ : Scalar).val • i.systemParameters.h] :=
  ⟨⟨⟨1, 2⟩, ⟨⟨[(⟨5, by decide⟩ : Scalar).val • 2]⟩, ⟨⟨3, by decide⟩, [⟨5, by decide⟩]⟩⟩⟩, rfl, rfl⟩

/-- C88: a program has one result: what `SignalUser::show` and `Issuer::issue` return is all that the programs
return with this tape. -/
theorem C88_one_result {β : Type} (O : Oracle) (p : Spec.Program β) (tape : List Bytes) (x y : β)
    (hx : p.Returns O [] tape x) (hy : p.Returns O [] tape y) : x = y :=
  Code.returns_unique O p [] tape x y hx hy

/-- C88: the programs make no read twice, and key all of them. -/
theorem C88_show_distinct (sp : SystemParameters G) (X : G) (c : Credential G) (m : Scalar)
    (ros : RosterEntryCommitment G) : (Spec.Program.show sp X c m ros).Distinct 0 [] ∧
    (Spec.Program.show sp X c m ros).Within 3 8 := by
  simp [Spec.Program.show, Spec.Program.showThen, Spec.Program.validCredential, Spec.Program.committedValuesEqual,
    Spec.Program.Distinct, Spec.Program.Within]

@[inherit_doc C88_show_distinct]
theorem C88_issue_distinct (sp : SystemParameters G) (x0 x1 m : Scalar) :
    (Spec.Program.issue sp x0 x1 m).Distinct 0 [] ∧ (Spec.Program.issue sp x0 x1 m).Within 2 6 := by
  simp [Spec.Program.issue, Spec.Program.issueThen, Spec.Program.issuanceRevealed, Spec.Program.Distinct, Spec.Program.Within]

namespace Code

/-- As `Coins.alike_yes`. -/
theorem alike_watcher {K : Type} {Pf : K → Type} {δ : ℚ} (hδ : 0 ≤ δ) {serve serve' : Spec.Server K Pf}
    (h : Coins.Alike δ serve serve') (A : Spec.Watcher K Pf) : ∀ l r q s n, A.Within q s n →
      |A.yes serve l r - A.yes serve' l r| ≤ n * δ := by
  induction A with
  | done b =>
    intro l r q s n _
    simp only [Spec.Watcher.yes, sub_self, abs_zero]
    positivity
  | toss next ih =>
    intro l r q s n hw
    exact Sim.abs_sub_mean_le fun a => ih a l r q s n (hw a)
  | ask t next ih =>
    intro l r q s n hw
    obtain ⟨q', rfl, hw⟩ := hw
    exact Sim.abs_sub_mean_le fun a => ih _ _ r q' s n (hw _)
  | read v next ih =>
    intro l r q s n hw
    obtain ⟨s', rfl, hw⟩ := hw
    exact Sim.abs_sub_mean_le fun a => ih _ l _ q s' n (hw _)
  | request x next ih =>
    intro l r q s n hw
    obtain ⟨n', rfl, hw⟩ := hw
    refine (h.alike x l _ _ (n' * δ) (fun l' π => Sim.watcher01 h.range (next π) l' r) fun l' π =>
      ih π l' r q s n' (hw π)).trans (le_of_eq ?_)
    push_cast
    ring

end Code

/-- What `SignalUser::show` does for the user at each place. -/
def Spec.shows {sp : SystemParameters G} {J : Type} (who : J → Spec.AnyHolder sp) (j : J) :
    Spec.Program (SignalCredentialPresentation G) :=
  Spec.Program.show sp ((who j).1.2.val • sp.h) (who j).2.credential (who j).2.m (who j).2.ros

theorem Code.shows_advantage {sp : SystemParameters G} (hh : sp.h ≠ 0) {J : Type} (who : J → Spec.AnyHolder sp)
    (A : Spec.Watcher J fun _ => SignalCredentialPresentation G) (q t n : ℕ) (hA : A.Within q t n) :
    |A.yesRun (Spec.shows who) [] [] - A.yes (Spec.simulates who) [] []| ≤
      2 * n * (q + 2 * n) / ell + 9 * n / 2 ^ 259 + 3 * n * (2 * t + 8 * n + 3) / 2 ^ 256 := by
  obtain ⟨O⟩ : Nonempty Oracle := ⟨⟨fun _ _ n => List.replicate n 0, by simp, fun _ _ _ _ n => List.replicate n 0,
    by simp⟩⟩
  have h1 := Sim.watcher_advantage (Spec.shows who)
    (fun x => (C88_show_distinct _ _ _ _ _).1) (fun x => (C88_show_distinct _ _ _ _ _).2) A hA
  have e : (fun j l k => (Spec.shows who j).ideal l k) =
      fun j => Spec.drawnShow O sp (who j).1.1 (who j).1.2 (who j).2 := by
    funext j l k
    exact Code.show_ideal O (who j).2 l k
  rw [e] at h1
  have h2 : |A.yes (fun j => Spec.drawnShow O sp (who j).1.1 (who j).1.2 (who j).2) [] [] -
      A.yes (Spec.presents O who) [] []| ≤ n * (9 * Coins.bias) :=
    Code.alike_watcher (mul_nonneg (by norm_num) Coins.bias_nonneg)
      ⟨fun j => (Coins.show_alike O sp _ _).range (who j).2,
        fun j => (Coins.show_alike O sp _ _).alike (who j).2⟩ A [] [] q t n hA
  rw [Coins.scale] at h2
  have h3 := Sim.watcher_close (Tagging.presents_close O hh who) A [] [] q t n hA
  rw [List.length_nil] at h3
  rw [abs_le] at h1 h2 h3 ⊢
  push_cast at h1 h3
  have e1 : (2 * n * (q + 2 * n) / ell : ℚ) = n * 2 * (0 + q + 2 * n) / ell := by ring
  have e2 : (3 * n * (2 * t + 8 * n + 3) / 2 ^ 256 : ℚ) = n * 3 * (2 * t + 8 * n + 3) / 2 ^ 256 := by ring
  rw [e1, e2]
  constructor <;> linarith [h1.1, h1.2, h2.1, h2.2, h3.1, h3.2]

/-- C88: what `SignalUser::show` sends shows the issuer nothing that it could not have made itself: C82 for the
code as it is. The observer has the issuer's keys, chooses who presents, with which credentials and roster entries,
asks the hash at most `q` times, reads transcript generators at most `t` times, with keys of its choice, and sees at
most `n` presentations. -/
theorem C88_presentation (sp : SystemParameters G) (hh : sp.h ≠ 0) (x0 x1 : Scalar)
    (A : Spec.Watcher (Spec.Holder sp x0 x1) fun _ => SignalCredentialPresentation G) (q t n : ℕ)
    (hA : A.Within q t n) :
    |A.yesRun (fun x => Spec.Program.show sp (x1.val • sp.h) x.credential x.m x.ros) [] [] -
      A.yes (Spec.simulatedShow sp x0 x1) [] []| ≤
      2 * n * (q + 2 * n) / ell + 9 * n / 2 ^ 259 + 3 * n * (2 * t + 8 * n + 3) / 2 ^ 256 :=
  Code.shows_advantage hh (fun x : Spec.Holder sp x0 x1 => ⟨(x0, x1), x⟩) A q t n hA

/-- An observer that reads a generator, lets a user with the number 7 present, and hashes a guess. -/
example : ∃ A : Spec.Watcher (Spec.Holder (⟨1, 2⟩ : SystemParameters F) ⟨3, by decide⟩ ⟨5, by decide⟩)
    fun _ => SignalCredentialPresentation F, A.Within 1 1 1 ∧ (⟨1, 2⟩ : SystemParameters F).h ≠ 0 :=
  ⟨.read ⟨[.init "AEONFLUX SHOW"], [], List.replicate 32 0, 0⟩ fun a =>
    .request ⟨⟨⟨2, 76⟩, []⟩, ⟨7, by decide⟩, ⟨16, ⟨2, by decide⟩⟩, by
      simp only [Spec.MacValid, Spec.macFactor, List.map]; decide +kernel, by decide +kernel,
      by decide +kernel⟩ fun p => .ask [.init "SIGNAL GROUP MEMBERSHIP"] fun c =>
        .done (decide (p.presentation.rerandomizedNonce = Spec.coin a.1 + Spec.coin c.1)),
    ⟨0, rfl, fun _ => ⟨0, rfl, fun _ => ⟨0, rfl, fun _ => trivial⟩⟩⟩, by decide +kernel⟩

/-- C88: presentations of different people look alike to the issuer: if two populations have valid credentials under
keys that agree place by place, and the same roster commitments, then no observer can tell which of them runs
`SignalUser::show`, except with the given advantage. -/
theorem C88_unlinkable {sp : SystemParameters G} (hh : sp.h ≠ 0) {J : Type}
    (who who' : J → Spec.AnyHolder sp) (hk : ∀ j, (who j).1 = (who' j).1)
    (hD : ∀ j, (who j).2.ros.commitment = (who' j).2.ros.commitment)
    (A : Spec.Watcher J fun _ => SignalCredentialPresentation G) (q t n : ℕ) (hA : A.Within q t n) :
    |A.yesRun (Spec.shows who) [] [] - A.yesRun (Spec.shows who') [] []| ≤
      4 * n * (q + 2 * n) / ell + 18 * n / 2 ^ 259 + 6 * n * (2 * t + 8 * n + 3) / 2 ^ 256 := by
  have h1 := Code.shows_advantage hh who A q t n hA
  have h2 := Code.shows_advantage hh who' A q t n hA
  have e : Spec.simulates who = Spec.simulates who' := by
    funext j
    unfold Spec.simulates
    rw [hD, hk]
  rw [e] at h1
  rw [abs_sub_comm] at h2
  refine (abs_sub_le _ (A.yes (Spec.simulates who') [] []) _).trans ((add_le_add h1 h2).trans (le_of_eq ?_))
  ring

/-- Two people with different phone numbers and the same fitting keys and roster commitment. -/
example : ∃ (who who' : Unit → Spec.AnyHolder (⟨1, 2⟩ : SystemParameters F)),
    (∀ j, (who j).1 = (who' j).1) ∧ (∀ j, (who j).2.ros.commitment = (who' j).2.ros.commitment) ∧
    ∀ j, (who j).2.m ≠ (who' j).2.m :=
  ⟨fun _ => ⟨(⟨3, by decide⟩, ⟨5, by decide⟩),
    ⟨⟨⟨2, 76⟩, []⟩, ⟨7, by decide⟩, ⟨16, ⟨2, by decide⟩⟩, by
      simp only [Spec.MacValid, Spec.macFactor, List.map]; decide +kernel, by decide +kernel,
      by decide +kernel⟩⟩,
    fun _ => ⟨(⟨3, by decide⟩, ⟨5, by decide⟩),
    ⟨⟨⟨2, 56⟩, []⟩, ⟨5, by decide⟩, ⟨16, ⟨6, by decide⟩⟩, by
      simp only [Spec.MacValid, Spec.macFactor, List.map]; decide +kernel, by decide +kernel,
      by decide +kernel⟩⟩, fun _ => rfl, fun _ => rfl,
    fun _ h => absurd (congrArg Scalar.n h) (by decide : (7 : ℕ) ≠ 5)⟩

/-- C88: C83 for the code as it is. -/
theorem C88_issuance (sp : SystemParameters G) (hh : sp.h ≠ 0) (x0 x1 : Scalar)
    (A : Spec.Watcher Scalar fun _ => CredentialIssuance G) (q t n : ℕ) (hA : A.Within q t n) :
    |A.yesRun (fun m => Spec.Program.issue sp x0 x1 m) [] [] -
      A.yes (Spec.simulatedIssue sp (x1.val • sp.h) fun m b =>
        ⟨b • basepoint G, (x0.val + x1.val * m.val) • (b • basepoint G)⟩) [] []| ≤
      n * (q + n) / ell + 6 * n / 2 ^ 259 + 2 * n * (2 * t + 6 * n + 2) / 2 ^ 256 := by
  obtain ⟨O⟩ : Nonempty Oracle := ⟨⟨fun _ _ n => List.replicate n 0, by simp, fun _ _ _ _ n => List.replicate n 0,
    by simp⟩⟩
  have h1 := Sim.watcher_advantage (fun m : Scalar => Spec.Program.issue sp x0 x1 m)
    (fun x => (C88_issue_distinct _ _ _ _).1) (fun x => (C88_issue_distinct _ _ _ _).2) A hA
  have e : (fun (m : Scalar) l k => (Spec.Program.issue sp x0 x1 m).ideal l k) = Spec.drawnIssue O sp x0 x1 := by
    funext x l k
    exact Code.issue_ideal O sp x0 x1 x l k
  rw [e] at h1
  have h2 := Code.alike_watcher (mul_nonneg (by norm_num) Coins.bias_nonneg) (Coins.issue_alike O sp x0 x1) A
    [] [] q t n hA
  rw [Coins.scale] at h2
  have h3 := Sim.watcher_close (Sim.issue_close O sp hh x0 x1) A [] [] q t n hA
  rw [List.length_nil] at h3
  rw [abs_le] at h1 h2 h3 ⊢
  push_cast at h1 h3
  have e1 : (n * (q + n) / ell : ℚ) = n * 1 * (0 + q + 1 * n) / ell := by ring
  have e2 : (2 * n * (2 * t + 6 * n + 2) / 2 ^ 256 : ℚ) = n * 2 * (2 * t + 6 * n + 2) / 2 ^ 256 := by ring
  rw [e1, e2]
  constructor <;> linarith [h1.1, h1.2, h2.1, h2.2, h3.1, h3.2]

/-- An observer that gets the number 7 issued, reads a generator and looks at the key commitment. -/
example : (⟨1, 2⟩ : SystemParameters F).h ≠ 0 ∧
    Spec.Watcher.Within (.request ⟨7, by decide⟩ fun c =>
      .read ⟨[.init "AEONFLUX ISSUANCE"], [], List.replicate 32 0, 1⟩ fun a =>
        .done (decide (c.secretKeyCommitment = Spec.coin a.1)) :
      Spec.Watcher Scalar fun _ => CredentialIssuance F) 0 1 1 :=
  ⟨by decide +kernel, 0, rfl, fun _ => ⟨0, rfl, fun _ => trivial⟩⟩

end Verif
