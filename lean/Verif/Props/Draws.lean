import Verif.Model.Signal
import Verif.Toy

/-!
# What is drawn from the caller's generator (C67)

Every operation that takes a generator is described by the list of reads it makes: how many bytes,
in which order, which value each read becomes, and that the caller's generator is left exactly after
these reads.
-/

set_option maxRecDepth 100000

namespace Verif

variable {G : Type} [AddCommGroup G] [Module F G] [Ristretto G] {R : Type} [RngCore R]

/-- Successive reads of the given lengths: the bytes, and the generator afterwards. -/
def Spec.reads : List ℕ → R → List Bytes × R
  | [], r => ([], r)
  | n :: ns, r =>
    ((RngCore.fill r n).1 :: (reads ns (RngCore.fill r n).2).1, (reads ns (RngCore.fill r n).2).2)

/-- A 64-byte read as a scalar. -/
def Spec.wide (b : Bytes) : Scalar := Scalar.ofF (leVal b : F)

/-- Reads of two consecutive operations are consecutive. -/
theorem C67_append (a b : List ℕ) (r : R) :
    Spec.reads (a ++ b) r =
      ((Spec.reads a r).1 ++ (Spec.reads b (Spec.reads a r).2).1, (Spec.reads b (Spec.reads a r).2).2) := by
  induction a generalizing r with
  | nil => rfl
  | cons n ns ih => simp [Spec.reads, ih]

theorem randomScalars_eq (n : ℕ) (r : R) :
    Amacs.randomScalars n r =
      ((Spec.reads (List.replicate n 64) r).1.map Spec.wide, (Spec.reads (List.replicate n 64) r).2) := by
  induction n generalizing r with
  | zero => rfl
  | succ n ih =>
    rw [Amacs.randomScalars, List.replicate_succ]
    simp only [ih, Spec.reads, List.map_cons]
    rfl

/-- `SecretKey::new(n)`: `n + 1` reads of 64 bytes, `x0` first. -/
theorem C67_secret_key (n : ℕ) (r : R) :
    let d := Spec.reads (List.replicate (n + 1) 64) r
    let k := Amacs.SecretKey.new n r
    k.1.x0 :: k.1.xn = d.1.map Spec.wide ∧ k.2 = d.2 := by
  simp only [Amacs.SecretKey.new, randomScalars_eq, List.replicate_succ, Spec.reads, List.map_cons]
  exact ⟨rfl, rfl⟩

omit [Ristretto G] in
/-- `Issuer::create` and `SignalIssuer::create`: two reads of 64 bytes, `x0` then `x1`. -/
theorem C67_issuer_create (sp : SystemParameters G) (r : R) :
    let d := Spec.reads [64, 64] r
    let i := Issuer.create sp r
    i.1.keypair.secretKey.x0 :: i.1.keypair.secretKey.xn = d.1.map Spec.wide ∧ i.2 = d.2 ∧
      SignalIssuer.create sp r = (⟨i.1⟩, d.2) := ⟨rfl, rfl, rfl⟩

/-- `Nonces::new(n)`: `n` reads of 64 bytes. -/
theorem C67_nonces (n : ℕ) (r : R) :
    Nonces.new r n =
      ((Spec.reads (List.replicate n 64) r).1.map Spec.wide, (Spec.reads (List.replicate n 64) r).2) := by
  induction n generalizing r with
  | zero => rfl
  | succ n ih =>
    rw [Nonces.new, List.replicate_succ]
    simp only [ih, Spec.reads, List.map_cons]
    rfl

/-- `elgamal::Keypair::generate`: one read. -/
theorem C67_elgamal (r : R) :
    let d := Spec.reads [64] r
    let k := Elgamal.Keypair.generate (G := G) r
    [k.1.secretKey] = d.1.map Spec.wide ∧ k.2 = d.2 := ⟨rfl, rfl⟩

omit [Ristretto G] in
/-- `RosterEntryCommitment::create`: one read, the opening, made even when the number is rejected. -/
theorem C67_roster (number : Bytes) (sp : SystemParameters G) (r : R) :
    let d := Spec.reads [64] r
    let e := RosterEntryCommitment.create number sp r
    e.2 = d.2 ∧ ∀ c, e.1 = .ok c → [c.opening] = d.1.map Spec.wide := by
  refine ⟨rfl, fun c h => ?_⟩
  simp only [RosterEntryCommitment.create] at h
  obtain ⟨m, -, h⟩ := Res.bind_eq_ok.mp h
  cases h
  rfl

/-- `SecretKey::mac` on its own: one read, unless the message has the wrong length. -/
theorem C67_mac (k : Amacs.SecretKey) (message : List Scalar) (r : R) :
    let d := Spec.reads [64] r
    let t := k.mac (G := G) message r
    (message.length = k.xn.length → t.2 = d.2) ∧ (message.length ≠ k.xn.length → t.2 = r) ∧
      ∀ tag, t.1 = .ok tag → [tag.nonce] = (d.1.map Spec.wide).map (· • basepoint G) := by
  refine ⟨fun h => ?_, fun h => ?_, fun tag h => ?_⟩
  · rw [Amacs.SecretKey.mac, if_neg (by simp [h])]
    rfl
  · rw [Amacs.SecretKey.mac, if_pos (Ne.symm h)]
  · rw [Amacs.SecretKey.mac] at h
    split at h
    · cases h
    · cases h
      rfl

/-- `Issuer::issue` with a usable key: one read of 32 bytes, from which the transcript generator is
keyed; its first 64 bytes are the MAC nonce, the next 64 the opening of the key commitment. -/
theorem C67_issue (O : Oracle) (i : Issuer G) (request : CredentialRequest) (r : R) (entropy : Bytes) :
    let e := (RngCore.fill r 32).1
    let res := i.issue O request r entropy
    (i.keypair.publicKey.Xn ≠ [] → i.keypair.secretKey.xn ≠ [] → res.2 = (Spec.reads [32] r).2) ∧
    (i.keypair.publicKey.Xn = [] ∨ i.keypair.secretKey.xn = [] → res.2 = r) ∧
    ∀ iss, res.1 = .ok iss →
      iss.credential.mac.nonce =
        Spec.wide (O.rng [.init "AEONFLUX ISSUANCE"] [] e [] 64) • basepoint G ∧
      iss.secretKeyCommitment = i.keypair.secretKey.x0 • i.systemParameters.g +
        Spec.wide (O.rng [.init "AEONFLUX ISSUANCE"] [] e [64] 64) • i.systemParameters.h := by
  obtain ⟨sp, ⟨⟨Xn⟩, ⟨x0, xn⟩⟩⟩ := i
  cases Xn with
  | nil => exact ⟨fun h => absurd rfl h, fun _ => rfl, fun _ h => by cases h⟩
  | cons X1 Xs =>
    cases xn with
    | nil => exact ⟨fun _ h => absurd rfl h, fun _ => rfl, fun _ h => by cases h⟩
    | cons x1 xs =>
      refine ⟨fun _ _ => rfl, (by rintro (h | h) <;> cases h), fun iss h => ?_⟩
      simp only [Issuer.issue, List.getElem?_cons_zero] at h
      obtain ⟨tag, ht, h⟩ := Res.bind_eq_ok.mp h
      obtain ⟨m0, hm, h⟩ := Res.bind_eq_ok.mp h
      cases h
      rw [Amacs.SecretKey.mac] at ht ⊢
      split at ht
      · cases ht
      · rename_i hl
        cases ht
        rw [if_neg hl]
        exact ⟨rfl, rfl⟩

/-- `SignalIssuer::issue` reads as `Issuer::issue` when the number is accepted, and not at all
otherwise. -/
theorem C67_signal_issue (O : Oracle) (i : SignalIssuer G) (number : Bytes) (r : R) (entropy : Bytes) :
    (∀ m, PhoneNumber.tryFromBytes number = .ok m →
      i.issue O number r entropy = i.issuer.issue O ⟨[m]⟩ r entropy) ∧
    ((∀ m, PhoneNumber.tryFromBytes number ≠ .ok m) → (i.issue O number r entropy).2 = r) := by
  constructor
  · intro m h
    simp [SignalIssuer.issue, h, Res.mapErr]
  · intro h
    rw [SignalIssuer.issue]
    cases hm : PhoneNumber.tryFromBytes number with
    | ok m => exact absurd hm (h m)
    | err e => rfl
    | panic => rfl

/-- `User::show` with a credential: one read of 32 bytes, from which the transcript generator is
keyed; its first 64 bytes rerandomise the MAC, the next 64 blind it. -/
theorem C67_show (O : Oracle) (u : User G) (nonces : List Scalar) (r : R) (entropy : Bytes) :
    let e := (RngCore.fill r 32).1
    let res := u.show O nonces r entropy
    (u.credential = none → res.2 = r) ∧
    ∀ c, u.credential = some c → res.2 = (Spec.reads [32] r).2 ∧
      ∀ p, res.1 = .ok p →
        p.rerandomizedNonce = Spec.wide (O.rng [.init "AEONFLUX SHOW"] [] e [] 64) • c.mac.nonce ∧
        p.rerandomizedMacCommitment =
          Spec.wide (O.rng [.init "AEONFLUX SHOW"] [] e [] 64) • c.mac.mac +
          Spec.wide (O.rng [.init "AEONFLUX SHOW"] [] e [64] 64) • u.systemParameters.h := by
  obtain ⟨sp, ip, k, c⟩ := u
  cases c with
  | none => exact ⟨fun _ => rfl, fun _ h => by cases h⟩
  | some c =>
    refine ⟨(fun h => by cases h), fun c' hc => ?_⟩
    cases hc
    refine ⟨rfl, fun p h => ?_⟩
    simp only [User.show] at h
    obtain ⟨V0, -, h⟩ := Res.bind_eq_ok.mp h
    obtain ⟨m0, -, h⟩ := Res.bind_eq_ok.mp h
    obtain ⟨z0, -, h⟩ := Res.bind_eq_ok.mp h
    obtain ⟨X0, -, h⟩ := Res.bind_eq_ok.mp h
    obtain ⟨Cm0, -, h⟩ := Res.bind_eq_ok.mp h
    cases h
    exact ⟨rfl, rfl⟩

/-- `SignalUser::show` with a credential: a read of 64 bytes for the attribute nonce, then the read of
`User::show`; the presentation inside is that of `User::show` from the generator after the first read. -/
theorem C67_signal_show (O : Oracle) (u : SignalUser G) (r : R) (roster : RosterEntryCommitment G)
    (e1 e2 : Bytes) :
    let d := Spec.reads [64] r
    let res := u.show O r roster e1 e2
    (u.user.credential = none → res.2 = r) ∧
    (u.user.credential ≠ none → res.2 = (Spec.reads [64, 32] r).2 ∧
      ∀ p, res.1 = .ok p →
        (u.user.show O (d.1.map Spec.wide) d.2 e1).1 = .ok p.presentation) := by
  obtain ⟨number, ⟨sp, ip, k, c⟩⟩ := u
  cases c with
  | none => exact ⟨fun _ => rfl, fun h => absurd rfl h⟩
  | some c =>
    refine ⟨(fun h => by cases h), fun _ => ⟨rfl, fun p h => ?_⟩⟩
    simp only [SignalUser.show] at h
    obtain ⟨q, hq, h⟩ := Res.bind_eq_ok.mp h
    obtain ⟨m0, -, h⟩ := Res.bind_eq_ok.mp h
    obtain ⟨z0, -, h⟩ := Res.bind_eq_ok.mp h
    obtain ⟨Cm0, -, h⟩ := Res.bind_eq_ok.mp h
    cases h
    exact hq

section Examples

/-- The issuer of the examples; its key comes from two reads. -/
def drawIssuer : Issuer F := (Issuer.create ⟨1, 2⟩ (⟨0⟩ : ToyRng)).1

/-- Its key lists are not empty and an issuance succeeds, so both cases of `C67_issue` apply. -/
example : drawIssuer.keypair.publicKey.Xn ≠ [] ∧ drawIssuer.keypair.secretKey.xn ≠ [] ∧
    ∃ iss, (drawIssuer.issue toyOracle ⟨[1]⟩ (⟨0⟩ : ToyRng) []).1 = .ok iss :=
  ⟨(fun h => by cases h), (fun h => by cases h), _, rfl⟩

/-- A user with a credential, as `C67_show` asks. -/
def drawUser : User F :=
  { systemParameters := ⟨1, 2⟩, issuerParameters := ⟨[1]⟩, key := none,
    credential := some ⟨⟨1, 1⟩, [1]⟩ }

example : ∃ c, drawUser.credential = some c ∧
    ∃ p, (drawUser.show toyOracle [1] (⟨0⟩ : ToyRng) []).1 = .ok p := ⟨_, rfl, _, rfl⟩

/-- `SignalUser::show` succeeds for such a user. -/
example : ∃ p, ((⟨1, drawUser⟩ : SignalUser F).show toyOracle (⟨0⟩ : ToyRng)
    ⟨1, 1⟩ [] []).1 = .ok p := ⟨_, rfl⟩

/-- A number that is accepted and one that is not, for `C67_signal_issue` and `C67_roster`. -/
example : (∃ m, PhoneNumber.tryFromBytes [1, 2, 3] = .ok m) ∧
    ∀ m, PhoneNumber.tryFromBytes (List.replicate 40 1) ≠ .ok m := ⟨⟨_, rfl⟩, (fun _ h => by cases h)⟩

end Examples

end Verif
