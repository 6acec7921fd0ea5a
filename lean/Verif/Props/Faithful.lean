import Verif.Props.Wasm
import Verif.Props.Swift
import Verif.Props.Soundness

/-!
# C77: the C, JavaScript and Swift interfaces do what the library does on the decoded arguments
-/

set_option maxRecDepth 100000

namespace Verif

open Amacs

/-! ## Specification -/

/-- What can be asked of the library over an interface, with the arguments as byte strings. -/
inductive Spec.Request where
  | systemParameters (seed : Bytes)
  | keypair (params seed : Bytes)
  | issuer (params keypair : Bytes)
  | issuerParameters (issuer : Bytes)
  | issuance (issuer number seed entropy : Bytes)
  | verified (issuer presentation : Bytes)
  | membership (issuer verified : Bytes)
  | user (number params issuerParams issuance : Bytes)
  | presentation (user entry seed entropy1 entropy2 : Bytes)
  | rosterEntry (number params seed : Bytes)
  | commitment (entry : Bytes)

section

variable (G : Type) [AddCommGroup G] [Module F G] [Ristretto G]
variable (R : Type) [SeedableRng R] (O : Oracle) (checks : Bool) (fuel : ℕ)

/-- The library answers the request with the value that has the serialised form `b`: all arguments
decode, and the operation succeeds. -/
def Spec.Answers : Spec.Request → Bytes → Prop
  | .systemParameters seed, b => seed.length = 32 ∧ ∃ (sp : SystemParameters G) (r : R),
      SystemParameters.huntAndPeck fuel (SeedableRng.fromSeed seed) = some (sp, r) ∧ b = sp.toBytes
  | .keypair params seed, b => seed.length = 32 ∧ ∃ sp : SystemParameters G,
      SystemParameters.fromBytes params = .ok sp ∧
      b = (SignalIssuer.create sp (SeedableRng.fromSeed seed : R)).1.issuer.keypair.toBytes
  | .issuer params keypair, b => ∃ (sp : SystemParameters G) (k : Keypair G),
      SystemParameters.fromBytes params = .ok sp ∧ Keypair.fromBytes checks keypair = .ok k ∧
      b = sp.toBytes ++ k.toBytes
  | .issuerParameters issuer, b => ∃ i : SignalIssuer G, SignalIssuer.fromBytes checks issuer = .ok i ∧
      b = i.issuer.keypair.publicKey.toBytes
  | .issuance issuer number seed entropy, b => seed.length = 32 ∧
      ∃ (i : SignalIssuer G) (c : CredentialIssuance G), SignalIssuer.fromBytes checks issuer = .ok i ∧
      (i.issue O number (SeedableRng.fromSeed seed : R) entropy).1 = .ok c ∧ b = c.toBytes
  | .verified issuer presentation, b => ∃ (i : SignalIssuer G) (p : SignalCredentialPresentation G),
      SignalIssuer.fromBytes checks issuer = .ok i ∧
      SignalCredentialPresentation.fromBytes presentation = .ok p ∧
      i.issuer.verify O p.presentation = .ok ⟨p.presentation⟩ ∧ b = p.toBytes
  | .membership issuer verified, b => ∃ (i : SignalIssuer G) (v : SignalCredentialPresentation G),
      SignalIssuer.fromBytes checks issuer = .ok i ∧
      SignalCredentialPresentation.fromBytes verified = .ok v ∧
      i.verifyRosterMembership O ⟨v⟩ = .ok v.rosterEntryCommitment ∧
      b = enc v.rosterEntryCommitment
  | .user number params issuerParams issuance, b =>
      ∃ (sp : SystemParameters G) (ip : PublicKey G) (c : CredentialIssuance G) (u : SignalUser G),
      SystemParameters.fromBytes params = .ok sp ∧ PublicKey.fromBytes issuerParams = .ok ip ∧
      CredentialIssuance.fromBytes issuance = .ok c ∧ SignalUser.new sp ip none number = .ok u ∧
      (u.obtainFinish O (some c)).1 = .ok () ∧ b = (u.obtainFinish O (some c)).2.toBytes
  | .presentation user entry seed entropy1 entropy2, b => seed.length = 32 ∧
      ∃ (u : SignalUser G) (r : RosterEntryCommitment G) (p : SignalCredentialPresentation G),
      SignalUser.fromBytes user = .ok u ∧ RosterEntryCommitment.fromBytes entry = .ok r ∧
      (u.show O (SeedableRng.fromSeed seed : R) r entropy1 entropy2).1 = .ok p ∧ b = p.toBytes
  | .rosterEntry number params seed, b => seed.length = 32 ∧
      ∃ (sp : SystemParameters G) (r : RosterEntryCommitment G),
      SystemParameters.fromBytes params = .ok sp ∧
      (RosterEntryCommitment.create number sp (SeedableRng.fromSeed seed : R)).1 = .ok r ∧
      b = r.toBytes
  | .commitment entry, b => ∃ r : RosterEntryCommitment G, RosterEntryCommitment.fromBytes entry = .ok r ∧
      b = enc r.commitment

end

/-- The request made by a call of the C interface: what the pointers denote. -/
inductive Spec.Asks (P : Ffi.Platform) (m : Mem) : Ffi.Call → Spec.Request → Prop
  | systemParameters {s seed} (hs : Spec.SeedAt m s seed) :
      Asks P m (.systemParametersCreate s) (.systemParameters seed)
  | keypair {p pl params s seed} (hp : Spec.Denotes P m p pl params) (hs : Spec.SeedAt m s seed) :
      Asks P m (.issuerCreate p pl s) (.keypair params seed)
  | issuer {p pl params k kl keypair} (hp : Spec.Denotes P m p pl params)
      (hk : Spec.Denotes P m k kl keypair) : Asks P m (.issuerNew p pl k kl) (.issuer params keypair)
  | issuerParameters {i il issuer} (hi : Spec.Denotes P m i il issuer) :
      Asks P m (.issuerGetIssuerParameters i il) (.issuerParameters issuer)
  | issuance {i il issuer n nl number s seed entropy} (hi : Spec.Denotes P m i il issuer)
      (hn : Spec.Denotes P m n nl number) (hs : Spec.SeedAt m s seed) :
      Asks P m (.issuerIssue i il n nl s entropy) (.issuance issuer number seed entropy)
  | verified {i il issuer p pl presentation} (hi : Spec.Denotes P m i il issuer)
      (hp : Spec.Denotes P m p pl presentation) :
      Asks P m (.issuerVerify i il p pl) (.verified issuer presentation)
  | membership {i il issuer v vl verified} (hi : Spec.Denotes P m i il issuer)
      (hv : Spec.Denotes P m v vl verified) :
      Asks P m (.issuerVerifyRosterMembership i il v vl) (.membership issuer verified)
  | user {n nl number p pl params j jl issuerParams i il issuance}
      (hn : Spec.Denotes P m n nl number) (hp : Spec.Denotes P m p pl params)
      (hj : Spec.Denotes P m j jl issuerParams) (hi : Spec.Denotes P m i il issuance) :
      Asks P m (.userObtainFinish n nl p pl j jl i il) (.user number params issuerParams issuance)
  | presentation {u ul user e el entry s seed e1 e2} (hu : Spec.Denotes P m u ul user)
      (he : Spec.Denotes P m e el entry) (hs : Spec.SeedAt m s seed) :
      Asks P m (.userShow u ul e el s e1 e2) (.presentation user entry seed e1 e2)
  | rosterEntry {n nl number p pl params s seed} (hn : Spec.Denotes P m n nl number)
      (hp : Spec.Denotes P m p pl params) (hs : Spec.SeedAt m s seed) :
      Asks P m (.rosterEntryCommitmentCreate n nl p pl s) (.rosterEntry number params seed)
  | commitment {e el entry} (he : Spec.Denotes P m e el entry) :
      Asks P m (.rosterEntryCommitmentRemoveOpening e el) (.commitment entry)

/-- The request made by a call of the JavaScript interface, where serialised values are strings. -/
inductive Spec.AsksJs : Wasm.Call → Spec.Request → Prop
  | systemParameters {seed} : AsksJs (.systemParametersCreate seed) (.systemParameters seed)
  | keypair {params seed} :
      AsksJs (.issuerCreate (.str params) seed) (.keypair (Spec.utf8 params) seed)
  | issuer {params keypair} : AsksJs (.issuerNew (.str params) (.str keypair))
      (.issuer (Spec.utf8 params) (Spec.utf8 keypair))
  | issuerParameters {issuer} :
      AsksJs (.issuerGetIssuerParameters (.str issuer)) (.issuerParameters (Spec.utf8 issuer))
  | issuance {issuer number seed entropy} : AsksJs (.issuerIssue (.str issuer) number seed entropy)
      (.issuance (Spec.utf8 issuer) number seed entropy)
  | verified {issuer presentation} : AsksJs (.issuerVerify (.str issuer) (.str presentation))
      (.verified (Spec.utf8 issuer) (Spec.utf8 presentation))
  | membership {issuer verified} :
      AsksJs (.issuerVerifyRosterMembership (.str issuer) (.str verified))
        (.membership (Spec.utf8 issuer) (Spec.utf8 verified))
  | user {number params issuerParams issuance} :
      AsksJs (.userObtainFinish number (.str params) (.str issuerParams) (.str issuance))
        (.user number (Spec.utf8 params) (Spec.utf8 issuerParams) (Spec.utf8 issuance))
  | presentation {user entry seed e1 e2} : AsksJs (.userShow (.str user) (.str entry) seed e1 e2)
      (.presentation (Spec.utf8 user) (Spec.utf8 entry) seed e1 e2)

/-! ## Lemmas -/

variable {G : Type} [AddCommGroup G] [Module F G] [Ristretto G]

theorem signal_verify_iff {O : Oracle} {i : SignalIssuer G} {p : SignalCredentialPresentation G}
    {v : VerifiedSignalCredential G} :
    i.verify O p = .ok v ↔ v = ⟨p⟩ ∧ i.issuer.verify O p.presentation = .ok ⟨p.presentation⟩ := by
  constructor
  · exact C45_verify_partial
  · rintro ⟨rfl, h⟩
    simp only [SignalIssuer.verify, h, Res.ok_bind]

theorem membership_iff {O : Oracle} {i : SignalIssuer G} {v : VerifiedSignalCredential G} {C : G} :
    i.verifyRosterMembership O v = .ok C ↔ C = v.inner.rosterEntryCommitment ∧
      i.verifyRosterMembership O v = .ok v.inner.rosterEntryCommitment := by
  constructor
  · intro h
    have : C = v.inner.rosterEntryCommitment := by
      simp only [SignalIssuer.verifyRosterMembership, Res.bind_eq_ok] at h
      obtain ⟨_, _, h⟩ := h
      split at h
      · cases h
        rfl
      · cases h
    exact ⟨this, this ▸ h⟩
  · rintro ⟨rfl, h⟩
    exact h

theorem verified_fromBytes_iff {b : Bytes} {v : VerifiedSignalCredential G} :
    VerifiedSignalCredential.fromBytes b = .ok v ↔
      SignalCredentialPresentation.fromBytes b = .ok v.inner := by
  simp only [VerifiedSignalCredential.fromBytes, Res.bind_eq_ok, Res.ok.injEq]
  constructor
  · rintro ⟨p, h, rfl⟩
    exact h
  · intro h
    exact ⟨_, h, rfl⟩

variable {R : Type} [SeedableRng R] {O : Oracle} {P : Ffi.Platform} {fuel : ℕ} {m : Mem}

theorem wasm_seed_iff {seed : Bytes} {r : R} : Wasm.csprngFromSeed seed = .ok r ↔
    seed.length = 32 ∧ r = SeedableRng.fromSeed seed := by
  rw [Wasm.csprngFromSeed]
  split <;> simp_all [eq_comm]

omit [Ristretto G] in
theorem wasm_orReturn {ε α : Type} {x : Res ε α} {a : α} :
    Wasm.okOrReturn x = .ok a ↔ x = .ok a := Res.mapErr_eq_ok

/-- Every C function but the last is a computation, that gives bytes exactly if the library does,
followed by `finish`. -/
theorem c_computes [DecidableEq G] (c : Ffi.Call) (hc : ¬ Spec.IsOpen c) :
    ∃ x : Res Ffi.Exit Bytes, c.run G R O P fuel m = Ffi.finish P m x ∧
      ∀ b, x = .ok b ↔ ∃ q, Spec.Asks P m c q ∧ Spec.Answers G R O P.checks fuel q b := by
  cases c with
  | systemParametersCreate s =>
    refine ⟨_, rfl, fun b => ⟨fun h => ?_, ?_⟩⟩
    · obtain ⟨r, hr, h⟩ := Res.bind_eq_ok.1 h
      obtain ⟨seed, hs, rfl⟩ := seed_ok_iff.1 hr
      refine ⟨_, .systemParameters hs, hs.2.1, ?_⟩
      split at h
      · cases h
      · rename_i p r' hp
        cases h
        exact ⟨p, r', hp, rfl⟩
    · rintro ⟨_, hq, ha⟩
      cases hq with
      | systemParameters hs =>
        obtain ⟨_, sp, r, h, rfl⟩ := ha
        simp only [Ffi.systemParametersCreateBody, seed_ok_iff.2 ⟨_, hs, rfl⟩, Res.ok_bind, h]
  | issuerCreate p pl s =>
    refine ⟨_, rfl, fun b => ?_⟩
    simp only [Ffi.issuerCreateBody, Res.bind_eq_ok, okOrReturn_eq_ok, seed_ok_iff, slice_ok_iff,
      Res.ok.injEq]
    constructor
    · rintro ⟨_, ⟨seed, hs, rfl⟩, _, hp, sp, h, rfl⟩
      exact ⟨_, .keypair hp hs, hs.2.1, sp, h, rfl⟩
    · rintro ⟨_, hq, ha⟩
      cases hq with
      | keypair hp hs =>
        obtain ⟨_, sp, h, rfl⟩ := ha
        exact ⟨_, ⟨_, hs, rfl⟩, _, hp, sp, h, rfl⟩
  | issuerNew p pl k kl =>
    refine ⟨_, rfl, fun b => ?_⟩
    simp only [Ffi.issuerNewBody, Res.bind_eq_ok, okOrReturn_eq_ok, slice_ok_iff, Res.ok.injEq]
    constructor
    · rintro ⟨_, hp, sp, h, _, hk, k, h', rfl⟩
      exact ⟨_, .issuer hp hk, sp, k, h, h', rfl⟩
    · rintro ⟨_, hq, ha⟩
      cases hq with
      | issuer hp hk =>
        obtain ⟨sp, k, h, h', rfl⟩ := ha
        exact ⟨_, hp, sp, h, _, hk, k, h', rfl⟩
  | issuerGetIssuerParameters i il =>
    refine ⟨_, rfl, fun b => ?_⟩
    simp only [Ffi.issuerGetIssuerParametersBody, Res.bind_eq_ok, okOrReturn_eq_ok, slice_ok_iff,
      Res.ok.injEq]
    constructor
    · rintro ⟨_, hi, i, h, rfl⟩
      exact ⟨_, .issuerParameters hi, i, h, rfl⟩
    · rintro ⟨_, hq, ha⟩
      cases hq with
      | issuerParameters hi =>
        obtain ⟨i, h, rfl⟩ := ha
        exact ⟨_, hi, i, h, rfl⟩
  | issuerIssue i il n nl s e =>
    refine ⟨_, rfl, fun b => ?_⟩
    simp only [Ffi.issuerIssueBody, Res.bind_eq_ok, okOrReturn_eq_ok, seed_ok_iff, slice_ok_iff,
      Res.ok.injEq]
    constructor
    · rintro ⟨_, hi, i, h, _, ⟨seed, hs, rfl⟩, _, hn, c, h', rfl⟩
      exact ⟨_, .issuance hi hn hs, hs.2.1, i, c, h, h', rfl⟩
    · rintro ⟨_, hq, ha⟩
      cases hq with
      | issuance hi hn hs =>
        obtain ⟨_, i, c, h, h', rfl⟩ := ha
        exact ⟨_, hi, i, h, _, ⟨_, hs, rfl⟩, _, hn, c, h', rfl⟩
  | issuerVerify i il p pl =>
    refine ⟨_, rfl, fun b => ?_⟩
    simp only [Ffi.issuerVerifyBody, Res.bind_eq_ok, okOrReturn_eq_ok, slice_ok_iff, Res.ok.injEq,
      signal_verify_iff]
    constructor
    · rintro ⟨_, hi, i, h, _, hp, p, h', _, ⟨rfl, hv⟩, rfl⟩
      exact ⟨_, .verified hi hp, i, p, h, h', hv, rfl⟩
    · rintro ⟨_, hq, ha⟩
      cases hq with
      | verified hi hp =>
        obtain ⟨i, p, h, h', hv, rfl⟩ := ha
        exact ⟨_, hi, i, h, _, hp, p, h', _, ⟨rfl, hv⟩, rfl⟩
  | issuerVerifyRosterMembership i il v vl =>
    refine ⟨_, rfl, fun b => ?_⟩
    simp only [Ffi.issuerVerifyRosterMembershipBody, Res.bind_eq_ok, okOrReturn_eq_ok, slice_ok_iff,
      Res.ok.injEq, verified_fromBytes_iff]
    constructor
    · rintro ⟨_, hi, i, h, _, hv, v, h', C, hC, rfl⟩
      obtain ⟨rfl, hC⟩ := membership_iff.1 hC
      exact ⟨_, .membership hi hv, i, v.inner, h, h', hC, rfl⟩
    · rintro ⟨_, hq, ha⟩
      cases hq with
      | membership hi hv =>
        obtain ⟨i, v, h, h', hC, rfl⟩ := ha
        exact ⟨_, hi, i, h, _, hv, ⟨v⟩, h', _, hC, rfl⟩
  | userObtainFinish n nl p pl j jl i il =>
    refine ⟨_, rfl, fun b => ?_⟩
    simp only [Ffi.userObtainFinishBody, Res.bind_eq_ok, okOrReturn_eq_ok, slice_ok_iff, Res.ok.injEq]
    constructor
    · rintro ⟨_, hp, sp, h1, _, hj, ip, h2, _, hi, c, h3, _, hn, u, h4, _, h5, rfl⟩
      exact ⟨_, .user hn hp hj hi, sp, ip, c, u, h1, h2, h3, h4, h5, rfl⟩
    · rintro ⟨_, hq, ha⟩
      cases hq with
      | user hn hp hj hi =>
        obtain ⟨sp, ip, c, u, h1, h2, h3, h4, h5, rfl⟩ := ha
        exact ⟨_, hp, sp, h1, _, hj, ip, h2, _, hi, c, h3, _, hn, u, h4, _, h5, rfl⟩
  | userShow u ul e el s e1 e2 =>
    refine ⟨_, rfl, fun b => ?_⟩
    simp only [Ffi.userShowBody, Res.bind_eq_ok, okOrReturn_eq_ok, seed_ok_iff, slice_ok_iff,
      Res.ok.injEq]
    constructor
    · rintro ⟨_, ⟨seed, hs, rfl⟩, _, hu, u, h1, _, he, r, h2, p, h3, rfl⟩
      exact ⟨_, .presentation hu he hs, hs.2.1, u, r, p, h1, h2, h3, rfl⟩
    · rintro ⟨_, hq, ha⟩
      cases hq with
      | presentation hu he hs =>
        obtain ⟨_, u, r, p, h1, h2, h3, rfl⟩ := ha
        exact ⟨_, ⟨_, hs, rfl⟩, _, hu, u, h1, _, he, r, h2, p, h3, rfl⟩
  | rosterEntryCommitmentCreate n nl p pl s =>
    refine ⟨_, rfl, fun b => ?_⟩
    simp only [Ffi.rosterEntryCommitmentCreateBody, Res.bind_eq_ok, okOrReturn_eq_ok, seed_ok_iff,
      slice_ok_iff, Res.ok.injEq]
    constructor
    · rintro ⟨_, ⟨seed, hs, rfl⟩, _, hn, _, hp, sp, h1, r, h2, rfl⟩
      exact ⟨_, .rosterEntry hn hp hs, hs.2.1, sp, r, h1, h2, rfl⟩
    · rintro ⟨_, hq, ha⟩
      cases hq with
      | rosterEntry hn hp hs =>
        obtain ⟨_, sp, r, h1, h2, rfl⟩ := ha
        exact ⟨_, ⟨_, hs, rfl⟩, _, hn, _, hp, sp, h1, r, h2, rfl⟩
  | rosterEntryCommitmentRemoveOpening e el =>
    refine ⟨_, rfl, fun b => ?_⟩
    simp only [Ffi.rosterEntryCommitmentRemoveOpeningBody, Res.bind_eq_ok, okOrReturn_eq_ok,
      slice_ok_iff, Res.ok.injEq]
    constructor
    · rintro ⟨_, he, r, h1, rfl⟩
      exact ⟨_, .commitment he, r, h1, rfl⟩
    · rintro ⟨_, hq, ha⟩
      cases hq with
      | commitment he =>
        obtain ⟨r, h1, rfl⟩ := ha
        exact ⟨_, he, r, h1, rfl⟩
  | rosterEntryCommitmentOpen => exact absurd trivial hc

theorem write_inj {p : ℕ} {b b' : Bytes} (h : ∀ a, p ≤ a → a < p + b.length → m a = none)
    (h' : ∀ a, p ≤ a → a < p + b'.length → m a = none) (he : m.write p b = m.write p b') : b = b' := by
  have key : ∀ {b b' : Bytes}, (∀ a, p ≤ a → a < p + b'.length → m a = none) →
      m.write p b = m.write p b' → b'.length ≤ b.length := by
    intro b b' h' he
    by_contra hlt
    have h1 := congrFun he (p + b.length)
    simp only [Mem.write] at h1
    rw [if_neg (by omega), if_pos (by omega), h' _ (by omega) (by omega)] at h1
    rw [show p + b.length - p = b.length by omega, List.getElem?_eq_getElem (by omega)] at h1
    cases h1
  have hl : b.length = b'.length := le_antisymm (key h he.symm) (key h' he)
  refine List.ext_getElem? fun k => ?_
  by_cases hk : k < b.length
  · have h1 := congrFun he (p + k)
    simp only [Mem.write] at h1
    rwa [if_pos (by omega), if_pos (by omega), show p + k - p = k by omega] at h1
  · rw [List.getElem?_eq_none (by omega), List.getElem?_eq_none (by omega)]

/-! ## The C interface -/

/-- **C77 (C)**: a function that returns either returns the empty buffer, and then the library does not
answer what was asked; or it returns the bytes that the library answers. -/
theorem C77_c [DecidableEq G] {c : Ffi.Call} (hc : ¬ Spec.IsOpen c) {buf : Ffi.Buf}
    {before after : Mem} (h : c.run G R O P fuel m = .returns buf before after) :
    (buf = ⟨0, P.dangling⟩ ∧ ∀ q b, Spec.Asks P m c q → ¬ Spec.Answers G R O P.checks fuel q b) ∨
    ∃ q b, Spec.Asks P m c q ∧ Spec.Answers G R O P.checks fuel q b ∧
      buf.len.toNat = b.length ∧ Spec.At before buf.ptr b := by
  obtain ⟨x, hx, hb⟩ := c_computes (G := G) (R := R) (O := O) (P := P) (fuel := fuel) (m := m) c hc
  have h0 := h
  rw [hx] at h
  rcases finish_returns h with ⟨h1, h2, _⟩ | ⟨b, h1, h2, h3, h4, _⟩
  · refine .inl ⟨h2, fun q b h4 h5 => ?_⟩
    have := (hb b).2 ⟨q, h4, h5⟩
    rw [h1] at this
    cases this
  · obtain ⟨q, h5, h6⟩ := (hb b).1 h1
    refine .inr ⟨q, b, h5, h6, ?_, h4 ▸ at_write _ _ _⟩
    obtain ⟨_, ⟨h7, h8, _⟩ | ⟨_, h7, _⟩ | ⟨_, b', h7, h8, h9, _, h10⟩⟩ := returns_cases G R O P fuel m h0
    · have h9 : b = [] := write_inj (P.alloc_fresh _ _ _ h2).2 (p := buf.ptr) (b' := [])
        (fun a h1 h2 => absurd h2 (by simp only [List.length_nil]; omega)) (by
          rw [← h4, h7]
          funext a
          simp only [Mem.write]
          rw [if_neg (by simp only [List.length_nil]; omega)])
      rw [h8, h9]
      rfl
    · exact absurd h7 hc
    · have h11 : b = b' :=
        write_inj (P.alloc_fresh _ _ _ h2).2 (P.alloc_fresh _ _ _ h7).2 (h4.symm.trans h9)
      rw [h3, h11, UInt64.toNat_ofNat', Nat.mod_eq_of_lt h10]

/-- **C77 (C, answers)**: if the library answers what was asked and there is memory for the answer, the
function returns it. -/
theorem C77_c_answers [DecidableEq G] {c : Ffi.Call} {q : Spec.Request} {b : Bytes}
    (hq : Spec.Asks P m c q) (hb : Spec.Answers G R O P.checks fuel q b)
    (ha : P.alloc m b.length ≠ none) :
    ∃ buf before after, c.run G R O P fuel m = .returns buf before after ∧
      buf.len = UInt64.ofNat b.length ∧ Spec.At before buf.ptr b := by
  have hc : ¬ Spec.IsOpen c := by
    intro h
    cases hq <;> exact h
  obtain ⟨x, hx, hx'⟩ := c_computes (G := G) (R := R) (O := O) (P := P) (fuel := fuel) (m := m) c hc
  obtain ⟨p, hp⟩ := Option.ne_none_iff_exists'.1 ha
  rw [hx, (hx' b).2 ⟨q, hq, hb⟩]
  exact ⟨⟨UInt64.ofNat b.length, p⟩, m.write p b, (m.write p b).free p b.length,
    by simp only [Ffi.finish, hp], rfl, at_write _ _ _⟩

/-- **C77 (C, openings)**: `roster_entry_commitment_open` returns the length 1 exactly if its arguments
decode and the entry opens to the number. -/
theorem C77_c_open [DecidableEq G] {e n p : ℕ} {el nl pl : UInt64} :
    (∃ ptr before after, Ffi.Call.run G R O P fuel m (.rosterEntryCommitmentOpen e el n nl p pl) =
      .returns ⟨1, ptr⟩ before after) ↔
    ∃ entry number params, Spec.Denotes P m e el entry ∧ Spec.Denotes P m n nl number ∧
      Spec.Denotes P m p pl params ∧ ∃ (r : RosterEntryCommitment G) (sp : SystemParameters G) (s : Scalar),
      RosterEntryCommitment.fromBytes entry = .ok r ∧ SystemParameters.fromBytes params = .ok sp ∧
      PhoneNumber.tryFromBytes number = .ok s ∧
      r.commitment = s.val • sp.h + r.opening.val • sp.g := by
  have key : ∀ x : Res Ffi.Exit Bool, (∃ ptr before after, Ffi.finishOpen P m x =
      .returns ⟨1, ptr⟩ before after) ↔ x = .ok true := by
    intro x
    constructor
    · rintro ⟨ptr, before, after, h⟩
      rcases (finishOpen_returns h).2.2 with ⟨_, h⟩ | ⟨h, _⟩ | ⟨_, h⟩
      · cases h
      · exact h
      · cases h
    · rintro rfl
      exact ⟨0, m, m, rfl⟩
  have hopen : ∀ (r : RosterEntryCommitment G) (sp : SystemParameters G) (number : Bytes),
      r.open number sp = .ok () ↔ ∃ s, PhoneNumber.tryFromBytes number = .ok s ∧
        r.commitment = s.val • sp.h + r.opening.val • sp.g := by
    intro r sp number
    simp only [RosterEntryCommitment.open, Res.bind_eq_ok]
    refine exists_congr fun s => and_congr_right fun _ => ?_
    have hiff : CommittedPhoneNumber.open r.commitment s r.opening sp.g sp.h = true ↔
      r.commitment = s.val • sp.h + r.opening.val • sp.g := C26_open_iff _ _ _ _
    rw [← hiff]
    split <;> simp [*]
  rw [Ffi.Call.run, key]
  simp only [Ffi.rosterEntryCommitmentOpenBody, Res.bind_eq_ok, okOrReturn_eq_ok, slice_ok_iff]
  constructor
  · rintro ⟨bn, hn, bp, hp, sp, h1, be, he, r, h2, h⟩
    split at h
    · rename_i ho
      obtain ⟨s, h3, h4⟩ := (hopen r sp bn).1 ho
      exact ⟨be, bn, bp, he, hn, hp, r, sp, s, h2, h1, h3, h4⟩
    · cases h
    · cases h
  · rintro ⟨be, bn, bp, he, hn, hp, r, sp, s, h2, h1, h3, h4⟩
    refine ⟨bn, hn, bp, hp, sp, h1, be, he, r, h2, ?_⟩
    rw [(hopen r sp bn).2 ⟨s, h3, h4⟩]

/-! ## The JavaScript interface -/

/-- **C77 (JavaScript)**: a function returns something other than 0 exactly if its arguments are strings
for which the library answers; it returns that answer. -/
theorem C77_js {checks : Bool} {w : Wasm.Call} {v : Wasm.Js} :
    (w.run G R O checks fuel = .returns v ∧ v ≠ .num 0) ↔
    ∃ q b, Spec.AsksJs w q ∧ Spec.Answers G R O checks fuel q b ∧ Spec.IsByteArray v b := by
  have key : ∀ {x : Res Unit Bytes},
      (Wasm.finish x = .returns v ∧ v ≠ .num 0) ↔ ∃ b, x = .ok b ∧ Spec.IsByteArray v b := by
    intro x
    constructor
    · rintro ⟨h, h0⟩
      exact (finish_returns_iff h).resolve_left h0
    · rintro ⟨b, rfl, rfl⟩
      exact ⟨rfl, nofun⟩
  cases w with
  | systemParametersCreate seed =>
    simp only [Wasm.Call.run, Wasm.systemParametersCreate]
    constructor
    · rintro ⟨h, h0⟩
      split at h
      · cases h
        exact absurd rfl h0
      · rename_i hl
        rw [wasm_seed_iff.2 ⟨not_not.1 hl, rfl⟩] at h
        dsimp only at h
        split at h
        · cases h
        · rename_i sp r hh
          cases h
          exact ⟨_, _, .systemParameters, ⟨not_not.1 hl, sp, r, hh, rfl⟩, rfl⟩
    · rintro ⟨q, b, hq, ha, rfl⟩
      cases hq with
      | systemParameters =>
        obtain ⟨hl, sp, r, hh, rfl⟩ := ha
        rw [if_neg (by simp [hl]), wasm_seed_iff.2 ⟨hl, rfl⟩]
        simp only [hh]
        exact ⟨rfl, nofun⟩
  | issuerCreate p seed =>
    simp only [Wasm.Call.run, Wasm.issuerCreate, key, Res.bind_eq_ok, intoSerde_ok, wasm_seed_iff,
      Res.ok.injEq]
    constructor
    · rintro ⟨b, ⟨_, ⟨hl, rfl⟩, sp, ⟨s, rfl, h⟩, rfl⟩, hb⟩
      exact ⟨_, _, .keypair, ⟨hl, sp, h, rfl⟩, hb⟩
    · rintro ⟨q, b, hq, ha, hb⟩
      cases hq with
      | keypair =>
        obtain ⟨hl, sp, h, rfl⟩ := ha
        exact ⟨_, ⟨_, ⟨hl, rfl⟩, sp, ⟨_, rfl, h⟩, rfl⟩, hb⟩
  | issuerGetIssuerParameters i =>
    simp only [Wasm.Call.run, Wasm.issuerGetIssuerParameters, key, Res.bind_eq_ok, intoSerde_ok,
      Res.ok.injEq]
    constructor
    · rintro ⟨b, ⟨i, ⟨s, rfl, h⟩, rfl⟩, hb⟩
      exact ⟨_, _, .issuerParameters, ⟨i, h, rfl⟩, hb⟩
    · rintro ⟨q, b, hq, ha, hb⟩
      cases hq with
      | issuerParameters =>
        obtain ⟨i, h, rfl⟩ := ha
        exact ⟨_, ⟨i, ⟨_, rfl, h⟩, rfl⟩, hb⟩
  | issuerNew p k =>
    simp only [Wasm.Call.run, Wasm.issuerNew, key, Res.bind_eq_ok, intoSerde_ok, Res.ok.injEq]
    constructor
    · rintro ⟨b, ⟨sp, ⟨s, rfl, h⟩, k, ⟨s', rfl, h'⟩, rfl⟩, hb⟩
      exact ⟨_, _, .issuer, ⟨sp, k, h, h', rfl⟩, hb⟩
    · rintro ⟨q, b, hq, ha, hb⟩
      cases hq with
      | issuer =>
        obtain ⟨sp, k, h, h', rfl⟩ := ha
        exact ⟨_, ⟨sp, ⟨_, rfl, h⟩, k, ⟨_, rfl, h'⟩, rfl⟩, hb⟩
  | issuerIssue i n seed e =>
    simp only [Wasm.Call.run, Wasm.issuerIssue, key, Res.bind_eq_ok, intoSerde_ok, wasm_seed_iff,
      wasm_orReturn, Res.ok.injEq]
    constructor
    · rintro ⟨b, ⟨_, ⟨hl, rfl⟩, i, ⟨s, rfl, h⟩, c, h', rfl⟩, hb⟩
      exact ⟨_, _, .issuance, ⟨hl, i, c, h, h', rfl⟩, hb⟩
    · rintro ⟨q, b, hq, ha, hb⟩
      cases hq with
      | issuance =>
        obtain ⟨hl, i, c, h, h', rfl⟩ := ha
        exact ⟨_, ⟨_, ⟨hl, rfl⟩, i, ⟨_, rfl, h⟩, c, h', rfl⟩, hb⟩
  | issuerVerify i p =>
    simp only [Wasm.Call.run, Wasm.issuerVerify, key, Res.bind_eq_ok, intoSerde_ok, wasm_orReturn,
      signal_verify_iff, Res.ok.injEq]
    constructor
    · rintro ⟨b, ⟨i, ⟨s, rfl, h⟩, p, ⟨s', rfl, h'⟩, _, ⟨rfl, hv⟩, rfl⟩, hb⟩
      exact ⟨_, _, .verified, ⟨i, p, h, h', hv, rfl⟩, hb⟩
    · rintro ⟨q, b, hq, ha, hb⟩
      cases hq with
      | verified =>
        obtain ⟨i, p, h, h', hv, rfl⟩ := ha
        exact ⟨_, ⟨i, ⟨_, rfl, h⟩, p, ⟨_, rfl, h'⟩, _, ⟨rfl, hv⟩, rfl⟩, hb⟩
  | issuerVerifyRosterMembership i v =>
    simp only [Wasm.Call.run, Wasm.issuerVerifyRosterMembership, key, Res.bind_eq_ok, intoSerde_ok,
      wasm_orReturn, verified_fromBytes_iff, Res.ok.injEq]
    constructor
    · rintro ⟨b, ⟨i, ⟨s, rfl, h⟩, v, ⟨s', rfl, h'⟩, C, hC, rfl⟩, hb⟩
      obtain ⟨rfl, hC⟩ := membership_iff.1 hC
      exact ⟨_, _, .membership, ⟨i, v.inner, h, h', hC, rfl⟩, hb⟩
    · rintro ⟨q, b, hq, ha, hb⟩
      cases hq with
      | membership =>
        obtain ⟨i, v, h, h', hC, rfl⟩ := ha
        exact ⟨_, ⟨i, ⟨_, rfl, h⟩, ⟨v⟩, ⟨_, rfl, h'⟩, _, hC, rfl⟩, hb⟩
  | userObtainFinish n p ip i =>
    simp only [Wasm.Call.run, Wasm.userObtainFinish, key, Res.bind_eq_ok, intoSerde_ok, wasm_orReturn,
      Res.ok.injEq]
    constructor
    · rintro ⟨b, ⟨sp, ⟨s, rfl, h1⟩, ip, ⟨s', rfl, h2⟩, u, h4, c, ⟨s'', rfl, h3⟩, _, h5, rfl⟩, hb⟩
      exact ⟨_, _, .user, ⟨sp, ip, c, u, h1, h2, h3, h4, h5, rfl⟩, hb⟩
    · rintro ⟨q, b, hq, ha, hb⟩
      cases hq with
      | user =>
        obtain ⟨sp, ip, c, u, h1, h2, h3, h4, h5, rfl⟩ := ha
        exact ⟨_, ⟨sp, ⟨_, rfl, h1⟩, ip, ⟨_, rfl, h2⟩, u, h4, c, ⟨_, rfl, h3⟩, _, h5, rfl⟩, hb⟩
  | userShow u e seed e1 e2 =>
    simp only [Wasm.Call.run, Wasm.userShow, key, Res.bind_eq_ok, intoSerde_ok, wasm_seed_iff,
      wasm_orReturn, Res.ok.injEq]
    constructor
    · rintro ⟨b, ⟨_, ⟨hl, rfl⟩, u, ⟨s, rfl, h1⟩, r, ⟨s', rfl, h2⟩, p, h3, rfl⟩, hb⟩
      exact ⟨_, _, .presentation, ⟨hl, u, r, p, h1, h2, h3, rfl⟩, hb⟩
    · rintro ⟨q, b, hq, ha, hb⟩
      cases hq with
      | presentation =>
        obtain ⟨hl, u, r, p, h1, h2, h3, rfl⟩ := ha
        exact ⟨_, ⟨_, ⟨hl, rfl⟩, u, ⟨_, rfl, h1⟩, r, ⟨_, rfl, h2⟩, p, h3, rfl⟩, hb⟩

/-! ## The Swift interface -/

open Swift

variable [DecidableEq G] {L : Runtime}

theorem denotes_unique {p : ℕ} {len : UInt64} {b b' : Bytes} (h : Spec.Denotes P m p len b)
    (h' : Spec.Denotes P m p len b') : b = b' :=
  at_unique h.2.2.2.2 h'.2.2.2.2 (h.2.2.1.trans h'.2.2.1.symm)

/-- What an array argument denotes. -/
theorem runtime_unique {arrays : List Bytes} {i : ℕ} {b x : Bytes} (h : arrays[i]? = some b)
    (hl : b.length < 2 ^ 31)
    (hx : Spec.Denotes P (L.mem arrays) (L.addr arrays i) (count b) x) : x = b :=
  runtime_slice h hl (slice_ok_iff.2 hx)

theorem runtime_seed_unique {arrays : List Bytes} {i : ℕ} {b x : Bytes} (h : arrays[i]? = some b)
    (hl : b.length = 32) (hx : Spec.SeedAt (L.mem arrays) (L.addr arrays i) x) : x = b :=
  at_unique hx.2.2 (runtime_at h).2 (hx.2.1.trans hl.symm)

/-- Swift reads only bytes that the library answered, or nothing. -/
theorem swift_value {c : Ffi.Call} (hc : ¬ Spec.IsOpen c) {b : Bytes}
    (h : contents L (c.run G R O P fuel m) = .value b) (hb : b ≠ []) :
    ∃ q, Spec.Asks P m c q ∧ Spec.Answers G R O P.checks fuel q b := by
  cases ho : c.run G R O P fuel m with
  | returns buf before after =>
    rw [ho] at h
    simp only [contents] at h
    split at h
    · cases h
    · split at h
      · rename_i b' hb'
        cases h
        rcases C77_c hc ho with ⟨rfl, _⟩ | ⟨q, b', h1, h2, h3, h4⟩
        · exact absurd (List.length_eq_zero_iff.1 (read_eq_some.1 hb').1) hb
        · split at hb'
          · obtain ⟨h5, h6⟩ := read_eq_some.1 hb'
            rw [at_unique h6 h4 (h5.trans h3)]
            exact ⟨q, h1, h2⟩
          · exfalso
            obtain ⟨h5, h6⟩ := read_eq_some.1 hb'
            have h7 := h6 0 (List.length_pos_iff.2 hb)
            obtain ⟨h8, ⟨_, h9, _⟩ | ⟨_, h9, _⟩ | ⟨_, b'', h9, h10, _, _, h11⟩⟩ :=
              returns_cases G R O P fuel m ho
            · rw [h9] at h5
              exact hb (List.length_eq_zero_iff.1 h5)
            · exact hc h9
            · have h12 : buf.len.toNat = b''.length := by
                rw [h10, UInt64.toNat_ofNat', Nat.mod_eq_of_lt h11]
              have h13 := List.length_pos_iff.2 hb
              rw [h8, (P.alloc_fresh _ _ _ h9).2 _ (by omega) (by omega),
                List.getElem?_eq_getElem h13] at h7
              cases h7
      · cases h
  | panics => rw [ho] at h; cases h
  | undefined => rw [ho] at h; cases h
  | hangs => rw [ho] at h; cases h
  | outOfMemory => rw [ho] at h; cases h

/-- If freed memory is still intact, Swift reads what the library answered. -/
theorem swift_answers {c : Ffi.Call} {q : Spec.Request} {b : Bytes} (hL : L.keeps = true)
    (hq : Spec.Asks P m c q) (ha : Spec.Answers G R O P.checks fuel q b)
    (hm : P.alloc m b.length ≠ none) (hl : b.length < 2 ^ 64) :
    contents L (c.run G R O P fuel m) = .value b := by
  have hc : ¬ Spec.IsOpen c := by
    intro h
    cases hq <;> exact h
  obtain ⟨x, hx, hx'⟩ := c_computes (G := G) (R := R) (O := O) (P := P) (fuel := fuel) (m := m) c hc
  obtain ⟨p, hp⟩ := Option.ne_none_iff_exists'.1 hm
  rw [hx, (hx' b).2 ⟨q, hq, ha⟩]
  simp only [Ffi.finish, hp, contents, if_neg (P.alloc_fresh _ _ _ hp).1, hL, if_true,
    UInt64.toNat_ofNat', Nat.mod_eq_of_lt hl, read_eq_some.2 ⟨rfl, at_write _ _ _⟩]

omit [AddCommGroup G] [Module F G] [Ristretto G] [DecidableEq G] [SeedableRng R] in
theorem andThen_value {α β : Type} {x : Swift.Outcome α} {f : α → Swift.Outcome β} {b : β}
    (h : x.andThen f = .value b) : ∃ a, x = .value a ∧ f a = .value b := by
  cases x
  case value a => exact ⟨a, rfl, h⟩
  all_goals cases h

theorem init_value {d e : ℕ} {b : Bytes} {x : Data} (h : initWithBytes d e b = .value x) :
    x.data = Spec.zeros d ∨ (x.data = b ∧ b.length = e) := by
  rw [initWithBytes] at h
  split at h
  · cases h
    exact .inl rfl
  · cases h
    exact .inr ⟨rfl, not_not.1 ‹_›⟩

variable (G R O P fuel L)

/-- **C77 (Swift)**: every object that a call returns holds what the library answers for the bytes of the
arguments, unless it is empty or holds only zero bytes. -/
theorem C77_swift (seed number entropy e₁ e₂ : Bytes) (a b c : Data) (i : Swift.SignalIssuer)
    (u : Swift.User) (hl : ∀ x ∈ [number, a.data, b.data, c.data, i.data, u.data], x.length < 2 ^ 31) :
    (∀ d, systemParametersCreate G R O P fuel L seed = .value d →
      d.data = [] ∨ Spec.Answers G R O P.checks fuel (.systemParameters seed) d.data) ∧
    (∀ d, rosterEntryCommitmentWithSeed G R O P fuel L seed number a = .value d →
      d.data = [] ∨ Spec.Answers G R O P.checks fuel (.rosterEntry number a.data seed) d.data) ∧
    (∀ d, signalIssuerWithSeed G R O P fuel L seed a = .value d →
      (d.keypair.data = Spec.zeros 96 ∨
        Spec.Answers G R O P.checks fuel (.keypair a.data seed) d.keypair.data) ∧
      (d.data = [] ∨ Spec.Answers G R O P.checks fuel (.issuer a.data d.keypair.data) d.data)) ∧
    (∀ d, signalIssuerWithKeypair G R O P fuel L a b = .value d → d.keypair = a ∧
      (d.data = [] ∨ Spec.Answers G R O P.checks fuel (.issuer b.data a.data) d.data)) ∧
    (∀ d, getParameters G R O P fuel L i = .value d →
      d.data = Spec.zeros 32 ∨ Spec.Answers G R O P.checks fuel (.issuerParameters i.data) d.data) ∧
    (∀ d, Swift.issue G R O P fuel L i number seed entropy = .value d → d.data = Spec.zeros 328 ∨
      Spec.Answers G R O P.checks fuel (.issuance i.data number seed entropy) d.data) ∧
    (∀ d, Swift.verify G R O P fuel L i a = .value d →
      d.data = Spec.zeros 448 ∨ Spec.Answers G R O P.checks fuel (.verified i.data a.data) d.data) ∧
    (∀ d, Swift.user G R O P fuel L number a b c = .value d → d.data = [] ∨
      Spec.Answers G R O P.checks fuel (.user number a.data b.data c.data) d.data) ∧
    (∀ d, Swift.show G R O P fuel L u a seed e₁ e₂ = .value d → d.data = Spec.zeros 448 ∨
      Spec.Answers G R O P.checks fuel (.presentation u.data a.data seed e₁ e₂) d.data) := by
  simp only [List.mem_cons, List.not_mem_nil, or_false, forall_eq_or_imp, forall_eq] at hl
  obtain ⟨hn, ha, hb, hc, hi, hu⟩ := hl
  refine ⟨?_, ?_, ?_, ?_, ?_, ?_, ?_, ?_, ?_⟩
  · intro d h
    rw [systemParametersCreate] at h
    split at h
    · cases h
    · rename_i hs
      obtain ⟨x, hx, h⟩ := andThen_value h
      cases h
      refine or_iff_not_imp_left.2 fun h0 => ?_
      obtain ⟨q, hq, h⟩ := swift_value id hx h0
      cases hq with
      | systemParameters hs' =>
        cases runtime_seed_unique (i := 0) rfl (not_not.1 hs) hs'
        exact h
  · intro d h
    rw [rosterEntryCommitmentWithSeed] at h
    split at h
    · cases h
    · rename_i hs
      obtain ⟨x, hx, h⟩ := andThen_value h
      cases h
      refine or_iff_not_imp_left.2 fun h0 => ?_
      obtain ⟨q, hq, h⟩ := swift_value id hx h0
      cases hq with
      | rosterEntry h1 h2 h3 =>
        cases runtime_unique (i := 0) rfl hn h1
        cases runtime_unique (i := 1) rfl ha h2
        cases runtime_seed_unique (i := 2) rfl (not_not.1 hs) h3
        exact h
  · intro d h
    rw [signalIssuerWithSeed] at h
    split at h
    · cases h
    · rename_i hs
      obtain ⟨x, hx, h⟩ := andThen_value h
      obtain ⟨kp, hkp, h⟩ := andThen_value h
      obtain ⟨y, hy, h⟩ := andThen_value h
      cases h
      have hkp' : algebraicMACKeypair x = .value kp := by
        rw [algebraicMACKeypair, initWithBytes] at hkp ⊢
        split at hkp
        · rw [if_pos ‹_›]
          exact hkp
        · rw [if_neg ‹_›]
          exact hkp
      have h1 := init_value hkp'
      have h2 : kp.data.length = 96 := by
        rcases h1 with h1 | ⟨h1, h2⟩
        · rw [h1]
          rfl
        · rw [h1]
          exact h2
      constructor
      · rcases h1 with h1 | ⟨h1, h3⟩
        · exact .inl h1
        · right
          have h0 : x ≠ [] := by
            rintro rfl
            cases h3
          obtain ⟨q, hq, h⟩ := swift_value id hx h0
          dsimp only
          rw [h1]
          cases hq with
          | keypair h4 h5 =>
            cases runtime_unique (i := 0) rfl ha h4
            cases runtime_seed_unique (i := 1) rfl (not_not.1 hs) h5
            exact h
      · refine or_iff_not_imp_left.2 fun h0 => ?_
        obtain ⟨q, hq, h⟩ := swift_value id hy h0
        cases hq with
        | issuer h4 h5 =>
          cases runtime_unique (i := 0) rfl ha h4
          cases runtime_unique (i := 1) rfl (by omega) h5
          exact h
  · intro d h
    rw [signalIssuerWithKeypair] at h
    obtain ⟨x, hx, h⟩ := andThen_value h
    cases h
    refine ⟨rfl, or_iff_not_imp_left.2 fun h0 => ?_⟩
    obtain ⟨q, hq, h⟩ := swift_value id hx h0
    cases hq with
    | issuer h4 h5 =>
      cases runtime_unique (i := 0) rfl hb h4
      cases runtime_unique (i := 1) rfl ha h5
      exact h
  · intro d h
    rw [getParameters] at h
    obtain ⟨x, hx, h⟩ := andThen_value h
    refine (init_value h).imp id fun ⟨h1, h2⟩ => ?_
    rw [h1]
    have h0 : x ≠ [] := by
      rintro rfl
      cases h2
    obtain ⟨q, hq, h⟩ := swift_value id hx h0
    cases hq with
    | issuerParameters h4 =>
      cases runtime_unique (i := 0) rfl hi h4
      exact h
  · intro d h
    rw [Swift.issue] at h
    split at h
    · cases h
    · rename_i hs
      obtain ⟨x, hx, h⟩ := andThen_value h
      refine (init_value h).imp id fun ⟨h1, h2⟩ => ?_
      rw [h1]
      have h0 : x ≠ [] := by
        rintro rfl
        cases h2
      obtain ⟨q, hq, h⟩ := swift_value id hx h0
      cases hq with
      | issuance h4 h5 h6 =>
        cases runtime_unique (i := 0) rfl hi h4
        cases runtime_unique (i := 1) rfl hn h5
        cases runtime_seed_unique (i := 2) rfl (not_not.1 hs) h6
        exact h
  · intro d h
    rw [Swift.verify] at h
    obtain ⟨x, hx, h⟩ := andThen_value h
    refine (init_value h).imp id fun ⟨h1, h2⟩ => ?_
    rw [h1]
    have h0 : x ≠ [] := by
      rintro rfl
      cases h2
    obtain ⟨q, hq, h⟩ := swift_value id hx h0
    cases hq with
    | verified h4 h5 =>
      cases runtime_unique (i := 0) rfl hi h4
      cases runtime_unique (i := 1) rfl ha h5
      exact h
  · intro d h
    rw [Swift.user] at h
    obtain ⟨x, hx, h⟩ := andThen_value h
    cases h
    refine or_iff_not_imp_left.2 fun h0 => ?_
    obtain ⟨q, hq, h⟩ := swift_value id hx h0
    cases hq with
    | user h4 h5 h6 h7 =>
      cases runtime_unique (i := 0) rfl hn h4
      cases runtime_unique (i := 1) rfl ha h5
      cases runtime_unique (i := 2) rfl hb h6
      cases runtime_unique (i := 3) rfl hc h7
      exact h
  · intro d h
    rw [Swift.show] at h
    split at h
    · cases h
    · rename_i hs
      obtain ⟨x, hx, h⟩ := andThen_value h
      refine (init_value h).imp id fun ⟨h1, h2⟩ => ?_
      rw [h1]
      have h0 : x ≠ [] := by
        rintro rfl
        cases h2
      obtain ⟨q, hq, h⟩ := swift_value id hx h0
      cases hq with
      | presentation h4 h5 h6 =>
        cases runtime_unique (i := 0) rfl hu h4
        cases runtime_unique (i := 1) rfl ha h5
        cases runtime_seed_unique (i := 2) rfl (not_not.1 hs) h6
        exact h

/-- **C77 (Swift, answers)**: if the buffers that the C functions have freed are still intact (and there was
memory for them), every call with arguments that are not empty returns what the library answers. Only
for issuer parameters this is not so (`C58_get_parameters`). -/
theorem C77_swift_answers (hL : L.keeps = true) (hm : ∀ arrays n, n < 2 ^ 32 → P.alloc (L.mem arrays) n ≠ none)
    (seed number entropy e₁ e₂ : Bytes) (a b c : Data) (i : Swift.SignalIssuer) (u : Swift.User)
    (hl : ∀ x ∈ [number, a.data, b.data, c.data, i.data, u.data], x ≠ [] ∧ x.length < 2 ^ 31)
    (d : Bytes) (hd : d.length < 2 ^ 32) :
    (Spec.Answers G R O P.checks fuel (.systemParameters seed) d →
      systemParametersCreate G R O P fuel L seed = .value ⟨d⟩) ∧
    (Spec.Answers G R O P.checks fuel (.rosterEntry number a.data seed) d →
      rosterEntryCommitmentWithSeed G R O P fuel L seed number a = .value ⟨d⟩) ∧
    (∀ k, Spec.Answers G R O P.checks fuel (.keypair a.data seed) k →
      Spec.Answers G R O P.checks fuel (.issuer a.data k) d →
      signalIssuerWithSeed G R O P fuel L seed a = .value ⟨⟨k⟩, d⟩) ∧
    (Spec.Answers G R O P.checks fuel (.issuer b.data a.data) d →
      signalIssuerWithKeypair G R O P fuel L a b = .value ⟨a, d⟩) ∧
    (Spec.Answers G R O P.checks fuel (.issuance i.data number seed entropy) d →
      Swift.issue G R O P fuel L i number seed entropy = .value ⟨d⟩) ∧
    (Spec.Answers G R O P.checks fuel (.verified i.data a.data) d →
      Swift.verify G R O P fuel L i a = .value ⟨d⟩) ∧
    (Spec.Answers G R O P.checks fuel (.user number a.data b.data c.data) d →
      Swift.user G R O P fuel L number a b c = .value ⟨d⟩) ∧
    (Spec.Answers G R O P.checks fuel (.presentation u.data a.data seed e₁ e₂) d →
      Swift.show G R O P fuel L u a seed e₁ e₂ = .value ⟨d⟩) := by
  simp only [List.mem_cons, List.not_mem_nil, or_false, forall_eq_or_imp, forall_eq] at hl
  obtain ⟨⟨hn0, hn⟩, ⟨ha0, ha⟩, ⟨hb0, hb⟩, ⟨hc0, hc⟩, ⟨hi0, hi⟩, hu0, hu⟩ := hl
  have hd' : d.length < 2 ^ 64 := by omega
  refine ⟨fun h => ?_, fun h => ?_, fun k hk h => ?_, fun h => ?_, fun h => ?_, fun h => ?_,
    fun h => ?_, fun h => ?_⟩
  · rw [systemParametersCreate, if_neg (by simp [h.1]), call, swift_answers hL
      (.systemParameters (runtime_seed (i := 0) rfl h.1)) h (hm _ _ hd) hd']
    rfl
  · rw [rosterEntryCommitmentWithSeed, if_neg (by simp [h.1]), call, swift_answers hL
      (.rosterEntry (runtime_denotes (i := 0) rfl hn0 hn) (runtime_denotes (i := 1) rfl ha0 ha)
        (runtime_seed (i := 2) rfl h.1)) h (hm _ _ hd) hd']
    rfl
  · have hk96 : k.length = 96 := by
      obtain ⟨_, sp, _, rfl⟩ := hk
      rw [keypair_toBytes_length]
      rfl
    rw [signalIssuerWithSeed, if_neg (by simp [hk.1]), call, swift_answers hL
      (.keypair (runtime_denotes (i := 0) rfl ha0 ha) (runtime_seed (i := 1) rfl hk.1)) hk
        (hm _ _ (by omega)) (by omega)]
    have h1 : algebraicMACKeypair k = .value ⟨k⟩ := C58_right_size_partial .keypair k hk96 nofun
    simp only [Outcome.andThen, h1, Outcome.unwrap]
    rw [call, swift_answers hL (.issuer (runtime_denotes (i := 0) rfl ha0 ha)
      (runtime_denotes (i := 1) rfl (List.length_pos_iff.1 (by omega)) (by omega))) h (hm _ _ hd) hd']
  · rw [signalIssuerWithKeypair, call, swift_answers hL
      (.issuer (runtime_denotes (i := 0) rfl hb0 hb) (runtime_denotes (i := 1) rfl ha0 ha)) h
      (hm _ _ hd) hd']
    rfl
  · rw [Swift.issue, if_neg (by simp [h.1]), call, swift_answers hL
      (.issuance (runtime_denotes (i := 0) rfl hi0 hi) (runtime_denotes (i := 1) rfl hn0 hn)
        (runtime_seed (i := 2) rfl h.1)) h (hm _ _ hd) hd']
    obtain ⟨_, j, cr, h1, h2, rfl⟩ := h
    exact C58_right_size_partial .issuance _ (issue_decoded_length h1 h2) nofun
  · rw [Swift.verify, call, swift_answers hL
      (.verified (runtime_denotes (i := 0) rfl hi0 hi) (runtime_denotes (i := 1) rfl ha0 ha)) h
      (hm _ _ hd) hd']
    obtain ⟨j, p, _, h1, _, rfl⟩ := h
    exact C58_right_size_partial .verified _ (decoded_presentation_length h1) nofun
  · rw [Swift.user, call, swift_answers hL
      (.user (runtime_denotes (i := 0) rfl hn0 hn) (runtime_denotes (i := 1) rfl ha0 ha)
        (runtime_denotes (i := 2) rfl hb0 hb) (runtime_denotes (i := 3) rfl hc0 hc)) h
      (hm _ _ hd) hd']
    rfl
  · rw [Swift.show, if_neg (by simp [h.1]), call, swift_answers hL
      (.presentation (runtime_denotes (i := 0) rfl hu0 hu) (runtime_denotes (i := 1) rfl ha0 ha)
        (runtime_seed (i := 2) rfl h.1)) h (hm _ _ hd) hd']
    obtain ⟨_, w, r, p, h1, _, h2, rfl⟩ := h
    exact C58_right_size_partial .presentation _ (show_decoded_length h1 h2) nofun

/-! ## Examples -/

-- the library answers a request: new parameters, and a keypair for them
example : Spec.Answers F ToyRng toyOracle true 1 (.systemParameters (List.replicate 32 0))
      (SystemParameters.toBytes (⟨1, 6⟩ : SystemParameters F)) ∧
    ∃ b, Spec.Answers F ToyRng toyOracle true 1
      (.keypair (SystemParameters.toBytes (⟨1, 6⟩ : SystemParameters F)) (List.replicate 32 1)) b :=
  ⟨⟨by decide, _, _, toy_hunt, rfl⟩, _, by decide, _, C01_roundtrip _, rfl⟩

-- the hypotheses of C77_c, C77_c_answers
example : Spec.Asks (roomy true true) toyMem (.systemParametersCreate 100)
    (.systemParameters (List.replicate 32 0)) ∧
    ∃ (buf : Ffi.Buf) (before after : Mem),
      Ffi.Call.run F ToyRng toyOracle (roomy true true) 1 toyMem (.systemParametersCreate 100) =
        .returns buf before after ∧ buf.len ≠ 0 := by
  obtain ⟨buf, before, after, h, h1, _⟩ := C53_false true true
  exact ⟨.systemParameters toyMem_seed, buf, before, after, h, by rw [h1]; decide⟩

-- the hypotheses of C77_swift_answers
example : (∀ arrays n, n < 2 ^ 32 → (roomy true true).alloc ((flat true).mem arrays) n ≠ none) := by
  intro arrays n _
  have hp : ∃ p, p ≠ 0 ∧ ∀ a, p ≤ a → a < p + n → (flat true).mem arrays a = none := by
    refine ⟨arrays.flatten.length + 1, by omega, fun a ha _ => ?_⟩
    simp only [flat]
    rw [if_neg (by omega), List.getElem?_eq_none (by omega)]
  simp only [roomy, dif_pos hp]
  simp

end Verif
