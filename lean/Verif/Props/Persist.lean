import Verif.Props.Show

/-!
# Keeping users and issuers as bytes between calls (C71)

The C, JavaScript and Swift interfaces keep nothing in memory between two calls: each call reads the
user or issuer from bytes, does its work, and hands bytes back. One history is run twice here, with
the objects kept in memory and with only their bytes kept, and what the callers see is compared.
-/

set_option maxRecDepth 100000

namespace Verif

open Amacs

variable {G : Type} [AddCommGroup G] [Module F G] [Ristretto G]

namespace Persist

/-- One call of the Signal interface. Everything that arrives from elsewhere is bytes. -/
inductive Call (G R : Type) where
  | createIssuer (params : SystemParameters G) (rng : R)
  | createUser (params : SystemParameters G) (issuer : PublicKey G)
      (key : Option (Elgamal.Keypair G)) (number : Bytes)
  | issue (issuer : ℕ) (number : Bytes) (rng : R) (entropy : Bytes)
  | obtain (user : ℕ) (issuance : Bytes)
  | present (user : ℕ) (roster : Bytes) (rng : R) (entropy₁ entropy₂ : Bytes)
  | verify (issuer : ℕ) (presentation : Bytes)
  | verifyRoster (issuer : ℕ) (verified : Bytes)

/-- How issuers and users are kept between calls. -/
structure Keep (G I U : Type) where
  saveIssuer : SignalIssuer G → I
  loadIssuer : I → Res CredentialError (SignalIssuer G)
  saveUser : SignalUser G → U
  loadUser : U → Res CredentialError (SignalUser G)

/-- Kept in memory. -/
def memory : Keep G (SignalIssuer G) (SignalUser G) := ⟨id, .ok, id, .ok⟩

/-- Kept as bytes, with the serialisation functions of the library. -/
def bytes (checks : Bool) : Keep G Bytes Bytes :=
  ⟨SignalIssuer.toBytes, SignalIssuer.fromBytes checks, SignalUser.toBytes, SignalUser.fromBytes⟩

/-- The issuers and users kept. -/
@[ext] structure World (I U : Type) where
  issuers : List I
  users : List U

/-- Perform one call; the result is what the caller receives, as bytes. A call that names an issuer
or user that does not exist returns nothing. -/
def step {R I U : Type} [RngCore R] (O : Oracle) (k : Keep G I U) (w : World I U) :
    Call G R → World I U × Res CredentialError Bytes
  | .createIssuer params rng =>
    let i := (SignalIssuer.create params rng).1
    ({ w with issuers := w.issuers ++ [k.saveIssuer i] }, .ok i.getIssuerParameters.toBytes)
  | .createUser params issuer key number =>
    match SignalUser.new params issuer key number with
    | .ok u => ({ w with users := w.users ++ [k.saveUser u] }, .ok [])
    | .err e => (w, .err e)
    | .panic => (w, .panic)
  | .issue n number rng entropy =>
    match w.issuers[n]? with
    | none => (w, .ok [])
    | some s => (w, do
        let i ← k.loadIssuer s
        let c ← (i.issue O number rng entropy).1
        .ok c.toBytes)
  | .obtain n issuance =>
    match w.users[n]? with
    | none => (w, .ok [])
    | some s =>
      match k.loadUser s, (CredentialIssuance.fromBytes issuance : Res _ (CredentialIssuance G)) with
      | .ok u, .ok c =>
        let r := u.obtainFinish O (some c)
        ({ w with users := w.users.set n (k.saveUser r.2) }, r.1.bind fun _ => .ok [])
      | .ok _, .err e => (w, .err e)
      | .ok _, .panic => (w, .panic)
      | .err e, _ => (w, .err e)
      | .panic, _ => (w, .panic)
  | .present n roster rng entropy₁ entropy₂ =>
    match w.users[n]? with
    | none => (w, .ok [])
    | some s => (w, do
        let u ← k.loadUser s
        let ros ← (RosterEntryCommitment.fromBytes roster).mapErr CredentialError.ofPhone
        let p ← (u.show O rng ros entropy₁ entropy₂).1
        .ok p.toBytes)
  | .verify n presentation =>
    match w.issuers[n]? with
    | none => (w, .ok [])
    | some s => (w, do
        let i ← k.loadIssuer s
        let p ← SignalCredentialPresentation.fromBytes presentation
        let v ← i.verify O p
        .ok v.toBytes)
  | .verifyRoster n verified =>
    match w.issuers[n]? with
    | none => (w, .ok [])
    | some s => (w, do
        let i ← k.loadIssuer s
        let v ← VerifiedSignalCredential.fromBytes verified
        let c ← i.verifyRosterMembership O v
        .ok (CommittedPhoneNumber.toBytes c))

/-- The world and everything the callers received, after a history that starts from nothing. -/
def run {R I U : Type} [RngCore R] (O : Oracle) (k : Keep G I U) (calls : List (Call G R)) :
    World I U × List (Res CredentialError Bytes) :=
  calls.foldl (fun s c => ((step O k s.1 c).1, s.2 ++ [(step O k s.1 c).2])) (⟨[], []⟩, [])

/-- Callers cannot tell whether objects are kept in memory or as bytes. -/
def Transparent {R : Type} [RngCore R] (O : Oracle) (checks : Bool) (calls : List (Call G R)) :
    Prop :=
  (run O (bytes checks) calls).2 = (run O memory calls).2

/-- What the theorem needs of a history: users are made for an issuer key of one point and with a key
that is not all zero, and no delivered issuance carries the all-zero credential. -/
def Ordinary {R : Type} (calls : List (Call G R)) : Prop :=
  (∀ params issuer key number, Call.createUser params issuer key number ∈ calls →
    issuer.Xn.length = 1 ∧ ∀ k, key = some k → k.secretKey.n < ell ∧
      ¬ (k.secretKey.n = 0 ∧ k.publicKey = 0)) ∧
  ∀ n b c, Call.obtain n b ∈ calls → CredentialIssuance.fromBytes b = .ok c →
    c.credential ≠ (⟨⟨0, 0⟩, [0]⟩ : Credential G)

theorem run_append {R I U : Type} [RngCore R] (O : Oracle) (k : Keep G I U) (cs : List (Call G R))
    (c : Call G R) : run O k (cs ++ [c]) =
      ((step O k (run O k cs).1 c).1, (run O k cs).2 ++ [(step O k (run O k cs).1 c).2]) := by
  simp [run]

/-- Everything in a world survives being saved and loaded. -/
def Sturdy (checks : Bool) (w : World (SignalIssuer G) (SignalUser G)) : Prop :=
  (∀ i ∈ w.issuers, SignalIssuer.fromBytes checks i.toBytes = .ok i) ∧
  ∀ u ∈ w.users, SignalUser.fromBytes u.toBytes = .ok u

/-- The same world with only bytes kept. -/
def toDisk (w : World (SignalIssuer G) (SignalUser G)) : World Bytes Bytes :=
  ⟨w.issuers.map SignalIssuer.toBytes, w.users.map SignalUser.toBytes⟩

/-- One call does the same in both worlds. -/
theorem step_disk {R : Type} [RngCore R] (O : Oracle) {checks : Bool}
    {w : World (SignalIssuer G) (SignalUser G)} (h : Sturdy checks w) (c : Call G R) :
    step O (bytes checks) (toDisk w) c = (toDisk (step O memory w c).1, (step O memory w c).2) := by
  have hi : ∀ {n i}, w.issuers[n]? = some i → SignalIssuer.fromBytes checks i.toBytes = .ok i :=
    fun e => h.1 _ (List.mem_of_getElem? e)
  have hu : ∀ {n u}, w.users[n]? = some u → SignalUser.fromBytes u.toBytes = .ok u :=
    fun e => h.2 _ (List.mem_of_getElem? e)
  cases c with
  | createIssuer params rng => simp [step, toDisk, memory, bytes]
  | createUser params issuer key number =>
    simp only [step]
    split <;> simp [toDisk, memory, bytes]
  | issue n number rng entropy =>
    simp only [step, toDisk, List.getElem?_map]
    cases e : w.issuers[n]? with
    | none => rfl
    | some i => simp [memory, bytes, hi e]
  | obtain n b =>
    simp only [step, toDisk, List.getElem?_map]
    cases e : w.users[n]? with
    | none => rfl
    | some u =>
      simp only [memory, bytes, hu e, Option.map_some]
      split <;> simp_all [List.map_set]
  | present n b rng e₁ e₂ =>
    simp only [step, toDisk, List.getElem?_map]
    cases e : w.users[n]? with
    | none => rfl
    | some u => simp [memory, bytes, hu e]
  | verify n b =>
    simp only [step, toDisk, List.getElem?_map]
    cases e : w.issuers[n]? with
    | none => rfl
    | some i => simp [memory, bytes, hi e]
  | verifyRoster n b =>
    simp only [step, toDisk, List.getElem?_map]
    cases e : w.issuers[n]? with
    | none => rfl
    | some i => simp [memory, bytes, hi e]

/-- An issuer made by `create` survives saving. -/
theorem created_saves {R : Type} [RngCore R] (checks : Bool) (params : SystemParameters G) (r : R) :
    SignalIssuer.fromBytes checks (SignalIssuer.create params r).1.toBytes =
      .ok (SignalIssuer.create params r).1 := by
  obtain ⟨x0, x1, hx0, hx1, hi⟩ : ∃ x0 x1 : Scalar, x0.Reduced ∧ x1.Reduced ∧
      (SignalIssuer.create params r).1 =
        ⟨⟨params, ⟨⟨[x1.val • params.h]⟩, ⟨x0, [x1]⟩⟩⟩⟩ :=
    ⟨_, _, Scalar.reduced_fromWide _, Scalar.reduced_fromWide _, rfl⟩
  rw [hi]
  exact C06_signal_roundtrip checks _ rfl (le_refl 1) hx0 (by simpa using hx1)

/-- An ordinary call keeps everything savable. -/
theorem step_sturdy {R : Type} [RngCore R] (O : Oracle) {checks : Bool}
    {w : World (SignalIssuer G) (SignalUser G)} (h : Sturdy checks w) (c : Call G R)
    (hc : Ordinary [c]) : Sturdy checks (step O memory w c).1 := by
  cases c with
  | createIssuer params rng =>
    refine ⟨?_, h.2⟩
    intro i hi
    simp only [step, memory, List.mem_append, List.mem_singleton, id] at hi
    rcases hi with hi | rfl
    · exact h.1 i hi
    · exact created_saves checks params rng
  | createUser params issuer key number =>
    simp only [step]
    split
    · rename_i u hu
      refine ⟨h.1, ?_⟩
      intro v hv
      simp only [memory, List.mem_append, List.mem_singleton, id] at hv
      rcases hv with hv | rfl
      · exact h.2 v hv
      · rw [SignalUser.new] at hu
        rw [Res.bind_eq_ok] at hu
        obtain ⟨m, _, hu⟩ := hu
        cases hu
        obtain ⟨h1, h2⟩ := hc.1 params issuer key number (by simp)
        rw [C11_signal_roundtrip_iff, C11_roundtrip_iff]
        refine ⟨h1, ?_, nofun⟩
        intro k hk
        obtain ⟨h3, h4⟩ := h2 k hk
        exact ⟨h3, fun h5 => h4 ⟨by rw [h5.1]; rfl, h5.2⟩⟩
    · exact h
    · exact h
  | obtain n b =>
    simp only [step]
    split
    · exact h
    · rename_i u hu
      split
      · rename_i v c e1 e2
        cases e1
        refine ⟨h.1, ?_⟩
        intro x hx
        rcases List.mem_or_eq_of_mem_set hx with hx | rfl
        · exact h.2 x hx
        · have hold := h.2 u (List.mem_of_getElem? hu)
          rw [C11_signal_roundtrip_iff, C11_roundtrip_iff] at hold ⊢
          simp only [memory, id, SignalUser.obtainFinish]
          rcases C34_all_or_nothing O u.user (some c) with ⟨d, hd, h1⟩ | h1 | h1
          · cases hd
            rw [h1]
            refine ⟨hold.1, hold.2.1, ?_⟩
            intro d hd
            cases hd
            obtain ⟨a, _, ⟨ha, hr, _⟩, _⟩ := (C08_ok_iff _ _).1 e2
            refine ⟨a, ha, hr, ?_⟩
            rintro ⟨h3, h4, rfl⟩
            apply hc.2 n b c (by simp) e2
            obtain ⟨pf, ⟨⟨P, Q⟩, as⟩, sk⟩ := c
            dsimp only at h3 h4 ha
            subst h3 h4 ha
            rfl
          · rw [h1]; exact hold
          · rw [h1]; exact hold
      all_goals exact h
  | issue => simp only [step]; split <;> exact h
  | present => simp only [step]; split <;> exact h
  | verify => simp only [step]; split <;> exact h
  | verifyRoster => simp only [step]; split <;> exact h

theorem ordinary_append {R : Type} {cs ds : List (Call G R)} :
    Ordinary (cs ++ ds) ↔ Ordinary cs ∧ Ordinary ds := by
  simp only [Ordinary, List.mem_append]
  constructor
  · rintro ⟨h1, h2⟩
    exact ⟨⟨fun a b c d h => h1 a b c d (.inl h), fun a b c h => h2 a b c (.inl h)⟩,
      ⟨fun a b c d h => h1 a b c d (.inr h), fun a b c h => h2 a b c (.inr h)⟩⟩
  · rintro ⟨⟨h1, h2⟩, h3, h4⟩
    exact ⟨fun a b c d h => h.elim (h1 a b c d) (h3 a b c d), fun a b c h => h.elim (h2 a b c) (h4 a b c)⟩

theorem run_disk {R : Type} [RngCore R] (O : Oracle) (checks : Bool) (cs : List (Call G R))
    (h : Ordinary cs) : Sturdy checks (run O memory cs).1 ∧
      run O (bytes checks) cs = (toDisk (run O memory cs).1, (run O memory cs).2) := by
  induction cs using List.reverseRecOn with
  | nil => exact ⟨⟨nofun, nofun⟩, rfl⟩
  | append_singleton cs c ih =>
    obtain ⟨h1, h2⟩ := ordinary_append.1 h
    obtain ⟨h3, h4⟩ := ih h1
    rw [run_append, run_append, h4, step_disk O h3]
    exact ⟨step_sturdy O h3 c h2, rfl⟩

end Persist

open Persist in
/-- In every ordinary history, with arbitrary bytes delivered from outside, callers receive exactly
the same whether issuers and users are kept in memory or as bytes; and every kept byte string loads as
the object it was saved from. Missing from the full claim: histories that are not ordinary, for which
it is false (`C71_false`). -/
theorem C71_transparent_partial {R : Type} [RngCore R] (O : Oracle) (checks : Bool)
    (calls : List (Call G R)) (h : Ordinary calls) :
    Transparent O checks calls ∧
    (run O (bytes checks) calls).1.users.map SignalUser.fromBytes =
      (run O memory calls).1.users.map .ok ∧
    (run O (bytes checks) calls).1.issuers.map (SignalIssuer.fromBytes checks) =
      (run O memory calls).1.issuers.map .ok := by
  obtain ⟨⟨h1, h2⟩, h3⟩ := run_disk O checks calls h
  rw [Transparent, h3]
  refine ⟨rfl, ?_, ?_⟩
  · simp only [toDisk, List.map_map]
    exact List.map_congr_left fun u hu => h2 u hu
  · simp only [toDisk, List.map_map]
    exact List.map_congr_left fun i hi => h1 i hi

open Persist in
/-- Histories in which users hold no ElGamal key and every delivered issuance was made by some issuer
are ordinary: a phone number is never the zero scalar, so an issued credential is never all zero. -/
theorem C71_honest_ordinary {R : Type} [RngCore R] (O : Oracle) (calls : List (Call G R))
    (hu : ∀ params issuer key number, Call.createUser params issuer key number ∈ calls →
      issuer.Xn.length = 1 ∧ key = none)
    (hc : ∀ n b, Call.obtain n b ∈ calls → ∃ (params : SystemParameters G) (r₀ : R) (number : Bytes)
      (r : R) (e : Bytes) (c : CredentialIssuance G),
      ((SignalIssuer.create params r₀).1.issue O number r e).1 = .ok c ∧ b = c.toBytes) :
    Ordinary calls := by
  refine ⟨fun a b c d h => ⟨(hu a b c d h).1, by rw [(hu a b c d h).2]; nofun⟩, ?_⟩
  intro n b d hmem hd
  obtain ⟨params, r₀, number, r, e, c, h1, rfl⟩ := hc n b hmem
  obtain ⟨x0, x1, hx0, hx1, hi⟩ : ∃ x0 x1 : Scalar, x0.Reduced ∧ x1.Reduced ∧
      (SignalIssuer.create params r₀).1 =
        ⟨⟨params, ⟨⟨[x1.val • params.h]⟩, ⟨x0, [x1]⟩⟩⟩⟩ :=
    ⟨_, _, Scalar.reduced_fromWide _, Scalar.reduced_fromWide _, rfl⟩
  rw [hi, SignalIssuer.issue] at h1
  cases hn : PhoneNumber.tryFromBytes number with
  | err => simp [hn] at h1
  | panic => simp [hn] at h1
  | ok m =>
    obtain ⟨hmr, hm0⟩ := C18_canonical (.inl hn)
    simp only [hn, Res.mapErr_ok] at h1
    rw [issue_one] at h1
    cases h1
    rw [(C08_roundtrip _ m ⟨rfl, hmr, Scalar.reduced_fromWide _, Scalar.reduced_add _ _,
      Scalar.reduced_add _ _, Scalar.reduced_add _ _, Scalar.reduced_add _ _⟩).1] at hd
    cases hd
    intro h2
    have h3 := congrArg Credential.attributes h2
    simp only [issuanceData, List.cons.injEq, and_true] at h3
    apply hm0
    rw [h3]
    exact Scalar.val_zero

/-- The issuance of an all-zero credential, with a valid proof by the issuer whose secrets are
`x0, x1`. -/
def Persist.zeroIssuance (O : Oracle) (params : SystemParameters G) (x0 x1 : Scalar) (e : Bytes) :
    CredentialIssuance G :=
  issuanceData params (x1.val • params.h) x0 x1 0 0 0
    (IssuanceRevealed.create O [.init "AEONFLUX ISSUANCE"] e)

open Persist in
/-- The full claim is false: for all parameters, keys, hash and number, an issuer can send its user an
all-zero credential with a valid proof. Kept in memory the user can then present; kept as bytes the
credential is gone, and presenting returns `MissingData`. -/
theorem C71_false {R : Type} [RngCore R] (O : Oracle) (checks : Bool) (params : SystemParameters G)
    (x0 x1 : Scalar) (r : R) (e e₁ e₂ : Bytes) {number : Bytes} (hn : number.length ≤ 27) :
    let calls : List (Call G R) := [.createUser params ⟨[x1.val • params.h]⟩ none number,
      .obtain 0 (zeroIssuance O params x0 x1 e).toBytes,
      .present 0 (RosterEntryCommitment.toBytes ⟨(0 : G), 0⟩) r e₁ e₂]
    (∃ p, (run O memory calls).2 = [.ok [], .ok [], .ok p]) ∧
    (run O (bytes checks) calls).2 = [.ok [], .ok [], .err .missingData] ∧
    ¬ Transparent O checks calls := by
  have hn : PhoneNumber.tryFromBytes number = .ok _ := PhoneNumber.encodeWith_ok id _ hn
  generalize Scalar.fromBytesModOrder _ = m at hn
  have hu : SignalUser.new params ⟨[x1.val • params.h]⟩ none number =
      .ok ⟨m, ⟨params, ⟨[x1.val • params.h]⟩, none, none⟩⟩ := by
    simp only [SignalUser.new, hn, Res.mapErr_ok, Res.ok_bind]
    rfl
  have hc : (zeroIssuance O params x0 x1 e).credential = ⟨⟨0, 0⟩, [0]⟩ := by
    simp [zeroIssuance, issuanceData, Scalar.smul_def]
  have hd : CredentialIssuance.fromBytes (zeroIssuance O params x0 x1 e).toBytes =
      .ok (zeroIssuance O params x0 x1 e) :=
    (C08_roundtrip _ 0 ⟨rfl, by decide, Scalar.reduced_fromWide _, Scalar.reduced_add _ _,
      Scalar.reduced_add _ _, Scalar.reduced_add _ _, Scalar.reduced_add _ _⟩).1
  have hacc : SignalUser.obtainFinish O ⟨m, ⟨params, ⟨[x1.val • params.h]⟩, none, none⟩⟩
      (some (zeroIssuance O params x0 x1 e)) =
      (.ok (), ⟨m, ⟨params, ⟨[x1.val • params.h]⟩, none, some ⟨⟨0, 0⟩, [0]⟩⟩⟩) := by
    rw [SignalUser.obtainFinish, ← hc]
    simp only [User.obtainFinish, List.getElem?_cons_zero]
    rw [if_pos]
    exact IssuanceRevealed.C29_complete O _ e (issuanceData_relation _ _ _ _ _ _)
  have hl : SignalUser.fromBytes (SignalUser.toBytes
      ⟨m, ⟨params, ⟨[x1.val • params.h]⟩, none, none⟩⟩) =
      .ok ⟨m, ⟨params, ⟨[x1.val • params.h]⟩, none, none⟩⟩ := by
    rw [C11_signal_roundtrip_iff, C11_roundtrip_iff]
    exact ⟨rfl, nofun, nofun⟩
  have hz : SignalUser.toBytes
      ⟨m, ⟨params, ⟨[x1.val • params.h]⟩, none, some ⟨⟨0, 0⟩, [0]⟩⟩⟩ =
      SignalUser.toBytes ⟨m, ⟨params, ⟨[x1.val • params.h]⟩, none, none⟩⟩ := by
    simp only [SignalUser.toBytes, User.toBytes, Credential.toBytes, Tag.toBytes,
      Ristretto.enc_zero]
    rfl
  have h1 : ∃ p, (run O memory [Call.createUser params ⟨[x1.val • params.h]⟩ none number,
      .obtain 0 (zeroIssuance O params x0 x1 e).toBytes,
      .present 0 (RosterEntryCommitment.toBytes ⟨(0 : G), 0⟩) r e₁ e₂]).2 =
      [.ok [], .ok [], .ok p] := by
    simp only [run, List.foldl_cons, List.foldl_nil, step, hu, memory, List.nil_append, id,
      List.getElem?_cons_zero, hd, hacc, List.set_cons_zero, C12_roster_roundtrip, Res.mapErr_ok,
      Res.ok_bind, signal_show_one]
    exact ⟨_, rfl⟩
  have h2 : (run O (bytes checks) [Call.createUser params ⟨[x1.val • params.h]⟩ none number,
      .obtain 0 (zeroIssuance O params x0 x1 e).toBytes,
      .present 0 (RosterEntryCommitment.toBytes ⟨(0 : G), 0⟩) r e₁ e₂]).2 =
      [.ok [], .ok [], .err .missingData] := by
    simp only [run, List.foldl_cons, List.foldl_nil, step, hu, bytes, List.nil_append,
      List.getElem?_cons_zero, hd, hl, hacc, hz, List.set_cons_zero, C12_roster_roundtrip,
      Res.mapErr_ok, Res.ok_bind]
    rfl
  refine ⟨h1, h2, ?_⟩
  obtain ⟨p, h1⟩ := h1
  rw [Transparent, h1, h2]
  simp

open Persist in
/-- An ordinary history that creates an issuer and a user, issues, delivers garbage and presents. -/
example : Ordinary (G := F) (R := ToyRng) [.createIssuer ⟨1, 2⟩ ⟨0⟩,
    .createUser ⟨1, 2⟩ ⟨[3]⟩ (some ⟨⟨5, by decide⟩, 5⟩) [1, 4, 1, 5], .issue 0 [1, 4, 1, 5] ⟨1⟩ [],
    .obtain 0 [], .present 0 [] ⟨2⟩ [] []] := by
  refine ⟨?_, ?_⟩
  · simp only [List.mem_cons, reduceCtorEq, Call.createUser.injEq, false_or, List.not_mem_nil, or_false]
    rintro _ _ _ _ ⟨rfl, rfl, rfl, rfl⟩
    refine ⟨rfl, ?_⟩
    rintro k h
    cases h
    decide +kernel
  · simp only [List.mem_cons, reduceCtorEq, Call.obtain.injEq, false_or, List.not_mem_nil, or_false]
    rintro _ _ c ⟨rfl, rfl⟩ h
    cases h

open Persist in
/-- The hypotheses of `C71_honest_ordinary` are met by a history that delivers an issued credential. -/
example : ∃ b : Bytes, ∀ n c, Call.obtain n c ∈
    ([.createUser ⟨1, 2⟩ ⟨[3]⟩ none [1, 4], .obtain 0 b] : List (Call F ToyRng)) →
    ∃ (params : SystemParameters F) (r₀ : ToyRng) (number : Bytes) (r : ToyRng) (e : Bytes)
      (d : CredentialIssuance F),
      ((SignalIssuer.create params r₀).1.issue toyOracle number r e).1 = .ok d ∧ c = d.toBytes := by
  obtain ⟨d, hd⟩ : ∃ d, ((SignalIssuer.create (⟨1, 2⟩ : SystemParameters F) (⟨0⟩ : ToyRng)).1.issue
      toyOracle [1, 4] (⟨0⟩ : ToyRng) []).1 = .ok d := ⟨_, rfl⟩
  refine ⟨d.toBytes, ?_⟩
  simp only [List.mem_cons, reduceCtorEq, Call.obtain.injEq, false_or, List.not_mem_nil, or_false]
  rintro _ _ ⟨rfl, rfl⟩
  exact ⟨_, _, _, _, _, _, hd, rfl⟩

end Verif
