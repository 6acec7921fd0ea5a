import Verif.Model.Swift
import Verif.Props.FfiChain

/-!
# C58: the Swift wrapper
-/

set_option maxRecDepth 100000

namespace Verif

open Swift Amacs

/-! ## Specification vocabulary -/

/-- The classes with an initialiser `init?(withBytes:)`. -/
inductive Spec.Class where
  | systemParameters | keypair | roster | issuerParameters | issuance | presentation | verified
  deriving DecidableEq

/-- Their initialisers. -/
def Spec.Class.init : Spec.Class → Bytes → Outcome Data
  | .systemParameters => Swift.systemParameters
  | .keypair => algebraicMACKeypair
  | .roster => rosterEntryCommitment
  | .issuerParameters => Swift.issuerParameters
  | .issuance => credentialIssuance
  | .presentation => credentialPresentation
  | .verified => verifiedCredential

/-- The number of bytes of a serialised value (C01, C05, C12, C03, C08, C10). -/
def Spec.Class.size : Spec.Class → ℕ
  | .systemParameters => 64
  | .keypair => 96
  | .roster => 64
  | .issuerParameters => 32
  | .issuance => 328
  | .presentation => 448
  | .verified => 448

/-- Zero bytes. -/
def Spec.zeros (n : ℕ) : Bytes := List.replicate n 0

/-! ## The initialisers -/

/-- **C58 is false (initialisers)**: on wrongly sized data no initialiser returns nil. Instead one gets
an object that holds zero bytes; 96 bytes are kept as issuer parameters. -/
theorem C58_wrong_size (c : Spec.Class) (b : Bytes) (h : b.length ≠ c.size) :
    c.init b = .value ⟨if c = .issuerParameters ∧ b.length = 96 then b else Spec.zeros c.size⟩ := by
  cases c <;> simp only [Spec.Class.size] at h <;>
    simp only [Spec.Class.init, Swift.systemParameters, algebraicMACKeypair, rosterEntryCommitment,
      Swift.issuerParameters, credentialIssuance, credentialPresentation, verifiedCredential,
      initWithBytes, lengthSystemParameters, lengthIssuerKeypair, lengthRosterEntryCommitment,
      lengthIssuerParameters, lengthCredentialIssuance, lengthCredentialPresentation,
      lengthVerifiedCredential, Spec.zeros, Spec.Class.size]
  case issuerParameters =>
    by_cases h96 : b.length = 96 <;> simp [h96]
  all_goals simp [h]

/-- Full claim: data of the right size is kept, for every class. Missing: issuer parameters, for which it
is false (`C58_issuer_parameters`). -/
theorem C58_right_size_partial (c : Spec.Class) (b : Bytes) (h : b.length = c.size)
    (hc : c ≠ .issuerParameters) : c.init b = .value ⟨b⟩ := by
  cases c <;> simp only [Spec.Class.size] at h <;>
    simp only [Spec.Class.init, Swift.systemParameters, algebraicMACKeypair, rosterEntryCommitment,
      credentialIssuance, credentialPresentation, verifiedCredential,
      initWithBytes, lengthSystemParameters, lengthIssuerKeypair, lengthRosterEntryCommitment,
      lengthCredentialIssuance, lengthCredentialPresentation, lengthVerifiedCredential]
  case issuerParameters => exact absurd rfl hc
  all_goals simp [h]

/-- Issuer parameters for one attribute, which have 32 bytes, are replaced by zero bytes; these are the
serialised form of the parameters whose only point is the identity. -/
theorem C58_issuer_parameters {G : Type} [AddCommGroup G] [Module F G] [Ristretto G] (b : Bytes)
    (h : b.length = 32) :
    Swift.issuerParameters b = .value ⟨Spec.zeros 32⟩ ∧
    PublicKey.fromBytes (Spec.zeros 32) = .ok (⟨[0]⟩ : PublicKey G) := by
  constructor
  · simp [Swift.issuerParameters, initWithBytes, lengthIssuerKeypair, lengthIssuerParameters,
      Spec.zeros, h]
  · rw [C03_ok_iff]
    simp [Spec.zeros, Ristretto.enc_zero]

/-- C58 is false: no bytes at all make a (non-nil) verified credential, and the issuer parameters `1`
become the identity. -/
theorem C58_false : (∃ v, verifiedCredential [] = .value v) ∧
    Swift.issuerParameters (enc (1 : F)) = .value ⟨enc (0 : F)⟩ := by
  refine ⟨⟨_, C58_wrong_size .verified [] (by decide)⟩, ?_⟩
  rw [(C58_issuer_parameters (G := F) _ (enc_length _)).1, Spec.zeros, Ristretto.enc_zero]

/-! ## Calls -/

section

variable (G : Type) [AddCommGroup G] [Module F G] [Ristretto G] [DecidableEq G]
variable (R : Type) [SeedableRng R]
variable (O : Oracle) (P : Ffi.Platform) (fuel : ℕ) (L : Runtime)

theorem contents_ne_nil (o : Ffi.Outcome) : contents L o ≠ .nil := by
  cases o <;> simp only [contents, ne_eq, reduceCtorEq, not_false_eq_true]
  split
  · simp
  · split <;> simp

theorem andThen_ne_nil {α β : Type} {x : Outcome α} {f : α → Outcome β} (hx : x ≠ .nil)
    (hf : ∀ a, f a ≠ .nil) : x.andThen f ≠ .nil := by
  cases x
  case nil => exact absurd rfl hx
  case value a => exact hf a
  all_goals simp [Outcome.andThen]

theorem initWithBytes_ne_nil (d e : ℕ) (b : Bytes) : initWithBytes d e b ≠ .nil := by
  rw [initWithBytes]
  split <;> simp

/-- **C58 (when nil is returned)**: exactly when a seed does not have 32 bytes; the functions without a
seed never return nil, whatever the callee said. -/
theorem C58_nil_iff (seed number entropy e₂ e₃ : Bytes) (a b c : Data) (i : Swift.SignalIssuer)
    (u : Swift.User) :
    (systemParametersCreate G R O P fuel L seed = .nil ↔ seed.length ≠ 32) ∧
    (rosterEntryCommitmentWithSeed G R O P fuel L seed number a = .nil ↔ seed.length ≠ 32) ∧
    (signalIssuerWithSeed G R O P fuel L seed a = .nil ↔ seed.length ≠ 32) ∧
    (Swift.issue G R O P fuel L i number seed entropy = .nil ↔ seed.length ≠ 32) ∧
    (Swift.show G R O P fuel L u a seed e₂ e₃ = .nil ↔ seed.length ≠ 32) ∧
    signalIssuerWithKeypair G R O P fuel L a b ≠ .nil ∧
    getParameters G R O P fuel L i ≠ .nil ∧
    Swift.verify G R O P fuel L i a ≠ .nil ∧
    Swift.user G R O P fuel L number a b c ≠ .nil := by
  have key : ∀ {α : Type} {x : Outcome α}, x ≠ .nil →
      ((if seed.length ≠ 32 then .nil else x) = .nil ↔ seed.length ≠ 32) := by
    intro α x hx
    split
    · simp [*]
    · simp [*]
  have hc := contents_ne_nil L
  refine ⟨key (andThen_ne_nil (hc _) fun _ => by simp), key (andThen_ne_nil (hc _) fun _ => by simp),
    key (andThen_ne_nil (hc _) fun _ => andThen_ne_nil ?_ fun _ =>
      andThen_ne_nil (hc _) fun _ => by simp),
    key (andThen_ne_nil (hc _) fun _ => initWithBytes_ne_nil _ _ _),
    key (andThen_ne_nil (hc _) fun _ => initWithBytes_ne_nil _ _ _),
    andThen_ne_nil (hc _) fun _ => by simp,
    andThen_ne_nil (hc _) fun _ => initWithBytes_ne_nil _ _ _,
    andThen_ne_nil (hc _) fun _ => initWithBytes_ne_nil _ _ _,
    andThen_ne_nil (hc _) fun _ => by simp⟩
  rw [algebraicMACKeypair, initWithBytes]
  split <;> simp [Outcome.unwrap]

variable {G R O P fuel L}

/-! ### Arguments -/

theorem runtime_at {arrays : List Bytes} {i : ℕ} {b : Bytes} (h : arrays[i]? = some b) :
    L.addr arrays i ≠ 0 ∧ Spec.At (L.mem arrays) (L.addr arrays i) b := L.holds arrays i b h

theorem runtime_denotes {arrays : List Bytes} {i : ℕ} {b : Bytes} (h : arrays[i]? = some b)
    (hb : b ≠ []) (hl : b.length < 2 ^ 31) :
    Spec.Denotes P (L.mem arrays) (L.addr arrays i) (count b) b :=
  denotes_of_at (runtime_at h).1 hb hl (runtime_at h).2

theorem runtime_seed {arrays : List Bytes} {i : ℕ} {s : Bytes} (h : arrays[i]? = some s)
    (hs : s.length = 32) : Spec.SeedAt (L.mem arrays) (L.addr arrays i) s :=
  ⟨(runtime_at h).1, hs, (runtime_at h).2⟩

theorem runtime_slice {arrays : List Bytes} {i : ℕ} {b x : Bytes} (h : arrays[i]? = some b)
    (hl : b.length < 2 ^ 31)
    (hx : Ffi.slice P (L.mem arrays) (count b) (L.addr arrays i) = .ok x) : x = b := by
  by_cases hb : b = []
  · subst hb
    rw [slice_empty_iff.2 (show (Spec.Arg.bytes (L.addr arrays i) (count [])).Absent from .inr rfl)]
      at hx
    cases hx
  · rw [slice_ok_iff.2 (runtime_denotes h hb hl)] at hx
    cases hx
    rfl

/-! ### Results -/

theorem contents_empty {m : Mem} {x : Res Ffi.Exit Bytes} (hx : x = .err .empty) :
    contents L (Ffi.finish P m x) = .value [] := by
  subst hx
  simp only [Ffi.finish, contents, if_neg P.dangling_ne]
  rfl

theorem contents_value {m : Mem} {x : Res Ffi.Exit Bytes} {b : Bytes}
    (h : contents L (Ffi.finish P m x) = .value b) (hb : b ≠ []) : ∃ b', x = .ok b' := by
  rcases x with b' | (_ | _ | _) | _
  · exact ⟨b', rfl⟩
  · rw [contents_empty rfl] at h
    cases h
    exact absurd rfl hb
  all_goals cases h

theorem contents_ok {m : Mem} {x : Res Ffi.Exit Bytes} {b : Bytes} (hx : x = .ok b)
    (hL : L.keeps = true) (hr : Spec.Room P m) (hl : b.length ≤ 448) :
    contents L (Ffi.finish P m x) = .value b := by
  obtain ⟨buf, before, after, h1, h2, h3, h4⟩ := finish_gives hr hl hx
  rw [h1]
  simp only [contents, if_neg h2, hL, if_true, read_eq_some.2 ⟨h3.symm, h4⟩]

/-- Without the luck that freed memory is intact, reading a result is undefined behaviour. -/
theorem contents_undefined {m : Mem} {x : Res Ffi.Exit Bytes} {b : Bytes} (hx : x = .ok b)
    (hL : L.keeps = false) (hr : Spec.Room P m) (hl : b.length ≤ 448) (hb : b ≠ []) :
    contents L (Ffi.finish P m x) = .undefined := by
  obtain ⟨buf, before, after, h1, h2, h3, h4⟩ := finish_gives hr hl hx
  rw [h1]
  have h5 : after.read buf.ptr buf.len.toNat = none := by
    subst hx
    simp only [Ffi.finish] at h1
    split at h1
    · cases h1
    · rename_i p hp
      cases h1
      dsimp only at h3 ⊢
      rw [h3]
      obtain ⟨x, b, rfl⟩ := List.exists_cons_of_ne_nil hb
      simp [Mem.read, Mem.free]
  simp only [contents, if_neg h2, hL, Bool.false_eq_true, if_false, h5]

/-! ### Verification -/

/-- **C58 (verification, accepted)**: if the issuer and the presentation decode and the issuer accepts
the presentation, `verify` returns the verified credential (if the freed buffer is still intact). -/
theorem C58_verify_accepted (hL : L.keeps = true) {i : Verif.SignalIssuer G}
    {p : SignalCredentialPresentation G} {v : VerifiedSignalCredential G}
    {si : Swift.SignalIssuer} {sp : Data}
    (hi : SignalIssuer.fromBytes P.checks si.data = .ok i) (hil : si.data.length < 2 ^ 31)
    (hp : SignalCredentialPresentation.fromBytes sp.data = .ok p) (hpl : sp.data.length < 2 ^ 31)
    (hi0 : si.data ≠ []) (hp0 : sp.data ≠ [])
    (hr : Spec.Room P (L.mem [si.data, sp.data])) (hv : i.verify O p = .ok v) :
    Swift.verify G R O P fuel L si sp = .value ⟨v.toBytes⟩ := by
  have hl : v.toBytes.length = 448 := by
    rw [verify_ok_eq hv]
    exact decoded_presentation_length hp
  have h := contents_ok (L := L) (P := P) (m := L.mem [si.data, sp.data])
    (x := Ffi.issuerVerifyBody G O P (L.mem [si.data, sp.data]) (L.addr [si.data, sp.data] 0)
      (count si.data) (L.addr [si.data, sp.data] 1) (count sp.data)) (b := v.toBytes) (by
      simp only [Ffi.issuerVerifyBody,
        slice_ok_iff.2 (runtime_denotes (P := P) (L := L) (arrays := [si.data, sp.data]) (i := 0)
          rfl hi0 hil),
        slice_ok_iff.2 (runtime_denotes (P := P) (L := L) (arrays := [si.data, sp.data]) (i := 1)
          rfl hp0 hpl), Res.ok_bind, Ffi.okOrReturn, hi, hp, hv, Res.mapErr_ok]) hL hr (by omega)
  simp only [Swift.verify, call, Ffi.Call.run, h, Outcome.andThen]
  exact C58_right_size_partial .verified _ hl nofun

/-- **C58 is false (verification)**: if the issuer rejects the presentation, `verify` returns a verified
credential all the same, holding 448 zero bytes. -/
theorem C58_verify_rejected {i : Verif.SignalIssuer G}
    {p : SignalCredentialPresentation G} {e : CredentialError}
    {si : Swift.SignalIssuer} {sp : Data}
    (hi : SignalIssuer.fromBytes P.checks si.data = .ok i) (hil : si.data.length < 2 ^ 31)
    (hp : SignalCredentialPresentation.fromBytes sp.data = .ok p) (hpl : sp.data.length < 2 ^ 31)
    (hi0 : si.data ≠ []) (hp0 : sp.data ≠ []) (hv : i.verify O p = .err e) :
    Swift.verify G R O P fuel L si sp = .value ⟨Spec.zeros 448⟩ := by
  have h := contents_empty (L := L) (P := P) (m := L.mem [si.data, sp.data])
    (x := Ffi.issuerVerifyBody G O P (L.mem [si.data, sp.data]) (L.addr [si.data, sp.data] 0)
      (count si.data) (L.addr [si.data, sp.data] 1) (count sp.data)) (by
      simp only [Ffi.issuerVerifyBody,
        slice_ok_iff.2 (runtime_denotes (P := P) (L := L) (arrays := [si.data, sp.data]) (i := 0)
          rfl hi0 hil),
        slice_ok_iff.2 (runtime_denotes (P := P) (L := L) (arrays := [si.data, sp.data]) (i := 1)
          rfl hp0 hpl), Res.ok_bind, Ffi.okOrReturn, hi, hp, hv, Res.mapErr_ok, Res.mapErr_err,
        Res.err_bind])
  simp only [Swift.verify, call, Ffi.Call.run, h, Outcome.andThen]
  exact (C58_wrong_size .verified [] (by decide)).trans rfl

/-! ### Issuer parameters -/

/-- **C58 (issuer parameters)**: `get_parameters` of an issuer for one attribute gives zero bytes, never
the parameters of the issuer (if the freed buffer is still intact). -/
theorem C58_get_parameters (hL : L.keeps = true) {i : Verif.SignalIssuer G} {X : G}
    {si : Swift.SignalIssuer} (hi : SignalIssuer.fromBytes P.checks si.data = .ok i)
    (hX : i.issuer.keypair.publicKey.Xn = [X]) (hil : si.data.length < 2 ^ 31) (hi0 : si.data ≠ [])
    (hr : Spec.Room P (L.mem [si.data])) :
    getParameters G R O P fuel L si = .value ⟨Spec.zeros 32⟩ := by
  have hl : (PublicKey.toBytes i.getIssuerParameters).length = 32 := by
    change (PublicKey.toBytes i.issuer.keypair.publicKey).length = 32
    rw [PublicKey.toBytes, hX]
    simp
  have h := contents_ok (L := L) (P := P) (m := L.mem [si.data])
    (x := Ffi.issuerGetIssuerParametersBody G P (L.mem [si.data]) (L.addr [si.data] 0)
      (count si.data)) (b := PublicKey.toBytes i.getIssuerParameters) (by
      simp only [Ffi.issuerGetIssuerParametersBody,
        slice_ok_iff.2 (runtime_denotes (P := P) (L := L) (arrays := [si.data]) (i := 0)
          rfl hi0 hil), Res.ok_bind, Ffi.okOrReturn, hi, Res.mapErr_ok]) hL hr (by omega)
  simp only [getParameters, call, Ffi.Call.run, h, Outcome.andThen]
  exact (C58_issuer_parameters (G := G) _ hl).1

/-- **C58 (credential issuance)**: a user made with these zero bytes as issuer parameters has data only if
the issuance carries a proof for an issuer whose parameter is the identity. -/
theorem C58_user_identity {number : Bytes} {params issuance : Data} {u : Swift.User}
    (hn : number.length < 2 ^ 31) (hp : params.data.length < 2 ^ 31)
    (hi : issuance.data.length < 2 ^ 31)
    (h : Swift.user G R O P fuel L number params ⟨Spec.zeros 32⟩ issuance = .value u)
    (hu : u.data ≠ []) :
    ∃ (sp : SystemParameters G) (c : CredentialIssuance G),
      SystemParameters.fromBytes params.data = .ok sp ∧
      CredentialIssuance.fromBytes issuance.data = .ok c ∧
      IssuanceRevealed.verify O [.init "AEONFLUX ISSUANCE"] c.proof
        ⟨c.credential.mac.nonce, c.credential.mac.mac, c.secretKeyCommitment, sp.g, sp.h, 0⟩ =
          true := by
  simp only [Swift.user, call, Ffi.Call.run] at h
  cases hc : contents L (Ffi.finish P (L.mem [number, params.data, Spec.zeros 32, issuance.data])
    (Ffi.userObtainFinishBody G O P (L.mem [number, params.data, Spec.zeros 32, issuance.data])
      (L.addr [number, params.data, Spec.zeros 32, issuance.data] 0) (count number)
      (L.addr [number, params.data, Spec.zeros 32, issuance.data] 1) (count params.data)
      (L.addr [number, params.data, Spec.zeros 32, issuance.data] 2) (count (Spec.zeros 32))
      (L.addr [number, params.data, Spec.zeros 32, issuance.data] 3) (count issuance.data))) with
  | value b =>
    rw [hc] at h
    cases h
    obtain ⟨b', hb'⟩ := contents_value hc hu
    simp only [Ffi.userObtainFinishBody, Res.bind_eq_ok, okOrReturn_eq_ok] at hb'
    obtain ⟨b1, h1, sp, h2, b3, h3, ip, h4, b5, h5, c, h6, b7, h7, us, h8, _, h9, _⟩ := hb'
    cases runtime_slice (i := 1) rfl hp h1
    cases runtime_slice (i := 2) rfl (by decide) h3
    cases runtime_slice (i := 3) rfl hi h5
    cases runtime_slice (i := 0) rfl hn h7
    rw [(C58_issuer_parameters (G := G) (Spec.zeros 32) rfl).2] at h4
    cases h4
    refine ⟨sp, c, h2, h6, ?_⟩
    simp only [SignalUser.new, Res.bind_eq_ok] at h8
    obtain ⟨n, _, h10⟩ := h8
    cases h10
    rw [(C34_signal _ _ _).1] at h9
    obtain ⟨c', X, hc', hX, hv⟩ := (C34_outcomes O _ _).1.1 h9
    cases hc'
    cases hX
    exact hv
  | nil => rw [hc] at h; cases h
  | crash => rw [hc] at h; cases h
  | undefined => rw [hc] at h; cases h
  | hangs => rw [hc] at h; cases h

/-- The transcript whose hash is the challenge when an issuance is checked with the parameter `Y`. -/
def Spec.issuanceTranscript (sp : SystemParameters G) (c : CredentialIssuance G) (Y : G) : Transcript :=
  IssuanceRevealed.verifyTranscript [.init "AEONFLUX ISSUANCE"]
    ⟨c.credential.mac.nonce, c.credential.mac.mac, c.secretKeyCommitment, sp.g, sp.h, Y⟩
    (IssuanceRevealed.recommit
      ⟨c.credential.mac.nonce, c.credential.mac.mac, c.secretKeyCommitment, sp.g, sp.h, Y⟩ c.proof)

/-- **C58 (the flow of the protocol)**: an issuance that a user with the right issuer parameter `X` would
accept is not accepted through Swift, where the user gets the identity for it, unless the hash of two
particular transcripts, which differ, happens to be the same. -/
theorem C58_flow {number : Bytes} {params issuance : Data} {u : Swift.User}
    {sp : SystemParameters G} {c : CredentialIssuance G} {X : G} {k : Option (Elgamal.Keypair G)}
    {cr : Option (Credential G)}
    (hn : number.length < 2 ^ 31) (hp : SystemParameters.fromBytes params.data = .ok sp)
    (hi : issuance.data.length < 2 ^ 31)
    (hc : CredentialIssuance.fromBytes issuance.data = .ok c) (hX : X ≠ 0)
    (hok : (User.obtainFinish O ⟨sp, ⟨[X]⟩, k, cr⟩ (some c)).1 = .ok ())
    (h : Swift.user G R O P fuel L number params ⟨Spec.zeros 32⟩ issuance = .value u) :
    u.data = [] ∨ (Spec.issuanceTranscript sp c X ≠ Spec.issuanceTranscript sp c 0 ∧
      (leVal (O.chal (Spec.issuanceTranscript sp c X) "chal" 64) : F) =
        leVal (O.chal (Spec.issuanceTranscript sp c 0) "chal" 64)) := by
  by_cases hu : u.data = []
  · exact .inl hu
  have hpl : params.data.length < 2 ^ 31 := by
    rw [(C01_ok_iff _ _).1 hp]
    simp
  obtain ⟨sp', c', h1, h2, h3⟩ := C58_user_identity (G := G) (R := R) (fuel := fuel) hn hpl hi h hu
  rw [hp] at h1
  rw [hc] at h2
  cases h1
  cases h2
  obtain ⟨c', X', hc', hX', hv⟩ := (C34_outcomes O _ _).1.1 hok
  cases hc'
  cases hX'
  have e1 := of_decide_eq_true h3
  have e2 := of_decide_eq_true hv
  refine .inr ⟨?_, ?_⟩
  · intro he
    have e4 := List.append_cancel_left he
    simp only [List.cons.injEq, Op.commit.injEq, true_and] at e4
    exact hX (enc_inj e4.1)
  · have e3 := congrArg Scalar.val (e2.trans e1.symm)
    simp only [getChallenge, Scalar.fromWide, Scalar.val_ofF] at e3
    exact e3

/-- The constants for classes without `init?(withBytes:)` are right: from arguments of the documented
sizes a user is empty or has `LENGTH_USER` bytes, and an issuer is empty or has `LENGTH_ISSUER` bytes. -/
theorem C58_lengths {number : Bytes} {keypair params issuerParams issuance : Data} :
    (∀ u, Swift.user G R O P fuel L number params issuerParams issuance = .value u →
      params.data.length = 64 → issuerParams.data.length = 32 → issuance.data.length = 328 →
      u.data = [] ∨ u.data.length = lengthUser) ∧
    (∀ i, signalIssuerWithKeypair G R O P fuel L keypair params = .value i →
      params.data.length = 64 → keypair.data.length = 96 →
      i.data = [] ∨ i.data.length = lengthIssuer) := by
  have key : ∀ (m : Mem) (c : Ffi.Call) (b : Bytes), contents L (c.run G R O P fuel m) = .value b →
      Spec.WellSized c → (∀ i il v vl, c ≠ .issuerVerifyRosterMembership i il v vl) →
      b = [] ∨ b.length = Spec.documented c := by
    intro m c b h hw hc
    cases ho : c.run G R O P fuel m with
    | returns buf before after =>
      rw [ho] at h
      simp only [contents] at h
      split at h
      · cases h
      · split at h
        · rename_i b' hb'
          cases h
          have h1 := (read_eq_some.1 hb').1
          by_cases h0 : buf.len = 0
          · refine .inl (List.length_eq_zero_iff.1 ?_)
            rw [h1, h0]
            rfl
          · exact .inr (h1.trans (C52_documented_partial G R O P fuel m ho h0 hw hc))
        · cases h
    | panics => rw [ho] at h; cases h
    | outOfMemory => rw [ho] at h; cases h
    | undefined => rw [ho] at h; cases h
    | hangs => rw [ho] at h; cases h
  constructor
  · intro u h h1 h2 h3
    simp only [Swift.user] at h
    generalize hx : contents L _ = x at h
    cases x <;> simp only [Outcome.andThen, Outcome.value.injEq, reduceCtorEq] at h
    subst h
    exact key _ _ _ hx ⟨by rw [count, h1]; rfl, by rw [count, h2]; rfl, by rw [count, h3]; rfl⟩ nofun
  · intro i h h1 h2
    simp only [signalIssuerWithKeypair] at h
    generalize hx : contents L _ = x at h
    cases x <;> simp only [Outcome.andThen, Outcome.value.injEq, reduceCtorEq] at h
    subst h
    exact key _ _ _ hx ⟨by rw [count, h1]; rfl, by rw [count, h2]; rfl⟩ nofun

/-- **C58 (presentations)**: a user whose issuance failed holds no bytes, and `show` then returns a
presentation of 448 zero bytes. -/
theorem C58_show_failed {entry : Data} {seed e₂ e₃ : Bytes} (hs : seed.length = 32) :
    Swift.show G R O P fuel L ⟨[]⟩ entry seed e₂ e₃ = .value ⟨Spec.zeros 448⟩ := by
  have h := contents_empty (L := L) (P := P) (m := L.mem [[], entry.data, seed])
    (x := Ffi.userShowBody G R O P (L.mem [[], entry.data, seed]) (L.addr [[], entry.data, seed] 0)
      (count []) (L.addr [[], entry.data, seed] 1) (count entry.data)
      (L.addr [[], entry.data, seed] 2) e₂ e₃) (by
      simp only [Ffi.userShowBody,
        seed_ok_iff.2 ⟨seed, runtime_seed (L := L) (arrays := [[], entry.data, seed]) (i := 2) rfl hs,
          rfl⟩, Res.ok_bind,
        slice_empty_iff.2 (show (Spec.Arg.bytes (L.addr [[], entry.data, seed] 0) (count [])).Absent
          from .inr rfl), Res.err_bind])
  simp only [Swift.show, if_neg (not_not.2 hs), call, Ffi.Call.run, h, Outcome.andThen]
  exact (C58_wrong_size .presentation [] (by decide)).trans rfl

/-- **C58 (opening)**: `open` returns true exactly if the entry opens to the number. Full claim: for
numbers of any length. Missing: lengths from 28 to 32, for which the callee panics (C16). -/
theorem C58_open_partial {entry params : Data} {number : Bytes} {g h : G}
    {x : Verif.RosterEntryCommitment G} (hp : params.data = enc g ++ enc h)
    (hx : RosterEntryCommitment.fromBytes entry.data = .ok x) (he : entry.data.length < 2 ^ 31)
    (hn : number ≠ []) (hl : number.length ≤ 27 ∨ 33 ≤ number.length) (hn' : number.length < 2 ^ 31) :
    ∃ r, rosterEntryCommitmentOpen G R O P fuel L entry number params = .value r ∧
      (r = true ↔ ∃ s, PhoneNumber.tryFromBytes number = .ok s ∧
        x.commitment = s.val • h + x.opening.val • g) := by
  have he0 : entry.data ≠ [] := by
    rintro h0
    obtain ⟨o, ho, h1, _⟩ := (C12_roster_ok_iff _ _).1 hx
    rw [h0] at h1
    have := congrArg List.length h1
    simp at this
    omega
  obtain ⟨params⟩ := params
  dsimp only at hp
  subst hp
  have hp0 : enc g ++ enc h ≠ [] := by
    intro h0
    have := congrArg List.length h0
    simp at this
  have hpl : (enc g ++ enc h).length < 2 ^ 31 := by simp
  obtain ⟨buf, h1, h2, h3, h4⟩ := C54_open_partial R O (P := P)
    (m := L.mem [entry.data, number, enc g ++ enc h]) fuel
    (runtime_denotes (arrays := [entry.data, number, enc g ++ enc h]) (i := 1) rfl hn hn')
    (runtime_denotes (arrays := [entry.data, number, enc g ++ enc h]) (i := 2) rfl hp0 hpl)
    (runtime_denotes (arrays := [entry.data, number, enc g ++ enc h]) (i := 0) rfl he0 he) hx hl
  refine ⟨buf.len == 1, by simp only [rosterEntryCommitmentOpen, call, h1], ?_⟩
  rw [beq_iff_eq]
  exact h4

end

/-! ## Witnesses -/

/-- Arrays one after the other, from address 1 on. -/
def flat (keeps : Bool) : Runtime where
  mem arrays a := if a = 0 then none else arrays.flatten[a - 1]?
  addr arrays i := 1 + (arrays.take i).flatten.length
  holds := by
    intro arrays i b h
    refine ⟨by omega, fun k hk => ?_⟩
    obtain ⟨hi, rfl⟩ := List.getElem?_eq_some_iff.1 h
    rw [if_neg (by omega)]
    conv_lhs => rw [← List.take_append_drop i arrays, List.flatten_append]
    rw [List.take_append_drop, List.drop_eq_getElem_cons hi, List.flatten_cons,
      List.getElem?_append_right (by omega), List.getElem?_append_left (by omega)]
    congr 1
    omega
  keeps := keeps

theorem flat_room {keeps wide checks : Bool} (arrays : List Bytes) :
    Spec.Room (roomy wide checks) ((flat keeps).mem arrays) := by
  refine roomy_room (B := arrays.flatten.length + 1) fun a ha => ?_
  simp only [flat]
  rw [if_neg (by omega), List.getElem?_eq_none (by omega)]

/-- C58 is false of `verify`: an issuer and a presentation such that the issuer rejects the presentation
and `verify` returns a verified credential. -/
theorem C58_verify_false (keeps wide checks : Bool) :
    ∃ (i : Verif.SignalIssuer F) (p : SignalCredentialPresentation F) (e : CredentialError)
      (si : Swift.SignalIssuer) (sp v : Data),
      SignalIssuer.fromBytes checks si.data = .ok i ∧
      SignalCredentialPresentation.fromBytes sp.data = .ok p ∧ i.verify toyOracle p = .err e ∧
      Swift.verify F ToyRng toyOracle (roomy wide checks) 1 (flat keeps) si sp = .value v := by
  have h0 := Scalar.reduced_zero
  obtain ⟨h1, _, h3⟩ := C10_roundtrip (⟨0, ⟨0, 0, [], [0], ⟨0, ⟨0, 0, 0⟩⟩⟩, ⟨0, ⟨0, 0, 0⟩⟩⟩ :
    SignalCredentialPresentation F) 0 ⟨⟨rfl, rfl, h0, h0, h0, h0⟩, h0, h0, h0, h0⟩
  have hi := C06_signal_roundtrip checks (⟨⟨⟨0, 0⟩, ⟨⟨[0]⟩, ⟨0, [0]⟩⟩⟩⟩ : Verif.SignalIssuer F) rfl
    (le_refl 1) h0 (by simp [h0])
  have hl : (SignalIssuer.toBytes (⟨⟨⟨0, 0⟩, ⟨⟨[0]⟩, ⟨0, [0]⟩⟩⟩⟩ : Verif.SignalIssuer F)).length =
      160 := by
    decide +kernel
  have hv : SignalIssuer.verify toyOracle (⟨⟨⟨0, 0⟩, ⟨⟨[0]⟩, ⟨0, [0]⟩⟩⟩⟩ : Verif.SignalIssuer F)
      ⟨0, ⟨0, 0, [], [0], ⟨0, ⟨0, 0, 0⟩⟩⟩, ⟨0, ⟨0, 0, 0⟩⟩⟩ = .err .macVerification := by
    decide +kernel
  exact ⟨_, _, _, ⟨⟨[]⟩, _⟩, ⟨_⟩, _, hi, h1, hv, C58_verify_rejected hi (hl ▸ by decide) h1
    (h3 ▸ by decide) (List.length_pos_iff.1 (hl ▸ by decide))
    (List.length_pos_iff.1 (h3 ▸ by decide)) hv⟩

-- the hypotheses of C58_verify_accepted and C58_get_parameters
example : ∃ (i : Verif.SignalIssuer F) (p : SignalCredentialPresentation F)
    (v : VerifiedSignalCredential F) (si : Swift.SignalIssuer) (sp : Data) (X : F),
    SignalIssuer.fromBytes true si.data = .ok i ∧ si.data.length = 160 ∧
    SignalCredentialPresentation.fromBytes sp.data = .ok p ∧ sp.data.length = 448 ∧
    i.verify toyOracle p = .ok v ∧ i.issuer.keypair.publicKey.Xn = [X] ∧
    Spec.Room (roomy true true) ((flat true).mem [si.data, sp.data]) ∧
    Spec.Room (roomy true true) ((flat true).mem [si.data]) ∧ (flat true).keeps = true := by
  obtain ⟨h5, _⟩ := signal_presentation_verifies toyOracle (sp := (⟨1, 6⟩ : SystemParameters F))
    (x0 := 1) (x1 := 1) (m := 1) (tag := ⟨1, 2⟩) (by decide +kernel) 1 1 1 (ros := ⟨7, 1⟩)
    (by decide +kernel) [] [] _ rfl
  obtain ⟨hp1, _, hp3⟩ := C10_roundtrip (signalPresentationData (⟨1, 6⟩ : SystemParameters F)
    ((1 : Scalar).val • (6 : F)) ⟨1, 2⟩ 1 1 1 1 ⟨7, 1⟩
    (ValidCredential.create toyOracle Issuer.showTranscript [])
    (CommittedValuesEqual.create toyOracle SignalIssuer.membershipTranscript [])) _
    ⟨⟨rfl, rfl, Scalar.reduced_fromWide _, Scalar.reduced_add _ _, Scalar.reduced_add _ _,
      Scalar.reduced_add _ _⟩, Scalar.reduced_fromWide _, Scalar.reduced_add _ _,
      Scalar.reduced_add _ _, Scalar.reduced_add _ _⟩
  have hi := C06_signal_roundtrip true (⟨⟨⟨1, 6⟩, ⟨⟨[(1 : Scalar).val • (6 : F)]⟩, ⟨1, [1]⟩⟩⟩⟩ :
    Verif.SignalIssuer F) rfl (le_refl 1) (by decide +kernel) (by decide +kernel)
  exact ⟨_, _, _, ⟨⟨[]⟩, _⟩, ⟨_⟩, _, hi, by decide +kernel, hp1, hp3, h5, rfl, flat_room _,
    flat_room _, rfl⟩

-- the hypotheses of C58_open_partial, for an entry that opens to the number 1
example : RosterEntryCommitment.fromBytes (Verif.RosterEntryCommitment.toBytes (⟨7, 1⟩ :
      Verif.RosterEntryCommitment F)) = .ok (⟨7, 1⟩ : Verif.RosterEntryCommitment F) ∧
    ([1] : Bytes) ≠ [] ∧ ([1] : Bytes).length ≤ 27 :=
  ⟨C12_roster_roundtrip _, by decide, by decide⟩

-- the hypotheses of C58_flow and C58_user_identity
example : ∃ (c : CredentialIssuance F) (X : F) (u : Swift.User), X ≠ 0 ∧
    CredentialIssuance.fromBytes c.toBytes = .ok c ∧
    (User.obtainFinish toyOracle (⟨⟨1, 6⟩, ⟨[X]⟩, none, none⟩ : Verif.User F) (some c)).1 = .ok () ∧
    Swift.user F ToyRng toyOracle (roomy true true) 1 (flat true) [49]
      ⟨SystemParameters.toBytes (⟨1, 6⟩ : SystemParameters F)⟩ ⟨Spec.zeros 32⟩ ⟨c.toBytes⟩ =
        .value u := by
  obtain ⟨c, hc⟩ : ∃ c : CredentialIssuance F,
      c = ⟨1, ⟨⟨1, 1⟩, [1]⟩, ⟨.ofF 12, ⟨1, 1, 1, 1⟩⟩⟩ := ⟨_, rfl⟩
  have hcb : CredentialIssuance.fromBytes c.toBytes = .ok c := by rw [hc]; decide +kernel
  have hcl : c.toBytes.length = 328 := by rw [hc]; decide +kernel
  have hsl : (SystemParameters.toBytes (⟨1, 6⟩ : SystemParameters F)).length = 64 := by decide +kernel
  obtain ⟨us, hus⟩ : ∃ us : SignalUser F, SignalUser.new ⟨1, 6⟩ ⟨[0]⟩ none [49] = .ok us :=
    ⟨⟨_, _⟩, rfl⟩
  have hok : (us.obtainFinish toyOracle (some c)).1 = .ok () := by
    cases hus
    rw [hc]
    decide +kernel
  let A := [[49], SystemParameters.toBytes (⟨1, 6⟩ : SystemParameters F), Spec.zeros 32, c.toBytes]
  have h := contents_ok (L := flat true) (P := roomy true true) (m := (flat true).mem A)
    (x := Ffi.userObtainFinishBody F toyOracle (roomy true true) ((flat true).mem A)
      ((flat true).addr A 0) (count [49])
      ((flat true).addr A 1) (count (SystemParameters.toBytes (⟨1, 6⟩ : SystemParameters F)))
      ((flat true).addr A 2) (count (Spec.zeros 32)) ((flat true).addr A 3) (count c.toBytes))
    (b := (us.obtainFinish toyOracle (some c)).2.toBytes) (by
      simp only [Ffi.userObtainFinishBody,
        slice_ok_iff.2 (runtime_denotes (P := roomy true true) (L := flat true) (arrays := A) (i := 0)
          rfl (by decide) (by decide)),
        slice_ok_iff.2 (runtime_denotes (P := roomy true true) (L := flat true) (arrays := A) (i := 1)
          rfl (List.length_pos_iff.1 (hsl ▸ by decide)) (hsl ▸ by decide)),
        slice_ok_iff.2 (runtime_denotes (P := roomy true true) (L := flat true) (arrays := A) (i := 2)
          rfl (by decide) (by decide)),
        slice_ok_iff.2 (runtime_denotes (P := roomy true true) (L := flat true) (arrays := A) (i := 3)
          rfl (List.length_pos_iff.1 (hcl ▸ by decide)) (hcl ▸ by decide)),
        Res.ok_bind, Ffi.okOrReturn, C01_roundtrip,
        (C58_issuer_parameters (G := F) (Spec.zeros 32) rfl).2, hcb, hus, hok, Res.mapErr_ok])
    rfl (flat_room _) (by cases hus; rw [hc]; decide +kernel)
  refine ⟨c, 1, ⟨(us.obtainFinish toyOracle (some c)).2.toBytes⟩, one_ne_zero, hcb,
    by rw [hc]; decide +kernel, ?_⟩
  simp only [Swift.user, call, Ffi.Call.run]
  rw [h]
  rfl

end Verif
