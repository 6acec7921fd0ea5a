import Verif.Props.FfiBuffers
import Verif.Props.Params

/-!
# The whole protocol through the C interface (C55)
-/

set_option maxRecDepth 100000

namespace Verif

open Ffi Amacs

/-- The call returned the bytes `b`: they were in the buffer when the return value was formed. (They no
longer are when the caller continues, `C53_dangles`.) -/
def Spec.Gives (o : Outcome) (b : Bytes) : Prop :=
  ∃ buf before after, o = .returns buf before after ∧ buf.ptr ≠ 0 ∧ buf.len.toNat = b.length ∧
    Spec.At before buf.ptr b

/-- The allocator has room for every result of the protocol. -/
def Spec.Room (P : Platform) (m : Mem) : Prop := ∀ n ≤ 448, P.alloc m n ≠ none

theorem finish_gives {P : Platform} {m : Mem} {x : Res Exit Bytes} {b : Bytes} (hr : Spec.Room P m)
    (hl : b.length ≤ 448) (hx : x = .ok b) : Spec.Gives (finish P m x) b := by
  subst hx
  obtain ⟨p, hp⟩ := Option.ne_none_iff_exists'.1 (hr b.length hl)
  refine ⟨⟨UInt64.ofNat b.length, p⟩, m.write p b, (m.write p b).free p b.length, ?_,
    (P.alloc_fresh m _ p hp).1, ?_, at_write _ _ _⟩
  · simp only [finish, hp]
  · rw [UInt64.toNat_ofNat', Nat.mod_eq_of_lt]
    omega

variable {G : Type} [AddCommGroup G] [Module F G] [Ristretto G] [DecidableEq G]
variable (R : Type) [SeedableRng R] (O : Oracle) (P : Platform) (fuel : ℕ)

/-- For all seeds and every number of up to 27 bytes (at least 1, or no pointer denotes it) the calls succeed one after the other, each given
the bytes the previous ones returned: in whatever memory, at whatever addresses. The last steps
return the committed number that is in the roster. Full claim: without the hypothesis `hh`. Missing:
that the search for parameters ends, which no theorem about ChaCha is available for. -/
theorem C55_chain_partial {s₀ s₁ s₂ s₃ s₄ number e₁ e₂ e₃ : Bytes} (hn : number.length ≤ 27)
    {params : SystemParameters G} {r' : R}
    (hh : SystemParameters.huntAndPeck fuel (SeedableRng.fromSeed s₀ : R) = some (params, r')) :
    ∃ sp kp is ip ci us re sh ve cm : Bytes,
      [sp, kp, is, ip, ci, us, re, sh, ve, cm].map List.length =
        [64, 96, 160, 32, 328, 288, 64, 448, 448, 32] ∧
      (∀ m s, Spec.Room P m → Spec.SeedAt m s s₀ →
        Spec.Gives (Call.run G R O P fuel m (.systemParametersCreate s)) sp) ∧
      (∀ m a al s, Spec.Room P m → Spec.Denotes P m a al sp → Spec.SeedAt m s s₁ →
        Spec.Gives (Call.run G R O P fuel m (.issuerCreate a al s)) kp) ∧
      (∀ m a al k kl, Spec.Room P m → Spec.Denotes P m a al sp → Spec.Denotes P m k kl kp →
        Spec.Gives (Call.run G R O P fuel m (.issuerNew a al k kl)) is) ∧
      (∀ m i il, Spec.Room P m → Spec.Denotes P m i il is →
        Spec.Gives (Call.run G R O P fuel m (.issuerGetIssuerParameters i il)) ip) ∧
      (∀ m i il n nl s, Spec.Room P m → Spec.Denotes P m i il is → Spec.Denotes P m n nl number →
        Spec.SeedAt m s s₂ →
        Spec.Gives (Call.run G R O P fuel m (.issuerIssue i il n nl s e₁)) ci) ∧
      (∀ m n nl a al j jl c cl, Spec.Room P m → Spec.Denotes P m n nl number →
        Spec.Denotes P m a al sp → Spec.Denotes P m j jl ip → Spec.Denotes P m c cl ci →
        Spec.Gives (Call.run G R O P fuel m (.userObtainFinish n nl a al j jl c cl)) us) ∧
      (∀ m n nl a al s, Spec.Room P m → Spec.Denotes P m n nl number → Spec.Denotes P m a al sp →
        Spec.SeedAt m s s₃ →
        Spec.Gives (Call.run G R O P fuel m (.rosterEntryCommitmentCreate n nl a al s)) re) ∧
      (∀ m u ul r rl s, Spec.Room P m → Spec.Denotes P m u ul us → Spec.Denotes P m r rl re →
        Spec.SeedAt m s s₄ →
        Spec.Gives (Call.run G R O P fuel m (.userShow u ul r rl s e₂ e₃)) sh) ∧
      (∀ m i il p pl, Spec.Room P m → Spec.Denotes P m i il is → Spec.Denotes P m p pl sh →
        Spec.Gives (Call.run G R O P fuel m (.issuerVerify i il p pl)) ve) ∧
      (∀ m i il v vl, Spec.Room P m → Spec.Denotes P m i il is → Spec.Denotes P m v vl ve →
        Spec.Gives (Call.run G R O P fuel m (.issuerVerifyRosterMembership i il v vl)) cm) ∧
      (∀ m r rl, Spec.Room P m → Spec.Denotes P m r rl re →
        Spec.Gives (Call.run G R O P fuel m (.rosterEntryCommitmentRemoveOpening r rl)) cm) ∧
      (∀ m r rl n nl a al, Spec.Denotes P m r rl re → Spec.Denotes P m n nl number →
        Spec.Denotes P m a al sp →
        Call.run G R O P fuel m (.rosterEntryCommitmentOpen r rl n nl a al) =
          .returns ⟨1, 0⟩ m m) := by
  have hnum : PhoneNumber.tryFromBytes number = .ok _ := PhoneNumber.encodeWith_ok id _ hn
  generalize Scalar.fromBytesModOrder _ = m at hnum
  obtain ⟨hmr, hm0⟩ := C18_canonical (.inl hnum)
  obtain ⟨x0, x1, hx0, hx1, hi⟩ : ∃ x0 x1 : Scalar, x0.Reduced ∧ x1.Reduced ∧
      (SignalIssuer.create params (SeedableRng.fromSeed s₁ : R)).1 =
        ⟨⟨params, ⟨⟨[x1.val • params.h]⟩, ⟨x0, [x1]⟩⟩⟩⟩ :=
    ⟨_, _, Scalar.reduced_fromWide _, Scalar.reduced_fromWide _, rfl⟩
  have hm : Spec.KeypairMatches (⟨params, ⟨⟨[x1.val • params.h]⟩, ⟨x0, [x1]⟩⟩⟩ : Issuer G) :=
    ⟨x1, rfl, rfl⟩
  have hu : SignalUser.new params ⟨[x1.val • params.h]⟩ none number =
      .ok ⟨m, ⟨params, ⟨[x1.val • params.h]⟩, none, none⟩⟩ := by
    simp only [SignalUser.new, hnum, Res.mapErr_ok, Res.ok_bind]
    rfl
  have his : SignalIssuer.issue O ⟨⟨params, ⟨⟨[x1.val • params.h]⟩, ⟨x0, [x1]⟩⟩⟩⟩ number
      (SeedableRng.fromSeed s₂ : R) e₁ =
      Issuer.issue O ⟨params, ⟨⟨[x1.val • params.h]⟩, ⟨x0, [x1]⟩⟩⟩ ⟨[m]⟩
        (SeedableRng.fromSeed s₂ : R) e₁ := by
    simp only [SignalIssuer.issue, hnum, Res.mapErr_ok]
  obtain ⟨c, h1, h2, h3, h4⟩ := C33_honest_accepted O hm m (SeedableRng.fromSeed s₂ : R) e₁
    ⟨params, ⟨[x1.val • params.h]⟩, none, none⟩ rfl rfl
  have hcOK : Spec.IssuanceOK c m := by
    rw [issue_one] at h1
    cases h1
    refine ⟨rfl, hmr, Scalar.reduced_fromWide _, Scalar.reduced_add _ _, Scalar.reduced_add _ _,
      Scalar.reduced_add _ _, Scalar.reduced_add _ _⟩
  obtain ⟨pf, ⟨tag, as⟩, sk⟩ := c
  dsimp only at h2 h3
  subst h2
  simp only [Spec.MacValid, Spec.macFactor, List.map_cons, List.map_nil] at h3
  have h4' : SignalUser.obtainFinish O ⟨m, ⟨params, ⟨[x1.val • params.h]⟩, none, none⟩⟩
      (some ⟨pf, ⟨tag, [m]⟩, sk⟩) =
      (.ok (), ⟨m, ⟨params, ⟨[x1.val • params.h]⟩, none, some ⟨tag, [m]⟩⟩⟩) := by
    rw [SignalUser.obtainFinish]
    simp only [h4]
  have hu2 : SignalUser.fromBytes
      (SignalUser.toBytes ⟨m, ⟨params, ⟨[x1.val • params.h]⟩, none, some ⟨tag, [m]⟩⟩⟩) =
      .ok ⟨m, ⟨params, ⟨[x1.val • params.h]⟩, none, some ⟨tag, [m]⟩⟩⟩ := by
    rw [C11_signal_roundtrip_iff, C11_roundtrip_iff]
    refine ⟨rfl, nofun, ?_⟩
    intro c hc
    cases hc
    refine ⟨m, rfl, hmr, ?_⟩
    rintro ⟨_, _, h0⟩
    exact hm0 (by rw [h0, Scalar.val_zero])
  have hros := roster_create number params (SeedableRng.fromSeed s₃ : R) hnum
  generalize hop : (Scalar.random (SeedableRng.fromSeed s₃ : R)).1 = op at hros
  obtain ⟨h5, h6⟩ := signal_presentation_verifies O (sp := params) h3
    (signalShowDraws O (SeedableRng.fromSeed s₄ : R)).1
    (signalShowDraws O (SeedableRng.fromSeed s₄ : R)).2.1
    (signalShowDraws O (SeedableRng.fromSeed s₄ : R)).2.2
    (ros := ⟨m • params.h + op • params.g, op⟩) rfl e₂ e₃ _ rfl
  have hsh := signal_show_one O (sp := params) (X := x1.val • params.h) (Xs := []) (k := none)
    (tag := tag) m m (SeedableRng.fromSeed s₄ : R) ⟨m • params.h + op • params.g, op⟩ e₂ e₃
  obtain ⟨hp1, hp2, hp3⟩ := C10_roundtrip (signalPresentationData params (x1.val • params.h) tag m
    (signalShowDraws O (SeedableRng.fromSeed s₄ : R)).1
    (signalShowDraws O (SeedableRng.fromSeed s₄ : R)).2.1
    (signalShowDraws O (SeedableRng.fromSeed s₄ : R)).2.2
    ⟨m • params.h + op • params.g, op⟩
    (ValidCredential.create O Issuer.showTranscript e₂)
    (CommittedValuesEqual.create O SignalIssuer.membershipTranscript e₃)) _
    ⟨⟨rfl, rfl, Scalar.reduced_fromWide _, Scalar.reduced_add _ _, Scalar.reduced_add _ _,
      Scalar.reduced_add _ _⟩, Scalar.reduced_fromWide _, Scalar.reduced_add _ _,
      Scalar.reduced_add _ _, Scalar.reduced_add _ _⟩
  generalize signalPresentationData params (x1.val • params.h) tag m
    (signalShowDraws O (SeedableRng.fromSeed s₄ : R)).1
    (signalShowDraws O (SeedableRng.fromSeed s₄ : R)).2.1
    (signalShowDraws O (SeedableRng.fromSeed s₄ : R)).2.2
    ⟨m • params.h + op • params.g, op⟩
    (ValidCredential.create O Issuer.showTranscript e₂)
    (CommittedValuesEqual.create O SignalIssuer.membershipTranscript e₃) = pres
    at h5 h6 hsh hp1 hp2 hp3
  have hsi := C06_signal_roundtrip P.checks
    (⟨⟨params, ⟨⟨[x1.val • params.h]⟩, ⟨x0, [x1]⟩⟩⟩⟩ : SignalIssuer G) rfl (le_refl 1) hx0
    (by simpa using hx1)
  have hkr := C05_roundtrip P.checks (⟨⟨[x1.val • params.h]⟩, ⟨x0, [x1]⟩⟩ : Keypair G) rfl hx0
    (by simpa using hx1)
  have hkl := keypair_toBytes_length (⟨⟨[x1.val • params.h]⟩, ⟨x0, [x1]⟩⟩ : Keypair G)
  have hpl := params_toBytes_length params
  have hcr := (C08_roundtrip _ _ hcOK).1
  have hpr := C01_roundtrip params
  have hrr := C12_roster_roundtrip (⟨m • params.h + op • params.g, op⟩ : RosterEntryCommitment G)
  refine ⟨params.toBytes, Keypair.toBytes ⟨⟨[x1.val • params.h]⟩, ⟨x0, [x1]⟩⟩,
    SignalIssuer.toBytes ⟨⟨params, ⟨⟨[x1.val • params.h]⟩, ⟨x0, [x1]⟩⟩⟩⟩,
    PublicKey.toBytes ⟨[x1.val • params.h]⟩,
    CredentialIssuance.toBytes ⟨pf, ⟨tag, [m]⟩, sk⟩,
    SignalUser.toBytes ⟨m, ⟨params, ⟨[x1.val • params.h]⟩, none, some ⟨tag, [m]⟩⟩⟩,
    RosterEntryCommitment.toBytes ⟨m • params.h + op • params.g, op⟩, pres.toBytes,
    VerifiedSignalCredential.toBytes ⟨pres⟩,
    CommittedPhoneNumber.toBytes (m • params.h + op • params.g), ?_, ?_, ?_, ?_, ?_, ?_, ?_, ?_, ?_,
    ?_, ?_, ?_, ?_⟩
  · have hul := user_toBytes_length (u := (⟨m, ⟨params, ⟨[x1.val • params.h]⟩, none,
      some ⟨tag, [m]⟩⟩⟩ : SignalUser G)) rfl rfl
    have hil : (SignalIssuer.toBytes (⟨⟨params, ⟨⟨[x1.val • params.h]⟩, ⟨x0, [x1]⟩⟩⟩⟩ :
        SignalIssuer G)).length = 160 := by
      rw [SignalIssuer.toBytes, Issuer.toBytes, List.length_append, hpl, hkl]
      simp
    have hvl : (VerifiedSignalCredential.toBytes ⟨pres⟩).length = 448 := hp3
    simp only [List.map_cons, List.map_nil, hul, hil, hvl, hp3, hpl, hkl, roster_toBytes_length,
      issuance_toBytes_length]
    simp [PublicKey.toBytes, CommittedPhoneNumber.toBytes, Pedersen.toBytes]
  · intro mem s hr hs
    refine finish_gives hr (by omega) ?_
    simp only [systemParametersCreateBody, seed_ok_iff.2 ⟨s₀, hs, rfl⟩, Res.ok_bind, hh]
  · intro mem a al s hr ha hs
    refine finish_gives hr (by simp [hkl]) ?_
    simp only [issuerCreateBody, seed_ok_iff.2 ⟨s₁, hs, rfl⟩, slice_ok_iff.2 ha, Res.ok_bind, hpr,
      okOrReturn, Res.mapErr_ok, hi]
  · intro mem a al k kl hr ha hk
    refine finish_gives hr ?_ ?_
    · rw [SignalIssuer.toBytes, Issuer.toBytes, List.length_append, hpl, hkl]
      simp
    · simp only [issuerNewBody, slice_ok_iff.2 ha, slice_ok_iff.2 hk, Res.ok_bind, hpr, hkr,
        okOrReturn, Res.mapErr_ok]
      rfl
  · intro mem i il hr hi'
    refine finish_gives hr ?_ ?_
    · simp [PublicKey.toBytes]
    · simp only [issuerGetIssuerParametersBody, slice_ok_iff.2 hi', Res.ok_bind, hsi,
        okOrReturn, Res.mapErr_ok]
      rfl
  · intro mem i il n nl s hr hi' hn' hs
    refine finish_gives hr ?_ ?_
    · simp [issuance_toBytes_length]
    · simp only [issuerIssueBody, slice_ok_iff.2 hi', slice_ok_iff.2 hn', seed_ok_iff.2 ⟨s₂, hs, rfl⟩,
        Res.ok_bind, hsi, okOrReturn, Res.mapErr_ok, his, h1]
  · intro mem n nl a al j jl c cl hr hn' ha hj hc
    refine finish_gives hr ?_ ?_
    · rw [user_toBytes_length rfl rfl]
      simp
    · simp only [userObtainFinishBody, slice_ok_iff.2 hn', slice_ok_iff.2 ha, slice_ok_iff.2 hj,
        slice_ok_iff.2 hc, Res.ok_bind, hpr, C03_roundtrip, hcr, okOrReturn, Res.mapErr_ok, hu, h4']
  · intro mem n nl a al s hr hn' ha hs
    refine finish_gives hr ?_ ?_
    · rw [roster_toBytes_length]
      decide
    · simp only [rosterEntryCommitmentCreateBody, slice_ok_iff.2 hn', slice_ok_iff.2 ha,
        seed_ok_iff.2 ⟨s₃, hs, rfl⟩, Res.ok_bind, hpr, okOrReturn, Res.mapErr_ok, hros]
  · intro mem u ul r rl s hr hu' hr' hs
    refine finish_gives hr (le_of_eq hp3) ?_
    simp only [userShowBody, slice_ok_iff.2 hu', slice_ok_iff.2 hr', seed_ok_iff.2 ⟨s₄, hs, rfl⟩,
      Res.ok_bind, hu2, hrr, okOrReturn, Res.mapErr_ok, hsh]
  · intro mem i il p pl hr hi' hp
    refine finish_gives hr (le_of_eq hp3) ?_
    simp only [issuerVerifyBody, slice_ok_iff.2 hi', slice_ok_iff.2 hp, Res.ok_bind, hsi, hp1,
      okOrReturn, Res.mapErr_ok, h5]
  · intro mem i il v vl hr hi' hv
    refine finish_gives hr ?_ ?_
    · rw [CommittedPhoneNumber.toBytes, Pedersen.toBytes, enc_length]
      decide
    · simp only [issuerVerifyRosterMembershipBody, slice_ok_iff.2 hi', slice_ok_iff.2 hv, Res.ok_bind,
        hsi, hp2, okOrReturn, Res.mapErr_ok, h6]
  · intro mem r rl hr hr'
    refine finish_gives hr ?_ ?_
    · rw [CommittedPhoneNumber.toBytes, Pedersen.toBytes, enc_length]
      decide
    · simp only [rosterEntryCommitmentRemoveOpeningBody, slice_ok_iff.2 hr', Res.ok_bind, hrr,
        okOrReturn, Res.mapErr_ok]
  · intro mem r rl n nl a al hr hn' ha
    obtain ⟨⟨len, ptr⟩, h7, h8, _, h9⟩ := C54_open_partial R O fuel (g := params.g) (h := params.h)
      hn' ha hr hrr (.inl hn)
    have h10 := h9.2 ⟨m, hnum, rfl⟩
    dsimp only at h8 h10
    rw [h7, h8, h10]

/-! ## Concrete platforms, for witnesses -/

open Classical in
/-- A platform whose allocator finds a free place if there is one. -/
noncomputable def roomy (wide checks : Bool) : Platform where
  wide := wide
  checks := checks
  dangling := 1
  dangling_ne := by decide
  alloc m n :=
    if h : ∃ p, p ≠ 0 ∧ ∀ a, p ≤ a → a < p + n → m a = none then some h.choose else none
  alloc_fresh m n p h := by
    split at h
    · rename_i hp
      cases h
      exact hp.choose_spec
    · cases h

theorem roomy_room {wide checks : Bool} {m : Mem} {B : ℕ} (h : ∀ a, B ≤ a → m a = none) :
    Spec.Room (roomy wide checks) m := by
  intro n _
  have hp : ∃ p, p ≠ 0 ∧ ∀ a, p ≤ a → a < p + n → m a = none :=
    ⟨B + 1, by omega, fun a ha _ => h a (by omega)⟩
  simp only [roomy, dif_pos hp]
  simp

instance : SeedableRng ToyRng where
  fromSeed s := ⟨leVal s + 5⟩

theorem toy_hunt : SystemParameters.huntAndPeck (G := F) 1
    (SeedableRng.fromSeed (List.replicate 32 0) : ToyRng) = some (⟨1, 6⟩, ⟨6⟩) := by
  decide +kernel

-- the hypotheses of C55_chain_partial
example : (List.replicate 13 (7 : UInt8)).length ≤ 27 ∧ Spec.Room (roomy true true) toyMem ∧
    Spec.SeedAt toyMem 100 (List.replicate 32 0) := by
  refine ⟨by decide, roomy_room (B := 1000) ?_, toyMem_seed⟩
  intro a ha
  simp only [toyMem, Mem.write, List.length_replicate, List.length_singleton]
  rw [if_neg (by omega), if_neg (by omega)]

/-- Memory that holds `a` at 1000 and `b` at 2000. -/
def twoBuffers (a b : Bytes) : Mem := Mem.write (Mem.write (fun _ => none) 1000 a) 2000 b

theorem twoBuffers_denotes {P : Platform} {a b : Bytes} (ha : a ≠ []) (hb : b ≠ [])
    (hal : a.length ≤ 1000) (hbl : b.length ≤ 1000) :
    Spec.Denotes P (twoBuffers a b) 1000 (UInt64.ofNat a.length) a ∧
    Spec.Denotes P (twoBuffers a b) 2000 (UInt64.ofNat b.length) b :=
  ⟨denotes_of_at (by decide) ha (by omega) (at_write_other (at_write _ _ _) (.inl (by omega))),
    denotes_of_at (by decide) hb (by omega) (at_write _ _ _)⟩

theorem twoBuffers_room {a b : Bytes} (hal : a.length ≤ 1000) (hbl : b.length ≤ 1000)
    {wide checks : Bool} : Spec.Room (roomy wide checks) (twoBuffers a b) := by
  refine roomy_room (B := 3000) fun x hx => ?_
  simp only [twoBuffers, Mem.write]
  rw [if_neg (by omega), if_neg (by omega)]

/-- C52 is false: a call of `issuer_verify_roster_membership` with arguments of the documented lengths
that succeeds and returns 32 bytes, where `credential.h` says 64. -/
theorem C52_false (wide checks : Bool) :
    ∃ (m : Mem) (buf : Buf) (before after : Mem),
      Spec.WellSized (.issuerVerifyRosterMembership 1000 160 2000 448) ∧
      Call.run F ToyRng toyOracle (roomy wide checks) 1 m
        (.issuerVerifyRosterMembership 1000 160 2000 448) = .returns buf before after ∧
      buf.len = 32 ∧ Spec.documented (.issuerVerifyRosterMembership 1000 160 2000 448) = 64 := by
  obtain ⟨sp, kp, is, ip, ci, us, re, sh, ve, cm, hl, _, _, _, _, _, _, _, _, _, h, _⟩ :=
    C55_chain_partial ToyRng toyOracle (roomy wide checks) 1 (s₁ := []) (s₂ := []) (s₃ := [])
      (s₄ := []) (number := [1]) (e₁ := []) (e₂ := []) (e₃ := []) (by decide) toy_hunt
  simp only [List.map_cons, List.map_nil, List.cons.injEq, and_true] at hl
  obtain ⟨_, _, h1, _, _, _, _, _, h2, h3⟩ := hl
  have hd := twoBuffers_denotes (P := roomy wide checks) (a := is) (b := ve)
    (by rw [← List.length_pos_iff, h1]; decide) (by rw [← List.length_pos_iff, h2]; decide)
    (by omega) (by omega)
  rw [h1, h2] at hd
  obtain ⟨buf, before, after, h4, _, h5, _⟩ := h (twoBuffers is ve) 1000 160 2000 448
    (twoBuffers_room (by omega) (by omega)) hd.1 hd.2
  refine ⟨_, buf, before, after, ⟨rfl, rfl⟩, h4, ?_, rfl⟩
  rw [h3] at h5
  exact UInt64.toNat_inj.1 h5

/-- C53 is false: `system_parameters_create` with a good seed returns 64 bytes that may not be read. -/
theorem C53_false (wide checks : Bool) :
    ∃ (buf : Buf) (before after : Mem),
      Call.run F ToyRng toyOracle (roomy wide checks) 1 toyMem (.systemParametersCreate 100) =
        .returns buf before after ∧
      buf.len = 64 ∧ buf.ptr ≠ 0 ∧ ∀ k < 64, after (buf.ptr + k) = none := by
  obtain ⟨sp, kp, is, ip, ci, us, re, sh, ve, cm, hl, h, _⟩ :=
    C55_chain_partial ToyRng toyOracle (roomy wide checks) 1 (s₁ := []) (s₂ := []) (s₃ := [])
      (s₄ := []) (number := [1]) (e₁ := []) (e₂ := []) (e₃ := []) (by decide) toy_hunt
  simp only [List.map_cons, List.map_nil, List.cons.injEq, and_true] at hl
  have hroom : Spec.Room (roomy wide checks) toyMem := by
    refine roomy_room (B := 1000) fun a ha => ?_
    simp only [toyMem, Mem.write, List.length_replicate, List.length_singleton]
    rw [if_neg (by omega), if_neg (by omega)]
  obtain ⟨buf, before, after, h4, h5, h6, _⟩ := h toyMem 100 hroom toyMem_seed
  rw [hl.1] at h6
  have h7 : buf.len = 64 := UInt64.toNat_inj.1 h6
  refine ⟨buf, before, after, h4, h7, h5, ?_⟩
  have h8 := (C53_dangles F ToyRng toyOracle (roomy wide checks) 1 toyMem h4
    (by rw [h7]; decide) h5).2
  rw [h6] at h8
  exact h8

-- the hypotheses of C52_table, C52_documented_partial, C53_* and C54_nonnull
example : ∃ (buf : Buf) (before after : Mem),
    Call.run F ToyRng toyOracle (roomy true true) 1 toyMem (.systemParametersCreate 100) =
      .returns buf before after ∧ buf.len ≠ 0 ∧ buf.ptr ≠ 0 ∧
      Spec.WellSized (.systemParametersCreate 100) ∧ ¬ Spec.IsOpen (.systemParametersCreate 100) := by
  obtain ⟨buf, before, after, h, h1, h2, _⟩ := C53_false true true
  exact ⟨buf, before, after, h, by rw [h1]; decide, h2, trivial, id⟩

-- those of C54_open_partial: the entry of all zero bytes, which opens to no number
example : RosterEntryCommitment.fromBytes (enc (0 : F) ++ List.replicate 32 0) =
    .ok (⟨0, 0⟩ : RosterEntryCommitment F) :=
  (C12_roster_ok_iff _ _).2 ⟨List.replicate 32 0, by simp, rfl, by decide +kernel⟩

end Verif
