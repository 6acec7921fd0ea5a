import Verif.Lemmas.Ffi

/-!
# Panics across the C interface (C56)
-/

set_option maxRecDepth 100000

namespace Verif

open Ffi Amacs

variable (G : Type) [AddCommGroup G] [Module F G] [Ristretto G]
variable (R : Type) [SeedableRng R]

/-- Bytes on which the decoder of `SignalCredentialIssuance` panics. -/
def Spec.IssuancePanics (b : Bytes) : Prop :=
  b.length < 32 ∨ (b.length < 128 ∧ ∃ C : G, b.take 32 = enc C)

/-- Bytes on which the decoder of `RosterEntryCommitment` panics. -/
def Spec.RosterPanics (b : Bytes) : Prop :=
  b.length < 32 ∨ (b.length ≠ 64 ∧ ∃ C : G, b.take 32 = enc C)

/-- The exact conditions under which a call panics: nowhere else, and always there. -/
def Spec.CallPanics (P : Platform) (m : Mem) : Call → Prop
  | .issuerNew p pl k kl =>
    P.checks = true ∧ (∃ g h : G, Spec.Denotes P m p pl (enc g ++ enc h)) ∧
      ∃ b, Spec.Denotes P m k kl b ∧ b.length < 32
  | .issuerIssue i il n nl s _ =>
    (∃ b, Spec.Denotes P m i il b ∧ ∃ x : Issuer G, Issuer.fromBytes P.checks b = .ok x) ∧
      (∃ sb, Spec.SeedAt m s sb) ∧ ∃ b, Spec.Denotes P m n nl b ∧ 28 ≤ b.length ∧ b.length ≤ 32
  | .userObtainFinish n nl p pl ip ipl i il =>
    (∃ g h : G, Spec.Denotes P m p pl (enc g ++ enc h)) ∧
      (∃ Xs : List G, Spec.Denotes P m ip ipl (Xs.map enc).flatten) ∧
      ∃ b, Spec.Denotes P m i il b ∧
        (Spec.IssuancePanics G b ∨
          ((∃ x : CredentialIssuance G, CredentialIssuance.fromBytes b = .ok x) ∧
            ∃ b', Spec.Denotes P m n nl b' ∧ 28 ≤ b'.length ∧ b'.length ≤ 32))
  | .userShow u ul e el s _ _ =>
    (∃ sb, Spec.SeedAt m s sb) ∧ ∃ b, Spec.Denotes P m u ul b ∧
      (b.length < 32 ∨ ((∃ x : SignalUser G, SignalUser.fromBytes b = .ok x) ∧
        ∃ b', Spec.Denotes P m e el b' ∧ Spec.RosterPanics G b'))
  | .rosterEntryCommitmentCreate n nl p pl s =>
    (∃ sb, Spec.SeedAt m s sb) ∧ (∃ g h : G, Spec.Denotes P m p pl (enc g ++ enc h)) ∧
      ∃ b, Spec.Denotes P m n nl b ∧ 28 ≤ b.length ∧ b.length ≤ 32
  | .rosterEntryCommitmentRemoveOpening e el => ∃ b, Spec.Denotes P m e el b ∧ Spec.RosterPanics G b
  | .rosterEntryCommitmentOpen e el n nl p pl =>
    ∃ bn, Spec.Denotes P m n nl bn ∧ (∃ g h : G, Spec.Denotes P m p pl (enc g ++ enc h)) ∧
      ∃ b, Spec.Denotes P m e el b ∧
        (Spec.RosterPanics G b ∨
          ((∃ x : RosterEntryCommitment G, RosterEntryCommitment.fromBytes b = .ok x) ∧
            28 ≤ bn.length ∧ bn.length ≤ 32))
  | _ => False

variable {G} {R}

theorem denotes_params {P : Platform} {m : Mem} {p : ℕ} {pl : UInt64} :
    (∃ b, Spec.Denotes P m p pl b ∧ ∃ x : SystemParameters G, SystemParameters.fromBytes b = .ok x) ↔
      ∃ g h : G, Spec.Denotes P m p pl (enc g ++ enc h) := by
  constructor
  · rintro ⟨b, h1, x, h2⟩
    rw [C01_ok_iff] at h2
    exact ⟨x.g, x.h, h2 ▸ h1⟩
  · rintro ⟨g, h, h1⟩
    exact ⟨_, h1, ⟨g, h⟩, (C01_ok_iff _ _).2 rfl⟩

theorem denotes_issuerParams {P : Platform} {m : Mem} {p : ℕ} {pl : UInt64} :
    (∃ b, Spec.Denotes P m p pl b ∧ ∃ x : PublicKey G, PublicKey.fromBytes b = .ok x) ↔
      ∃ Xs : List G, Spec.Denotes P m p pl (Xs.map enc).flatten := by
  constructor
  · rintro ⟨b, h1, x, h2⟩
    rw [C03_ok_iff] at h2
    exact ⟨x.Xn, h2 ▸ h1⟩
  · rintro ⟨Xs, h1⟩
    exact ⟨_, h1, ⟨Xs⟩, (C03_ok_iff _ _).2 rfl⟩

theorem keypair_panic_iff (checks : Bool) (b : Bytes) :
    (Keypair.fromBytes checks b : Res _ (Keypair G)) = .panic ↔ checks = true ∧ b.length < 32 := by
  constructor
  · intro h
    by_contra hne
    refine C05_no_panic_partial checks b ?_ h
    cases checks
    · exact .inl rfl
    · simp only [true_and, not_lt] at hne
      exact .inr hne
  · rintro ⟨rfl, h⟩
    exact C05_short_panics h

theorem signalIssuer_ok_iff {checks : Bool} {b : Bytes} {i : SignalIssuer G} :
    SignalIssuer.fromBytes checks b = .ok i ↔ Issuer.fromBytes checks b = .ok i.issuer := by
  rw [(C06_signal checks b).1, Res.map_eq_ok]
  constructor
  · rintro ⟨a, h, rfl⟩
    exact h
  · intro h
    exact ⟨_, h, rfl⟩

theorem signalIssuer_ne_panic {checks : Bool} {b : Bytes} :
    (SignalIssuer.fromBytes checks b : Res _ (SignalIssuer G)) ≠ .panic := by
  rw [(C06_signal checks b).1, Ne, Res.map_eq_panic]
  exact C06_no_panic checks b

theorem verifiedSignal_ne_panic {b : Bytes} :
    (VerifiedSignalCredential.fromBytes b : Res _ (VerifiedSignalCredential G)) ≠ .panic := by
  rw [C10_verified, Ne, Res.map_eq_panic]
  exact C10_no_panic b

/-- A decoded presentation has exactly one blinded attribute and no revealed ones. -/
theorem decoded_presentation {b : Bytes} {p : SignalCredentialPresentation G}
    (h : SignalCredentialPresentation.fromBytes b = .ok p) :
    ∃ Cm, p.presentation.attributesBlinded = [Cm] ∧ p.presentation.attributesRevealed = [] := by
  obtain ⟨Cm, _, h1, _⟩ := (C10_ok_iff _ _).1 h
  exact ⟨Cm, h1.1.2.1, h1.1.1⟩

theorem verify_decoded_ne_panic {O : Oracle} {checks : Bool} {b b' : Bytes} {i : SignalIssuer G}
    {p : SignalCredentialPresentation G} (hi : SignalIssuer.fromBytes checks b = .ok i)
    (hp : SignalCredentialPresentation.fromBytes b' = .ok p) : i.verify O p ≠ .panic := by
  obtain ⟨Cm, h1, h2⟩ := decoded_presentation hp
  obtain ⟨⟨sp, ⟨⟨Xn⟩, ⟨x0, xn⟩⟩⟩⟩ := i
  obtain ⟨h3, h4⟩ := C06_has_key (signalIssuer_ok_iff.1 hi)
  obtain ⟨X, Xs, rfl⟩ := List.exists_cons_of_ne_nil h3
  obtain ⟨x, xs, rfl⟩ := List.exists_cons_of_ne_nil h4
  obtain ⟨R, ⟨CQ, P, rev, bl, pr⟩, pr'⟩ := p
  dsimp only at h1 h2
  subst h1 h2
  simp only [SignalIssuer.verify, verify_one]
  split <;> simp

theorem roster_decoded_ne_panic {O : Oracle} {b' : Bytes} {i : SignalIssuer G}
    {v : VerifiedSignalCredential G} (hp : VerifiedSignalCredential.fromBytes b' = .ok v) :
    i.verifyRosterMembership O v ≠ .panic := by
  rw [C10_verified, Res.map_eq_ok] at hp
  obtain ⟨p, hp, rfl⟩ := hp
  obtain ⟨Cm, h1, h2⟩ := decoded_presentation hp
  obtain ⟨R, ⟨CQ, P, rev, bl, pr⟩, pr'⟩ := p
  dsimp only at h1 h2
  subst h1 h2
  rw [verifyRoster_one]
  split <;> simp

omit [AddCommGroup G] [Module F G] [Ristretto G] in
theorem signalUser_new_panic_iff {sp : SystemParameters G} {ip : PublicKey G}
    {key : Option (Elgamal.Keypair G)} {b : Bytes} :
    SignalUser.new sp ip key b = .panic ↔ 28 ≤ b.length ∧ b.length ≤ 32 := by
  rw [SignalUser.new, ← C16_bytes_panic_iff]
  simp [Res.bind_eq_panic, Res.mapErr_eq_panic]

theorem obtainFinish_ne_panic {O : Oracle} {u : SignalUser G} {c : Option (CredentialIssuance G)} :
    (u.obtainFinish O c).1 ≠ .panic := by
  rw [(C34_signal O u c).1]
  rcases C34_all_or_nothing O u.user c with ⟨d, _, h⟩ | h | h <;> rw [h] <;> simp

theorem show_decoded_ne_panic {O : Oracle} {b : Bytes} {u : SignalUser G}
    (hu : SignalUser.fromBytes b = .ok u) (rng : R) (ros : RosterEntryCommitment G) (e1 e2 : Bytes) :
    (u.show O rng ros e1 e2).1 ≠ .panic := by
  obtain ⟨h1, h2⟩ := C37_api O (C37_api_users.2.1 b u hu) rng ros e1 e2
  by_cases hc : u.user.credential = none
  · rw [h1.2 hc]
    simp
  · obtain ⟨p, hp, _⟩ := h2 hc
    rw [hp]
    simp

omit [Ristretto G] in
theorem roster_create_panic_iff {b : Bytes} {sp : SystemParameters G} {rng : R} :
    (RosterEntryCommitment.create b sp rng).1 = .panic ↔ 28 ≤ b.length ∧ b.length ≤ 32 := by
  rw [← C16_bytes_panic_iff]
  simp [RosterEntryCommitment.create, Res.bind_eq_panic]

omit [Ristretto G] in
theorem roster_open_panic_iff [DecidableEq G] {b : Bytes} {sp : SystemParameters G}
    {e : RosterEntryCommitment G} : e.open b sp = .panic ↔ 28 ≤ b.length ∧ b.length ≤ 32 := by
  rw [← C16_bytes_panic_iff, RosterEntryCommitment.open, Res.bind_eq_panic]
  constructor
  · rintro (h | ⟨a, _, h⟩)
    · exact h
    · split at h <;> cases h
  · exact .inl

/-- Which calls panic, exactly. Full claim: no call panics (with valid pointers). Missing: the
conditions listed in `Spec.CallPanics`, where it is false (`C56_false`). -/
theorem C56_table_partial [DecidableEq G] (O : Oracle) (P : Platform) (fuel : ℕ) (m : Mem) (c : Call) :
    c.run G R O P fuel m = .panics ↔ Spec.CallPanics G P m c := by
  cases c with
  | systemParametersCreate s =>
    simp only [Call.run, finish_panics, Spec.CallPanics, iff_false, systemParametersCreateBody,
      Res.bind_eq_panic, seed_ne_panic, false_or, not_exists, not_and]
    intro r _
    split <;> simp
  | issuerCreate p pl s =>
    simp only [Call.run, finish_panics, Spec.CallPanics, iff_false, issuerCreateBody,
      Res.bind_eq_panic, seed_ne_panic, slice_ne_panic, okOrReturn_eq_panic, C01_no_panic, false_or,
      not_exists, not_and]
    intros
    nofun
  | issuerNew p pl k kl =>
    simp only [Call.run, finish_panics, Spec.CallPanics, issuerNewBody, Res.bind_eq_panic,
      slice_ne_panic, okOrReturn_eq_panic, okOrReturn_eq_ok, C01_no_panic, false_or, slice_ok_iff,
      keypair_panic_iff, ← denotes_params, reduceCtorEq, and_false, exists_false, or_false]
    constructor
    · rintro ⟨b, h1, x, h2, b', h3, h4, h5⟩
      exact ⟨h4, ⟨b, h1, x, h2⟩, b', h3, h5⟩
    · rintro ⟨h4, ⟨b, h1, x, h2⟩, b', h3, h5⟩
      exact ⟨b, h1, x, h2, b', h3, h4, h5⟩
  | issuerGetIssuerParameters i il =>
    simp only [Call.run, finish_panics, Spec.CallPanics, iff_false, issuerGetIssuerParametersBody,
      Res.bind_eq_panic, slice_ne_panic, okOrReturn_eq_panic, signalIssuer_ne_panic, false_or,
      not_exists, not_and]
    intros
    nofun
  | issuerIssue i il n nl s e =>
    simp only [Call.run, finish_panics, Spec.CallPanics, issuerIssueBody, Res.bind_eq_panic,
      slice_ne_panic, seed_ne_panic, okOrReturn_eq_panic, okOrReturn_eq_ok, signalIssuer_ne_panic,
      false_or, slice_ok_iff, seed_ok_iff, signalIssuer_ok_iff, (C46_signal _ _ _ _ _).2.2,
      reduceCtorEq, and_false, exists_false, or_false]
    constructor
    · rintro ⟨b, h1, x, h2, r, ⟨sb, h3, _⟩, b', h4, h5⟩
      exact ⟨⟨b, h1, x.issuer, h2⟩, ⟨sb, h3⟩, b', h4, h5⟩
    · rintro ⟨⟨b, h1, x, h2⟩, ⟨sb, h3⟩, b', h4, h5⟩
      exact ⟨b, h1, ⟨x⟩, h2, _, ⟨sb, h3, rfl⟩, b', h4, h5⟩
  | issuerVerify i il p pl =>
    simp only [Call.run, finish_panics, Spec.CallPanics, iff_false, issuerVerifyBody,
      Res.bind_eq_panic, slice_ne_panic, okOrReturn_eq_panic, okOrReturn_eq_ok,
      signalIssuer_ne_panic, C10_no_panic, false_or, not_exists, not_and, reduceCtorEq, or_false,
      and_false, exists_false]
    intro b _ x hx b' _ p hp
    exact verify_decoded_ne_panic hx hp
  | issuerVerifyRosterMembership i il v vl =>
    simp only [Call.run, finish_panics, Spec.CallPanics, iff_false,
      issuerVerifyRosterMembershipBody, Res.bind_eq_panic, slice_ne_panic, okOrReturn_eq_panic,
      okOrReturn_eq_ok, signalIssuer_ne_panic, verifiedSignal_ne_panic, false_or, not_exists,
      not_and, reduceCtorEq, or_false, and_false, exists_false]
    intro b _ x hx b' _ p hp
    exact roster_decoded_ne_panic hp
  | userObtainFinish n nl p pl ip ipl i il =>
    simp only [Call.run, finish_panics, Spec.CallPanics, userObtainFinishBody, Res.bind_eq_panic,
      slice_ne_panic, okOrReturn_eq_panic, okOrReturn_eq_ok, C01_no_panic, C03_no_panic,
      C08_panic_iff, false_or, slice_ok_iff, signalUser_new_panic_iff, obtainFinish_ne_panic,
      reduceCtorEq, and_false, exists_false, or_false, ← denotes_params, ← denotes_issuerParams,
      Spec.IssuancePanics]
    constructor
    · rintro ⟨b, h1, x, h2, b', h3, y, h4, b'', h5, h6⟩
      refine ⟨⟨b, h1, x, h2⟩, ⟨b', h3, y, h4⟩, b'', h5, ?_⟩
      rcases h6 with h6 | ⟨z, h6, h7⟩
      · exact .inl h6
      · exact .inr ⟨⟨z, h6⟩, h7⟩
    · rintro ⟨⟨b, h1, x, h2⟩, ⟨b', h3, y, h4⟩, b'', h5, h6⟩
      refine ⟨b, h1, x, h2, b', h3, y, h4, b'', h5, ?_⟩
      rcases h6 with h6 | ⟨⟨z, h6⟩, h7⟩
      · exact .inl h6
      · exact .inr ⟨z, h6, h7⟩
  | userShow u ul e el s e1 e2 =>
    simp only [Call.run, finish_panics, Spec.CallPanics, userShowBody, Res.bind_eq_panic,
      slice_ne_panic, seed_ne_panic, okOrReturn_eq_panic, okOrReturn_eq_ok, C11_signal_panic_iff,
      C12_roster_panic_iff, false_or, slice_ok_iff, seed_ok_iff, reduceCtorEq, and_false,
      exists_false, or_false, Spec.RosterPanics]
    constructor
    · rintro ⟨r, ⟨sb, h1, _⟩, b, h2, h3⟩
      refine ⟨⟨sb, h1⟩, b, h2, ?_⟩
      rcases h3 with h3 | ⟨x, h3, b', h4, h5⟩
      · exact .inl h3
      · rcases h5 with h5 | ⟨y, h5, h6⟩
        · exact .inr ⟨⟨x, h3⟩, b', h4, h5⟩
        · exact absurd h6 (show_decoded_ne_panic h3 _ _ _ _)
    · rintro ⟨⟨sb, h1⟩, b, h2, h3⟩
      refine ⟨_, ⟨sb, h1, rfl⟩, b, h2, ?_⟩
      rcases h3 with h3 | ⟨⟨x, h3⟩, b', h4, h5⟩
      · exact .inl h3
      · exact .inr ⟨x, h3, b', h4, .inl h5⟩
  | rosterEntryCommitmentCreate n nl p pl s =>
    simp only [Call.run, finish_panics, Spec.CallPanics, rosterEntryCommitmentCreateBody,
      Res.bind_eq_panic, slice_ne_panic, seed_ne_panic, okOrReturn_eq_panic, okOrReturn_eq_ok,
      C01_no_panic, false_or, slice_ok_iff, seed_ok_iff, roster_create_panic_iff, reduceCtorEq,
      and_false, exists_false, or_false, ← denotes_params]
    constructor
    · rintro ⟨r, ⟨sb, h1, _⟩, b, h2, b', h3, x, h4, h5⟩
      exact ⟨⟨sb, h1⟩, ⟨b', h3, x, h4⟩, b, h2, h5⟩
    · rintro ⟨⟨sb, h1⟩, ⟨b', h3, x, h4⟩, b, h2, h5⟩
      exact ⟨_, ⟨sb, h1, rfl⟩, b, h2, b', h3, x, h4, h5⟩
  | rosterEntryCommitmentRemoveOpening e el =>
    simp only [Call.run, finish_panics, Spec.CallPanics, rosterEntryCommitmentRemoveOpeningBody,
      Res.bind_eq_panic, slice_ne_panic, okOrReturn_eq_panic, C12_roster_panic_iff, false_or,
      slice_ok_iff, reduceCtorEq, and_false, exists_false, or_false, Spec.RosterPanics]
  | rosterEntryCommitmentOpen e el n nl p pl =>
    simp only [Call.run, finishOpen_panics, Spec.CallPanics, rosterEntryCommitmentOpenBody,
      Res.bind_eq_panic, slice_ne_panic, okOrReturn_eq_panic, okOrReturn_eq_ok, C01_no_panic,
      C12_roster_panic_iff, false_or, slice_ok_iff, ← denotes_params, Spec.RosterPanics]
    constructor
    · rintro ⟨bn, h1, b, h2, x, h3, b', h4, h5⟩
      refine ⟨bn, h1, ⟨b, h2, x, h3⟩, b', h4, ?_⟩
      rcases h5 with h5 | ⟨y, h5, h6⟩
      · exact .inl h5
      · refine .inr ⟨⟨y, h5⟩, (roster_open_panic_iff (e := y) (sp := x)).1 ?_⟩
        cases ho : y.open bn x <;> rw [ho] at h6 <;> first | rfl | cases h6
    · rintro ⟨bn, h1, ⟨b, h2, x, h3⟩, b', h4, h5⟩
      refine ⟨bn, h1, b, h2, x, h3, b', h4, ?_⟩
      rcases h5 with h5 | ⟨⟨y, h5⟩, h6⟩
      · exact .inl h5
      · exact .inr ⟨y, h5, by rw [roster_open_panic_iff.2 h6]⟩

/-- A memory with 32 zero bytes at address 100 (a seed) and one zero byte at address 200. -/
def toyMem : Mem := Mem.write (Mem.write (fun _ => none) 100 (List.replicate 32 0)) 200 [0]

theorem toyMem_seed : Spec.SeedAt toyMem 100 (List.replicate 32 0) :=
  ⟨by decide, List.length_replicate, at_write_other (at_write _ _ _) (.inl (by simp))⟩

theorem toyMem_byte (P : Platform) : Spec.Denotes P toyMem 200 1 [0] :=
  denotes_of_at (by decide) (by decide) (by decide) (at_write _ _ _)

/-- Also a number of 28 digits at address 300 and system parameters at address 400. -/
def toyMem28 (G : Type) [AddCommGroup G] [Module F G] [Ristretto G] : Mem :=
  (toyMem.write 300 (List.replicate 28 1)).write 400 (enc (0 : G) ++ enc (0 : G))

/-- The claim is false: `roster_entry_commitment_create` with a seed, good system parameters and a
number of 28 digits panics, and so does `roster_entry_commitment_remove_opening` on a single byte. -/
theorem C56_false (G : Type) [AddCommGroup G] [Module F G] [Ristretto G] [DecidableEq G] (R : Type)
    [SeedableRng R] (O : Oracle) (P : Platform) (fuel : ℕ) :
    ((∀ a ∈ Spec.args (.rosterEntryCommitmentCreate 300 28 400 64 100), a.Readable P (toyMem28 G)) ∧
      Call.run G R O P fuel (toyMem28 G) (.rosterEntryCommitmentCreate 300 28 400 64 100) = .panics) ∧
    (∀ a ∈ Spec.args (.rosterEntryCommitmentRemoveOpening 200 1), a.Readable P toyMem) ∧
      Call.run G R O P fuel toyMem (.rosterEntryCommitmentRemoveOpening 200 1) = .panics := by
  have hs : Spec.SeedAt (toyMem28 G) 100 (List.replicate 32 0) := by
    refine ⟨by decide, List.length_replicate, ?_⟩
    refine at_write_other (at_write_other toyMem_seed.2.2 (.inl (by simp))) (.inl (by simp))
  have hn : Spec.Denotes P (toyMem28 G) 300 28 (List.replicate 28 1) := by
    refine denotes_of_at (b := List.replicate 28 1) (by decide) (by decide) (by decide) ?_
    exact at_write_other (at_write _ _ _) (.inl (by simp))
  have hp : Spec.Denotes P (toyMem28 G) 400 64 (enc (0 : G) ++ enc (0 : G)) := by
    have hl : (enc (0 : G) ++ enc (0 : G)).length = 64 := by
      rw [List.length_append, enc_length]
    have := denotes_of_at (P := P) (m := toyMem28 G) (p := 400) (b := enc (0 : G) ++ enc (0 : G))
      (by decide) (by rw [← List.length_pos_iff, hl]; decide) (by rw [hl]; decide) (at_write _ _ _)
    rw [hl] at this
    exact this
  refine ⟨⟨?_, (C56_table_partial O P fuel _ _).2 ?_⟩, ?_, (C56_table_partial O P fuel _ _).2 ?_⟩
  · simp only [Spec.args, List.mem_cons, List.not_mem_nil, or_false, forall_eq_or_imp, forall_eq]
    exact ⟨⟨_, hn⟩, ⟨_, hp⟩, _, hs⟩
  · exact ⟨⟨_, hs⟩, ⟨0, 0, hp⟩, _, hn, by simp, by simp⟩
  · simp only [Spec.args, List.mem_cons, List.not_mem_nil, or_false, forall_eq]
    exact ⟨_, toyMem_byte P⟩
  · exact ⟨_, toyMem_byte P, .inl (by decide)⟩

end Verif
