import Verif.Props.FfiArgs
import Verif.Props.Commit

/-!
# Returned buffers of the C interface (C52–C54)
-/

set_option maxRecDepth 100000

namespace Verif

open Ffi Amacs

/-! ## Lemmas -/

theorem finish_returns {P : Platform} {m before after : Mem} {buf : Buf} {x : Res Exit Bytes}
    (h : finish P m x = .returns buf before after) :
    (x = .err .empty ∧ buf = ⟨0, P.dangling⟩ ∧ before = m ∧ after = m) ∨
    ∃ b, x = .ok b ∧ P.alloc m b.length = some buf.ptr ∧ buf.len = UInt64.ofNat b.length ∧
      before = m.write buf.ptr b ∧ after = m := by
  rcases x with b | (_ | _ | _) | _
  · simp only [finish] at h
    split at h
    · cases h
    · rename_i p hp
      cases h
      refine .inr ⟨b, rfl, hp, rfl, rfl, ?_⟩
      exact write_free (P.alloc_fresh m b.length p hp).2
  · cases h
    exact .inl ⟨rfl, rfl, rfl, rfl⟩
  · cases h
  · cases h
  · cases h

theorem finishOpen_returns {P : Platform} {m before after : Mem} {buf : Buf} {x : Res Exit Bool}
    (h : finishOpen P m x = .returns buf before after) :
    before = m ∧ after = m ∧ ((x = .err .empty ∧ buf = ⟨0, P.dangling⟩) ∨
      (x = .ok true ∧ buf = ⟨1, 0⟩) ∨ (x = .ok false ∧ buf = ⟨0, 0⟩)) := by
  rcases x with (_ | _) | (_ | _ | _) | _ <;> cases h <;> simp

section

variable {G : Type} [AddCommGroup G] [Module F G] [Ristretto G]

theorem params_toBytes_length (p : SystemParameters G) : p.toBytes.length = 64 := by
  simp [SystemParameters.toBytes]

theorem keypair_toBytes_length (k : Keypair G) :
    k.toBytes.length = 32 + 32 * k.secretKey.xn.length + 32 * k.publicKey.Xn.length := by
  have h1 := flatten_map_length (f := (enc : G → Bytes)) enc_length k.publicKey.Xn
  have h2 := flatten_map_length Scalar.toBytes_length k.secretKey.xn
  simp only [Keypair.toBytes, PublicKey.toBytes, SecretKey.toBytes, List.length_append, h1, h2,
    Scalar.toBytes_length]
  omega

theorem issuance_toBytes_length (c : CredentialIssuance G) :
    c.toBytes.length = 296 + 32 * c.credential.attributes.length := by
  have h2 := flatten_map_length Scalar.toBytes_length c.credential.attributes
  simp only [CredentialIssuance.toBytes, Pedersen.toBytes, Credential.toBytes, Tag.toBytes,
    IssuanceRevealed.Proof.serialize, List.length_append, h2, enc_length, encScalars_length,
    List.length_cons, List.length_nil]
  omega

theorem presentation_toBytes_length (p : SignalCredentialPresentation G) :
    p.toBytes.length = 416 + 32 * p.presentation.attributesRevealed.length +
      32 * p.presentation.attributesBlinded.length := by
  have h1 := flatten_map_length (f := (enc : G → Bytes)) enc_length p.presentation.attributesBlinded
  have h2 := flatten_map_length Scalar.toBytes_length p.presentation.attributesRevealed
  have h3 : (List.map Pedersen.toBytes p.presentation.attributesBlinded).flatten.length = _ := h1
  simp only [SignalCredentialPresentation.toBytes, CommittedPhoneNumber.toBytes,
    CredentialPresentation.toBytes, Pedersen.toBytes,
    ValidCredential.Proof.serialize, CommittedValuesEqual.Proof.serialize, List.length_append, h3, h2,
    enc_length, encScalars_length, List.length_cons, List.length_nil]
  omega

theorem roster_toBytes_length (r : RosterEntryCommitment G) : r.toBytes.length = 64 := by
  simp [RosterEntryCommitment.toBytes, CommittedPhoneNumber.toBytes, Pedersen.toBytes,
    Ephemeral.toBytes]

theorem user_toBytes_length {u : SignalUser G} {c : Credential G} (hk : u.user.key = none)
    (hc : u.user.credential = some c) :
    u.toBytes.length = 224 + 32 * u.user.issuerParameters.Xn.length + 32 * c.attributes.length := by
  have h1 := flatten_map_length (f := (enc : G → Bytes)) enc_length u.user.issuerParameters.Xn
  have h2 := flatten_map_length Scalar.toBytes_length c.attributes
  simp only [SignalUser.toBytes, PhoneNumber.toBytes, User.toBytes, hk, hc, List.length_append,
    params_toBytes_length, PublicKey.toBytes, h1, Credential.toBytes, Tag.toBytes, h2, enc_length,
    Scalar.toBytes_length, List.length_replicate]
  omega

theorem issue_decoded_length {R : Type} [RngCore R] {O : Oracle} {checks : Bool} {b n : Bytes}
    {i : SignalIssuer G} (hi : SignalIssuer.fromBytes checks b = .ok i) {rng : R} {e : Bytes}
    {c : CredentialIssuance G} (hc : (i.issue O n rng e).1 = .ok c) : c.toBytes.length = 328 := by
  obtain ⟨⟨sp, ⟨⟨Xn⟩, ⟨x0, xn⟩⟩⟩⟩ := i
  obtain ⟨h3, h4⟩ := C06_has_key (signalIssuer_ok_iff.1 hi)
  rw [SignalIssuer.issue] at hc
  split at hc
  · cases hc
  · cases hc
  · rename_i number _
    have hl : xn.length = 1 := by
      by_contra hne
      rw [(C46_outcomes O _ ⟨[number]⟩ rng e).2.2.1 h3 h4 hne] at hc
      cases hc
    obtain ⟨x1, rfl⟩ := List.length_eq_one_iff.1 hl
    obtain ⟨X, Xs, rfl⟩ := List.exists_cons_of_ne_nil h3
    rw [issue_one] at hc
    cases hc
    rw [issuance_toBytes_length]
    rfl

theorem verify_ok_eq {O : Oracle} {i : SignalIssuer G} {p : SignalCredentialPresentation G}
    {v : VerifiedSignalCredential G} (h : i.verify O p = .ok v) : v = ⟨p⟩ := by
  obtain ⟨_, _, h⟩ := Res.bind_eq_ok.1 h
  cases h
  rfl

theorem decoded_presentation_length {b : Bytes} {p : SignalCredentialPresentation G}
    (h : SignalCredentialPresentation.fromBytes b = .ok p) : p.toBytes.length = 448 := by
  obtain ⟨Cm, h1, h2⟩ := decoded_presentation h
  rw [presentation_toBytes_length, h1, h2]
  rfl

theorem show_decoded_length {R : Type} [RngCore R] {O : Oracle} {b : Bytes} {u : SignalUser G}
    (hu : SignalUser.fromBytes b = .ok u) {rng : R} {ros : RosterEntryCommitment G} {e1 e2 : Bytes}
    {p : SignalCredentialPresentation G} (hp : (u.show O rng ros e1 e2).1 = .ok p) :
    p.toBytes.length = 448 := by
  simp only [SignalUser.fromBytes, Res.bind_eq_ok] at hu
  obtain ⟨_, _, n, _, _, _, us, h, h'⟩ := hu
  cases h'
  obtain ⟨X, kb, cb, hX, _, h2, _⟩ := (C11_ok_iff _ _).1 h
  obtain ⟨sp, ⟨Xn⟩, key, cred⟩ := us
  cases hX
  cases cred with
  | none => cases hp
  | some cr =>
    obtain ⟨tag, as⟩ := cr
    obtain ⟨a, _, h3, _⟩ := h2
    dsimp only at h3
    subst h3
    rw [signal_show_one] at hp
    cases hp
    rw [presentation_toBytes_length]
    rfl

theorem denotes_size {P : Platform} {m : Mem} {p : ℕ} {len : UInt64} {b : Bytes}
    (h : Spec.Denotes P m p len b) : b.length = len.toNat % 2 ^ P.bits ∧ b.length < 2 ^ 63 := by
  refine ⟨h.2.2.1, lt_of_lt_of_le h.2.2.2.1 (Nat.pow_le_pow_right (by omega) ?_)⟩
  rw [Platform.bits]
  split <;> omega

/-! ## C52 lengths -/

/-- A length as the callee sees it. -/
def Spec.size (P : Platform) (len : UInt64) : ℕ := len.toNat % 2 ^ P.bits

/-- The length of the result of each function, for arbitrary arguments. -/
def Spec.ResultLength (P : Platform) : Call → ℕ → Prop
  | .systemParametersCreate _, n => n = 64
  | .issuerCreate .., n => n = 96
  | .issuerNew _ _ _ kl, n => n = 64 + Spec.size P kl
  | .issuerGetIssuerParameters _ il, n => 2 * n + 96 = Spec.size P il
  | .issuerIssue .., n => n = 328
  | .issuerVerify .., n => n = 448
  | .issuerVerifyRosterMembership .., n => n = 32
  | .userObtainFinish _ _ _ _ _ ipl _ _, n => n = 256 + Spec.size P ipl
  | .userShow .., n => n = 448
  | .rosterEntryCommitmentCreate .., n => n = 64
  | .rosterEntryCommitmentRemoveOpening .., n => n = 32
  | .rosterEntryCommitmentOpen .., n => n = 1

end

variable (G : Type) [AddCommGroup G] [Module F G] [Ristretto G] [DecidableEq G]
variable (R : Type) [SeedableRng R] (O : Oracle) (P : Platform) (fuel : ℕ) (m : Mem)

/-- Every call that returns either returns an empty buffer and changes nothing, or it computed bytes of
the length in the table and put them in a fresh buffer, or it is a successful opening. -/
theorem returns_cases {c : Call} {buf : Buf} {before after : Mem}
    (h : c.run G R O P fuel m = .returns buf before after) :
    after = m ∧
    ((before = m ∧ buf.len = 0 ∧ (buf.ptr = P.dangling ∨ Spec.IsOpen c ∧ buf.ptr = 0)) ∨
    (before = m ∧ Spec.IsOpen c ∧ buf = ⟨1, 0⟩) ∨
    (¬ Spec.IsOpen c ∧ ∃ b, P.alloc m b.length = some buf.ptr ∧ buf.len = UInt64.ofNat b.length ∧
      before = m.write buf.ptr b ∧ Spec.ResultLength P c b.length ∧ b.length < 2 ^ 64)) := by
  by_cases ho : Spec.IsOpen c
  · cases c
    case rosterEntryCommitmentOpen =>
      obtain ⟨h1, h2, ⟨_, h3⟩ | ⟨_, h3⟩ | ⟨_, h3⟩⟩ := finishOpen_returns h
      · subst h3
        exact ⟨h2, .inl ⟨h1, rfl, .inl rfl⟩⟩
      · exact ⟨h2, .inr (.inl ⟨h1, trivial, h3⟩)⟩
      · subst h3
        exact ⟨h2, .inl ⟨h1, rfl, .inr ⟨trivial, rfl⟩⟩⟩
    all_goals exact ho.elim
  · have key : ∀ x : Res Exit Bytes, finish P m x = .returns buf before after →
        (∀ b, x = .ok b → Spec.ResultLength P c b.length ∧ b.length < 2 ^ 64) →
        after = m ∧
        ((before = m ∧ buf.len = 0 ∧ (buf.ptr = P.dangling ∨ Spec.IsOpen c ∧ buf.ptr = 0)) ∨
        (before = m ∧ Spec.IsOpen c ∧ buf = ⟨1, 0⟩) ∨
        (¬ Spec.IsOpen c ∧ ∃ b, P.alloc m b.length = some buf.ptr ∧ buf.len = UInt64.ofNat b.length ∧
          before = m.write buf.ptr b ∧ Spec.ResultLength P c b.length ∧ b.length < 2 ^ 64)) := by
      intro x hx hb
      rcases finish_returns hx with ⟨_, h1, h2, h3⟩ | ⟨b, h1, h2, h3, h4, h5⟩
      · subst h1
        exact ⟨h3, .inl ⟨h2, rfl, .inl rfl⟩⟩
      · exact ⟨h5, .inr (.inr ⟨ho, b, h2, h3, h4, hb b h1⟩)⟩
    cases c with
    | systemParametersCreate s =>
      refine key _ h fun b hb => ?_
      obtain ⟨r, _, hb⟩ := Res.bind_eq_ok.1 hb
      split at hb
      · cases hb
      · cases hb
        rw [params_toBytes_length]
        exact ⟨rfl, by norm_num⟩
    | issuerCreate p pl s =>
      refine key _ h fun b hb => ?_
      simp only [issuerCreateBody, Res.bind_eq_ok] at hb
      obtain ⟨r, _, bs, _, x, _, hb⟩ := hb
      cases hb
      rw [keypair_toBytes_length]
      exact ⟨rfl, by change 96 < _; norm_num⟩
    | issuerNew p pl k kl =>
      refine key _ h fun b hb => ?_
      simp only [issuerNewBody, Res.bind_eq_ok, slice_ok_iff, okOrReturn_eq_ok] at hb
      obtain ⟨b1, h1, x, h2, b2, h3, y, h4, hb⟩ := hb
      cases hb
      have h5 := C05_reserialise h4
      have h6 : (SignalIssuer.new x y).toBytes.length = 64 + b2.length := by
        rw [← h5, SignalIssuer.new, SignalIssuer.toBytes, Issuer.new, Issuer.toBytes,
          List.length_append, params_toBytes_length]
      have h7 := denotes_size h3
      rw [h6]
      refine ⟨?_, by omega⟩
      rw [Spec.ResultLength, Spec.size, h7.1]
    | issuerGetIssuerParameters i il =>
      refine key _ h fun b hb => ?_
      simp only [issuerGetIssuerParametersBody, Res.bind_eq_ok, slice_ok_iff, okOrReturn_eq_ok,
        signalIssuer_ok_iff] at hb
      obtain ⟨b1, h1, x, h2, hb⟩ := hb
      cases hb
      have h3 := congrArg List.length (C06_reserialise h2)
      obtain ⟨⟨h4, _⟩, _⟩ := (C06_ok_iff _ _ _).1 h2
      have h5 : x.getIssuerParameters.toBytes.length = 32 * x.issuer.keypair.publicKey.Xn.length :=
        flatten_map_length (f := (enc : G → Bytes)) enc_length _
      rw [Issuer.toBytes, List.length_append, params_toBytes_length, keypair_toBytes_length, h4] at h3
      have h7 := denotes_size h1
      rw [h5]
      refine ⟨?_, by omega⟩
      rw [Spec.ResultLength, Spec.size, ← h7.1]
      omega
    | issuerIssue i il n nl s e =>
      refine key _ h fun b hb => ?_
      simp only [issuerIssueBody, Res.bind_eq_ok, slice_ok_iff, okOrReturn_eq_ok] at hb
      obtain ⟨b1, _, x, h1, r, _, b2, _, y, h2, hb⟩ := hb
      cases hb
      rw [issue_decoded_length h1 h2]
      exact ⟨rfl, by norm_num⟩
    | issuerVerify i il p pl =>
      refine key _ h fun b hb => ?_
      simp only [issuerVerifyBody, Res.bind_eq_ok, slice_ok_iff, okOrReturn_eq_ok] at hb
      obtain ⟨b1, _, x, _, b2, _, y, h1, v, h2, hb⟩ := hb
      cases hb
      rw [verify_ok_eq h2, VerifiedSignalCredential.toBytes, decoded_presentation_length h1]
      exact ⟨rfl, by norm_num⟩
    | issuerVerifyRosterMembership i il v vl =>
      refine key _ h fun b hb => ?_
      simp only [issuerVerifyRosterMembershipBody, Res.bind_eq_ok] at hb
      obtain ⟨b1, _, x, _, b2, _, y, _, v, _, hb⟩ := hb
      cases hb
      rw [CommittedPhoneNumber.toBytes, Pedersen.toBytes, enc_length]
      exact ⟨rfl, by norm_num⟩
    | userObtainFinish n nl p pl ip ipl i il =>
      refine key _ h fun b hb => ?_
      simp only [userObtainFinishBody, Res.bind_eq_ok, slice_ok_iff, okOrReturn_eq_ok, C03_ok_iff] at hb
      obtain ⟨b1, _, x, _, b2, h1, y, h2, b3, _, c, h3, b4, _, u, h4, _, h5, hb⟩ := hb
      cases hb
      obtain ⟨a, _, h6, _⟩ := (C08_ok_iff _ _).1 h3
      have h7 := denotes_size h1
      rw [h2, flatten_map_length (f := (enc : G → Bytes)) enc_length] at h7
      simp only [SignalUser.new, Res.bind_eq_ok] at h4
      obtain ⟨n, _, h4⟩ := h4
      cases h4
      rw [(C34_signal O _ _).1] at h5
      rw [(C34_signal O _ _).2]
      rcases C34_all_or_nothing O (User.new x y none) (some c) with ⟨c', hc', h⟩ | h | h
      · cases hc'
        rw [h, user_toBytes_length (c := c.credential) rfl rfl, h6.1, List.length_singleton]
        dsimp only [User.new]
        refine ⟨?_, by omega⟩
        rw [Spec.ResultLength, Spec.size, ← h7.1]
        omega
      · rw [h] at h5; cases h5
      · rw [h] at h5; cases h5
    | userShow u ul e el s e1 e2 =>
      refine key _ h fun b hb => ?_
      simp only [userShowBody, Res.bind_eq_ok, slice_ok_iff, okOrReturn_eq_ok] at hb
      obtain ⟨r, _, b1, _, x, h1, b2, _, y, _, p, h2, hb⟩ := hb
      cases hb
      rw [show_decoded_length h1 h2]
      exact ⟨rfl, by norm_num⟩
    | rosterEntryCommitmentCreate n nl p pl s =>
      refine key _ h fun b hb => ?_
      simp only [rosterEntryCommitmentCreateBody, Res.bind_eq_ok] at hb
      obtain ⟨r, _, b1, _, b2, _, x, _, y, _, hb⟩ := hb
      cases hb
      rw [roster_toBytes_length]
      exact ⟨rfl, by norm_num⟩
    | rosterEntryCommitmentRemoveOpening e el =>
      refine key _ h fun b hb => ?_
      simp only [rosterEntryCommitmentRemoveOpeningBody, Res.bind_eq_ok] at hb
      obtain ⟨b1, _, x, _, hb⟩ := hb
      cases hb
      rw [CommittedPhoneNumber.toBytes, Pedersen.toBytes, enc_length]
      exact ⟨rfl, by norm_num⟩
    | rosterEntryCommitmentOpen e el n nl p pl => exact absurd trivial ho

/-- The length of the result of every successful call, for arbitrary arguments: at most the length of
issuer, issuer parameters and user depend on the arguments. -/
theorem C52_table {c : Call} {buf : Buf} {before after : Mem}
    (h : c.run G R O P fuel m = .returns buf before after) (hs : buf.len ≠ 0) :
    Spec.ResultLength P c buf.len.toNat := by
  obtain ⟨_, ⟨_, h1, _⟩ | ⟨_, h1, h2⟩ | ⟨_, b, _, h1, _, h2, h3⟩⟩ := returns_cases G R O P fuel m h
  · exact absurd h1 hs
  · cases c
    case rosterEntryCommitmentOpen =>
      subst h2
      rfl
    all_goals exact h1.elim
  · rw [h1, UInt64.toNat_ofNat', Nat.mod_eq_of_lt h3]
    exact h2

/-- The result lengths that `credential.h` documents. -/
def Spec.documented : Call → ℕ
  | .systemParametersCreate _ => 64
  | .issuerCreate .. => 96
  | .issuerNew .. => 160
  | .issuerGetIssuerParameters .. => 32
  | .issuerIssue .. => 328
  | .issuerVerify .. => 448
  | .issuerVerifyRosterMembership .. => 64
  | .userObtainFinish .. => 288
  | .userShow .. => 448
  | .rosterEntryCommitmentCreate .. => 64
  | .rosterEntryCommitmentRemoveOpening .. => 32
  | .rosterEntryCommitmentOpen .. => 1

/-- The arguments have the lengths that `credential.h` says they should have. -/
def Spec.WellSized : Call → Prop
  | .systemParametersCreate _ => True
  | .issuerCreate _ pl _ => pl = 64
  | .issuerNew _ pl _ kl => pl = 64 ∧ kl = 96
  | .issuerGetIssuerParameters _ il => il = 160
  | .issuerIssue _ il _ _ _ _ => il = 160
  | .issuerVerify _ il _ pl => il = 160 ∧ pl = 448
  | .issuerVerifyRosterMembership _ il _ vl => il = 160 ∧ vl = 448
  | .userObtainFinish _ _ _ pl _ ipl _ il => pl = 64 ∧ ipl = 32 ∧ il = 328
  | .userShow _ ul _ el _ _ _ => ul = 288 ∧ el = 64
  | .rosterEntryCommitmentCreate _ _ _ pl _ => pl = 64
  | .rosterEntryCommitmentRemoveOpening _ el => el = 64
  | .rosterEntryCommitmentOpen _ el _ _ _ pl => el = 64 ∧ pl = 64

theorem size_small {n : UInt64} (h : n.toNat < 2 ^ 32) : Spec.size P n = n.toNat := by
  rw [Spec.size, Nat.mod_eq_of_lt]
  refine lt_of_lt_of_le h (Nat.pow_le_pow_right (by omega) ?_)
  rw [Platform.bits]
  split <;> omega

/-- Full claim: for arguments of the documented lengths, the result has the documented length.
Missing: `issuer_verify_roster_membership` (`C52_roster`, `C52_false`). -/
theorem C52_documented_partial {c : Call} {buf : Buf} {before after : Mem}
    (h : c.run G R O P fuel m = .returns buf before after) (hs : buf.len ≠ 0)
    (hw : Spec.WellSized c) (hc : ∀ i il v vl, c ≠ .issuerVerifyRosterMembership i il v vl) :
    buf.len.toNat = Spec.documented c := by
  have h1 := C52_table G R O P fuel m h hs
  cases c with
  | issuerNew p pl k kl =>
    rw [Spec.ResultLength, hw.2, size_small P (by decide)] at h1
    exact h1
  | issuerGetIssuerParameters i il =>
    rw [Spec.ResultLength, show il = 160 from hw, size_small P (by decide)] at h1
    change 2 * _ + 96 = 160 at h1
    change _ = 32
    omega
  | userObtainFinish n nl p pl ip ipl i il =>
    rw [Spec.ResultLength, hw.2.1, size_small P (by decide)] at h1
    exact h1
  | issuerVerifyRosterMembership i il v vl => exact absurd rfl (hc i il v vl)
  | _ => exact h1

/-- `issuer_verify_roster_membership` never returns the documented length. -/
theorem C52_roster {i : ℕ} {il : UInt64} {v : ℕ} {vl : UInt64} {buf : Buf} {before after : Mem}
    (h : Call.run G R O P fuel m (.issuerVerifyRosterMembership i il v vl) =
      .returns buf before after) :
    buf.len.toNat ≠ Spec.documented (.issuerVerifyRosterMembership i il v vl) := by
  by_cases hs : buf.len = 0
  · rw [hs, Spec.documented]
    decide
  · rw [show buf.len.toNat = 32 from C52_table G R O P fuel m h hs, Spec.documented]
    decide

/-! ## C53 contents -/

/-- What a successful call computed was in memory, at the returned address, when its return value was
formed. Full claim: it can be read after the call. Missing: exactly that (`C53_dangles`). -/
theorem C53_contents_partial {c : Call} {buf : Buf} {before after : Mem}
    (h : c.run G R O P fuel m = .returns buf before after) (hs : buf.len ≠ 0) (hp : buf.ptr ≠ 0) :
    ∃ b, b.length = buf.len.toNat ∧ Spec.At before buf.ptr b := by
  obtain ⟨_, ⟨_, h1, _⟩ | ⟨_, h1, h2⟩ | ⟨_, b, _, h1, h4, h2, h3⟩⟩ := returns_cases G R O P fuel m h
  · exact absurd h1 hs
  · subst h2
    exact absurd rfl hp
  · refine ⟨b, ?_, ?_⟩
    · rw [h1, UInt64.toNat_ofNat', Nat.mod_eq_of_lt h3]
    · rw [h4]
      exact at_write _ _ _

/-- The negation of the claim, for every successful call: the memory is as before the call, the
buffer is already freed, and none of its bytes may be read. -/
theorem C53_dangles {c : Call} {buf : Buf} {before after : Mem}
    (h : c.run G R O P fuel m = .returns buf before after) (hs : buf.len ≠ 0) (hp : buf.ptr ≠ 0) :
    after = m ∧ ∀ k < buf.len.toNat, after (buf.ptr + k) = none := by
  obtain ⟨h0, ⟨_, h1, _⟩ | ⟨_, h1, h2⟩ | ⟨_, b, h5, h1, h4, h2, h3⟩⟩ := returns_cases G R O P fuel m h
  · exact absurd h1 hs
  · subst h2
    exact absurd rfl hp
  · refine ⟨h0, fun k hk => ?_⟩
    rw [h1, UInt64.toNat_ofNat', Nat.mod_eq_of_lt h3] at hk
    rw [h0]
    exact (P.alloc_fresh m b.length buf.ptr h5).2 _ (by omega) (by omega)

/-- So passing a result on to another call without copying it first is undefined behaviour (on
64-bit platforms; for instance the issuer to `issuer_get_issuer_parameters`). -/
theorem C53_chaining {c : Call} {buf : Buf} {before after : Mem} (hw : P.wide = true)
    (h : c.run G R O P fuel m = .returns buf before after) (hs : buf.len ≠ 0) (hp : buf.ptr ≠ 0) :
    Call.run G R O P fuel after (.issuerGetIssuerParameters buf.ptr buf.len) = .undefined := by
  have hd := C53_dangles G R O P fuel m h hs hp
  have hn : (Spec.Arg.bytes buf.ptr buf.len).Invalid P after := by
    refine ⟨fun h0 => h0.elim hp hs, ?_⟩
    rintro ⟨b, _, _, h1, h2, h3⟩
    have h4 : 0 < buf.len.toNat := by
      rw [Nat.pos_iff_ne_zero]
      intro h0
      exact hs (UInt64.toNat_inj.1 h0)
    have h5 : b.length = buf.len.toNat := by
      rw [h1, Platform.bits, hw, if_pos rfl, Nat.mod_eq_of_lt buf.len.toNat_lt]
    have h6 := h3 0 (by omega)
    rw [hd.2 0 h4] at h6
    have h7 : b[0]? = some (b[0]'(by omega)) := List.getElem?_eq_getElem _
    rw [h7] at h6
    cases h6
  have := slice_undefined_iff.2 hn
  simp only [Call.run, issuerGetIssuerParametersBody, this, Res.err_bind, finish]

/-! ## C54 failures -/

/-- An empty result has a non-null pointer in every function but the last. -/
theorem C54_nonnull {c : Call} {buf : Buf} {before after : Mem}
    (h : c.run G R O P fuel m = .returns buf before after) (hc : ¬ Spec.IsOpen c) : buf.ptr ≠ 0 := by
  obtain ⟨h0, ⟨_, h1, h2 | h2⟩ | ⟨_, h1, h2⟩ | ⟨_, b, h5, h1, h4, h2, h3⟩⟩ :=
    returns_cases G R O P fuel m h
  · rw [h2]
    exact P.dangling_ne
  · exact absurd h2.1 hc
  · exact absurd h1 hc
  · exact (P.alloc_fresh m b.length buf.ptr h5).1

/-- The claim is false of every function: there is a call that fails with length 0 and a pointer that
is not null. -/
theorem C54_false :
    ∀ c ∈ [Call.systemParametersCreate 0, .issuerCreate 0 0 0, .issuerNew 0 0 0 0,
      .issuerGetIssuerParameters 0 0, .issuerIssue 0 0 0 0 0 [], .issuerVerify 0 0 0 0,
      .issuerVerifyRosterMembership 0 0 0 0, .userObtainFinish 0 0 0 0 0 0 0 0,
      .userShow 0 0 0 0 0 [] [], .rosterEntryCommitmentCreate 0 0 0 0 0,
      .rosterEntryCommitmentRemoveOpening 0 0, .rosterEntryCommitmentOpen 0 0 0 0 0 0],
      ∃ buf, c.run G R O P fuel m = .returns buf m m ∧ buf.len = 0 ∧ buf.ptr ≠ 0 := by
  have key : ∀ c, (Spec.first c).Absent →
      ∃ buf, c.run G R O P fuel m = .returns buf m m ∧ buf.len = 0 ∧ buf.ptr ≠ 0 := by
    intro c hc
    exact ⟨_, C51_first G R O P fuel m c hc, rfl, P.dangling_ne⟩
  intro c hc
  simp only [List.mem_cons, List.not_mem_nil, or_false] at hc
  rcases hc with rfl | rfl | rfl | rfl | rfl | rfl | rfl | rfl | rfl | rfl | rfl | rfl <;>
    exact key _ (by first | exact rfl | exact Or.inl rfl)

variable {G} {P} {m}

/-- Full claim: on failure the result is empty and NULL. Missing: all early exits (`C54_false`). Here:
the one function that does return NULL, once its arguments are decoded; it reports 1 exactly if the
entry opens to the number. -/
theorem C54_open_partial {e n p : ℕ} {el nl pl : UInt64} {bn be : Bytes} {g h : G}
    {x : RosterEntryCommitment G} (hn : Spec.Denotes P m n nl bn)
    (hp : Spec.Denotes P m p pl (enc g ++ enc h)) (he : Spec.Denotes P m e el be)
    (hx : RosterEntryCommitment.fromBytes be = .ok x) (hl : bn.length ≤ 27 ∨ 33 ≤ bn.length) :
    ∃ buf, Call.run G R O P fuel m (.rosterEntryCommitmentOpen e el n nl p pl) = .returns buf m m ∧
      buf.ptr = 0 ∧ (buf.len = 1 ∨ buf.len = 0) ∧
      (buf.len = 1 ↔ ∃ s, PhoneNumber.tryFromBytes bn = .ok s ∧
        x.commitment = s.val • h + x.opening.val • g) := by
  have h1 : (SystemParameters.fromBytes (enc g ++ enc h) : Res _ (SystemParameters G)) = .ok ⟨g, h⟩ :=
    (C01_ok_iff _ _).2 rfl
  have hnp : PhoneNumber.tryFromBytes bn ≠ .panic := by
    rw [Ne, C16_bytes_panic_iff]
    omega
  simp only [Call.run, rosterEntryCommitmentOpenBody, slice_ok_iff.2 hn, slice_ok_iff.2 hp,
    slice_ok_iff.2 he, Res.ok_bind, h1, hx, okOrReturn, Res.mapErr_ok, RosterEntryCommitment.open]
  cases hs : PhoneNumber.tryFromBytes bn with
  | panic => exact absurd hs hnp
  | err er =>
    refine ⟨⟨0, 0⟩, rfl, rfl, .inr rfl, ?_⟩
    simp
  | ok s =>
    simp only [Res.ok_bind, Res.ok.injEq, exists_eq_left']
    have hiff : CommittedPhoneNumber.open x.commitment s x.opening g h = true ↔
        x.commitment = s.val • h + x.opening.val • g := C26_open_iff _ _ _ _
    by_cases ho : x.commitment = s.val • h + x.opening.val • g
    · rw [if_pos (hiff.2 ho)]
      exact ⟨⟨1, 0⟩, rfl, rfl, .inl rfl, by simp [ho]⟩
    · rw [if_neg fun h => ho (hiff.1 h)]
      exact ⟨⟨0, 0⟩, rfl, rfl, .inr rfl, by simp [ho]⟩

/-! ## C56 with arguments of the documented sizes -/

/-- The number, if the call takes one, does not have 28 to 32 bytes. -/
def Spec.NumberFits (P : Platform) : Call → Prop
  | .issuerIssue _ _ _ nl _ _ => ¬ (28 ≤ Spec.size P nl ∧ Spec.size P nl ≤ 32)
  | .userObtainFinish _ nl _ _ _ _ _ _ => ¬ (28 ≤ Spec.size P nl ∧ Spec.size P nl ≤ 32)
  | .rosterEntryCommitmentCreate _ nl _ _ _ => ¬ (28 ≤ Spec.size P nl ∧ Spec.size P nl ≤ 32)
  | .rosterEntryCommitmentOpen _ _ _ nl _ _ => ¬ (28 ≤ Spec.size P nl ∧ Spec.size P nl ≤ 32)
  | _ => True

/-- Full claim: no call with valid pointers panics. Missing: arguments of other than the documented
lengths, and numbers of 28 to 32 bytes (`C56_table_partial` has the exact conditions). Here: all
other calls, whatever the arguments contain. -/
theorem C56_sized_partial (c : Call) (hw : Spec.WellSized c) (hn : Spec.NumberFits P c) :
    c.run G R O P fuel m ≠ .panics := by
  rw [Ne, C56_table_partial]
  have hsz : ∀ {p pl b}, Spec.Denotes P m p pl b → b.length = Spec.size P pl := fun h => h.2.2.1
  cases c with
  | issuerNew p pl k kl =>
    rintro ⟨_, _, b, h1, h2⟩
    rw [hsz h1, hw.2, size_small P (by decide)] at h2
    exact absurd h2 (by decide)
  | issuerIssue i il n nl s e =>
    rintro ⟨_, _, b, h1, h2⟩
    rw [hsz h1] at h2
    exact hn h2
  | userObtainFinish n nl p pl ip ipl i il =>
    rintro ⟨_, _, b, h1, h2⟩
    have hb : b.length = 328 := by
      rw [hsz h1, hw.2.2, size_small P (by decide)]
      rfl
    rcases h2 with (h2 | ⟨h2, _⟩) | ⟨_, b', h3, h4⟩
    · omega
    · omega
    · rw [hsz h3] at h4
      exact hn h4
  | userShow u ul e el s e1 e2 =>
    rintro ⟨_, b, h1, h2⟩
    have hb : b.length = 288 := by
      rw [hsz h1, hw.1, size_small P (by decide)]
      rfl
    rcases h2 with h2 | ⟨_, b', h3, h4 | ⟨h4, _⟩⟩
    · omega
    all_goals
      rw [hsz h3, hw.2, size_small P (by decide)] at h4
      exact absurd h4 (by decide)
  | rosterEntryCommitmentCreate n nl p pl s =>
    rintro ⟨_, _, b, h1, h2⟩
    rw [hsz h1] at h2
    exact hn h2
  | rosterEntryCommitmentRemoveOpening e el =>
    rintro ⟨b, h1, h2 | ⟨h2, _⟩⟩
    all_goals
      rw [hsz h1, show el = 64 from hw, size_small P (by decide)] at h2
      exact absurd h2 (by decide)
  | rosterEntryCommitmentOpen e el n nl p pl =>
    rintro ⟨bn, h0, _, b, h1, (h2 | ⟨h2, _⟩) | ⟨_, h2⟩⟩
    · rw [hsz h1, hw.1, size_small P (by decide)] at h2
      exact absurd h2 (by decide)
    · rw [hsz h1, hw.1, size_small P (by decide)] at h2
      exact absurd h2 (by decide)
    · rw [hsz h0] at h2
      exact hn h2
  | _ => exact id

example : Spec.WellSized (.issuerIssue 1 160 2 13 3 []) ∧
    Spec.NumberFits P (.issuerIssue 1 160 2 13 3 []) := by
  refine ⟨rfl, ?_⟩
  rw [Spec.NumberFits, size_small P (by decide)]
  decide

/-! ## C65 lengths are not changed on the way in -/

omit [DecidableEq G]

/-- On 64-bit platforms a length is used as the caller gave it. -/
theorem C65_wide (hw : P.wide = true) {p : ℕ} {len : UInt64} {b : Bytes}
    (h : Ffi.slice P m len p = .ok b) : b.length = len.toNat := by
  rw [(slice_ok_iff.1 h).2.2.1, Platform.bits, hw, if_pos rfl, Nat.mod_eq_of_lt len.toNat_lt]

/-- Full claim: on every platform. Missing: on 32-bit platforms, lengths of 2³² or more
(`C65_false`). -/
theorem C65_small_partial {p : ℕ} {len : UInt64} {b : Bytes} (hl : len.toNat < 2 ^ 32)
    (h : Ffi.slice P m len p = .ok b) : b.length = len.toNat := by
  have := (slice_ok_iff.1 h).2.2.1
  rw [this]
  exact size_small P hl

/-- On a 32-bit platform the check for an empty argument can be passed with a length that becomes zero:
given the length 2³² and any pointer but null, the callee sees the empty string. -/
theorem C65_false (hw : P.wide = false) {p : ℕ} (hp : p ≠ 0) :
    Ffi.slice P m 4294967296 p = .ok [] := by
  rw [slice_ok_iff]
  refine ⟨hp, by decide, ?_, ?_, fun k hk => absurd hk (Nat.not_lt_zero k)⟩
  · rw [Platform.bits, hw]
    rfl
  · rw [Platform.bits, hw]
    decide

/-- In particular a credential is issued for the empty number, which a length of zero would have
prevented: on 32-bit platforms `issuer_issue` with number length 2³² does what the library does on an
empty number. -/
theorem C65_issue_empty (hw : P.wide = false) {i n s : ℕ} {il : UInt64} {bi sb e : Bytes}
    {x : SignalIssuer G} (hn : n ≠ 0) (hi : Spec.Denotes P m i il bi)
    (hx : SignalIssuer.fromBytes P.checks bi = .ok x) (hs : Spec.SeedAt m s sb) :
    issuerIssueBody G R O P m i il n 4294967296 s e =
      (okOrReturn (x.issue O [] (SeedableRng.fromSeed sb : R) e).1).map CredentialIssuance.toBytes ∧
    issuerIssueBody G R O P m i il n 0 s e = .err .empty := by
  constructor
  · simp only [issuerIssueBody, slice_ok_iff.2 hi, seed_ok_iff.2 ⟨sb, hs, rfl⟩, C65_false hw hn,
      Res.ok_bind, hx, okOrReturn, Res.mapErr_ok]
    cases (x.issue O [] (SeedableRng.fromSeed sb : R) e).1 <;> rfl
  · have h0 : Ffi.slice P m 0 n = .err .empty := slice_empty_iff.2 (.inr rfl)
    simp only [issuerIssueBody, slice_ok_iff.2 hi, seed_ok_iff.2 ⟨sb, hs, rfl⟩, h0,
      Res.ok_bind, hx, okOrReturn, Res.mapErr_ok, Res.err_bind]

-- a slice that is read (C65_wide, C65_small_partial)
example : Ffi.slice P toyMem 1 200 = .ok [0] := slice_ok_iff.2 (toyMem_byte P)

end Verif
