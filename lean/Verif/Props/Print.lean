import Verif.Model.Print
import Verif.Props.CodecComposite
import Verif.Props.Phone
import Verif.Props.Group255
import Verif.Lemmas.Ffi

/-!
# What is printed (C102)

The libraries report some failures with `println!`. The claim is that no bytes of a key, an opening or a phone
number are printed.
-/

namespace Verif.Print

open Ffi (Platform Exit Call)

variable {G : Type} [AddCommGroup G] [Module F G] [Ristretto G]

theorem bind_def {ε α β : Type} (x : Printed ε α) (f : α → Printed ε β) : x >>= f = x.bind f := rfl

theorem bind_res {ε α β : Type} (x : Printed ε α) (f : α → Printed ε β) :
    (x >>= f).res = x.res >>= fun a => (f a).res := by
  rw [bind_def, Printed.bind]
  cases x.res <;> rfl

@[simp] theorem quiet_res {ε α : Type} (x : Res ε α) : (quiet x).res = x := rfl
@[simp] theorem quiet_out {ε α : Type} (x : Res ε α) : (quiet x).out = [] := rfl
@[simp] theorem fail_res {ε α : Type} (std : Bool) (l : Line) (e : ε) :
    (fail std l e : Printed ε α).res = .err e := rfl
@[simp] theorem fail_out {ε α : Type} (std : Bool) (l : Line) (e : ε) :
    (fail std l e : Printed ε α).out = if std then [l] else [] := rfl

theorem okOrReturn_res {ε α : Type} (std : Bool) (name : ε → Error) (x : Printed ε α) :
    (okOrReturn std name x).res = Ffi.okOrReturn x.res := by
  rw [okOrReturn]
  cases x.res <;> rfl

theorem mapErr_bind {ε ε' α β : Type} (x : Res ε α) (f : α → Res ε β) (g : ε → ε') :
    (x >>= f).mapErr g = x.mapErr g >>= fun a => (f a).mapErr g := by
  cases x <;> rfl

theorem csprng_res {R : Type} [SeedableRng R] (std : Bool) (m : Mem) (seed : ℕ) :
    (csprng std m seed : Printed Exit R).res = Ffi.csprngFromSeed m seed := by
  rw [csprng]
  split
  · rename_i h
    rw [Ffi.csprngFromSeed, if_pos h, okOrReturn_res]
    rfl
  · rfl

theorem systemParameters_res (std : Bool) (b : Bytes) :
    (systemParameters std b).res = (SystemParameters.fromBytes b : Res _ (SystemParameters G)) := by
  rw [systemParameters, SystemParameters.fromBytes]
  split
  · rfl
  · rename_i h
    have h : b.length = 64 := by simpa using h
    obtain ⟨x, y, rfl, hx⟩ := exists_split (b := b) (n := 32) (by omega)
    have hy : y.length = 32 := by simp at h; omega
    rw [slice_left hx, slice_right hx (by omega)]
    simp only [bind_res, quiet_res, Res.ok_bind, copyFromSlice_ok hx, copyFromSlice_ok hy]
    cases (dec x : Option G) with
    | none => rfl
    | some g =>
      cases (dec y : Option G) with
      | none => rfl
      | some h => rfl

theorem sliceFrom_mapErr {ε ε' α : Type} (g : ε → ε') (b : Bytes) (n : ℕ) (f : Bytes → Res ε α) :
    (do f (← sliceFrom b n)).mapErr g = (do (f (← sliceFrom b n)).mapErr g) := by
  rw [sliceFrom, sliceFrom]
  split <;> rfl

theorem slice_mapErr {ε ε' α : Type} (g : ε → ε') (b : Bytes) (n k : ℕ) (f : Bytes → Res ε α) :
    (do f (← slice b n k)).mapErr g = (do (f (← slice b n k)).mapErr g) := by
  rw [slice, slice]
  split <;> rfl

theorem issuer_res (std checks : Bool) (b : Bytes) :
    (issuer std checks b).res = (SignalIssuer.fromBytes checks b : Res _ (SignalIssuer G)) := by
  rw [issuer, SignalIssuer.fromBytes, Issuer.fromBytes]
  split
  · rfl
  · simp only [bind_res, quiet_res, systemParameters_res]
    cases (slice b 0 64 : Res CredentialError Bytes) with
    | err e => rfl
    | panic => rfl
    | ok x =>
      simp only [Res.ok_bind]
      cases (SystemParameters.fromBytes x : Res _ (SystemParameters G)) with
      | err e => rfl
      | panic => rfl
      | ok p =>
        simp only [Res.ok_bind]
        rw [sliceFrom_mapErr]
        cases (sliceFrom b 64 : Res CredentialError Bytes) with
        | err e => rfl
        | panic => rfl
        | ok y =>
          simp only [Res.ok_bind]
          cases (Amacs.Keypair.fromBytes checks y : Res _ (Amacs.Keypair G)) <;> rfl

theorem bind_assoc' {ε α β γ : Type} (x : Res ε α) (f : α → Res ε β) (g : β → Res ε γ) :
    (x >>= f) >>= g = x >>= fun a => f a >>= g := by
  cases x <;> rfl

theorem user_res (std : Bool) (b : Bytes) :
    (user std b).res = (User.fromBytes b : Res _ (User G)) := by
  rw [user, User.fromBytes]
  split
  · rfl
  · simp only [bind_res, quiet_res, systemParameters_res, slice_mapErr, bind_assoc']

theorem signalUser_res (std : Bool) (b : Bytes) :
    (signalUser std b).res = (SignalUser.fromBytes b : Res _ (SignalUser G)) := by
  rw [signalUser, SignalUser.fromBytes]
  simp only [bind_res, quiet_res, user_res, slice_mapErr, bind_assoc']

theorem presentation_res (std : Bool) (b : Bytes) :
    (presentation std b).res =
      (SignalCredentialPresentation.fromBytes b : Res _ (SignalCredentialPresentation G)) := by
  rw [presentation, SignalCredentialPresentation.fromBytes]
  split
  · rfl
  · simp only [bind_res, quiet_res, slice_mapErr, bind_assoc']
    congr 1; funext x
    congr 1; funext c
    congr 1; funext y
    congr 1; funext p
    congr 1; funext z
    cases CommittedValuesEqual.Proof.deserialize z <;> rfl

theorem verified_res (std : Bool) (b : Bytes) :
    (verified std b).res =
      (VerifiedSignalCredential.fromBytes b : Res _ (VerifiedSignalCredential G)) := by
  rw [verified, VerifiedSignalCredential.fromBytes]
  simp only [bind_res, quiet_res, presentation_res]

theorem readDigits_res {ε : Type} (std : Bool) (b : Bytes) : ∀ n i,
    (readDigits std b n i : Printed ε Bytes).res = PhoneNumber.readDigits b n i
  | 0, _ => rfl
  | n + 1, i => by
    rw [readDigits, PhoneNumber.readDigits]
    simp only [bind_res, quiet_res]
    congr 1; funext x
    split
    · simp only [bind_res, quiet_res, readDigits_res]
    · simp only [bind_res, Res.ok_bind, readDigits_res]
      cases (PhoneNumber.readDigits b n (i + 1) : Res ε Bytes) <;> rfl

/-- The functions that print return what the model without printing says, with and without `std`. -/
theorem C102_same_results (std checks : Bool) (b : Bytes) (s : Scalar) :
    (systemParameters std b).res = (SystemParameters.fromBytes b : Res _ (SystemParameters G)) ∧
    (issuer std checks b).res = (SignalIssuer.fromBytes checks b : Res _ (SignalIssuer G)) ∧
    (user std b).res = (User.fromBytes b : Res _ (User G)) ∧
    (signalUser std b).res = (SignalUser.fromBytes b : Res _ (SignalUser G)) ∧
    (presentation std b).res =
      (SignalCredentialPresentation.fromBytes b : Res _ (SignalCredentialPresentation G)) ∧
    (verified std b).res =
      (VerifiedSignalCredential.fromBytes b : Res _ (VerifiedSignalCredential G)) ∧
    (phoneString std s).res = (PhoneNumber.toStr s : Res CredentialError Bytes) :=
  ⟨systemParameters_res _ _, issuer_res _ _ _, user_res _ _, signalUser_res _ _, presentation_res _ _,
    verified_res _ _, readDigits_res _ _ _ _⟩

/-- The exported functions end as the model without printing says (`finish` and `finishOpen` put the result
into a buffer). -/
theorem C102_same_calls [DecidableEq G] {R : Type} [SeedableRng R] (O : Oracle) (std : Bool) (P : Platform)
    (fuel : ℕ) (m : Mem) (c : Call) :
    c.run G R O P fuel m =
      match c with
      | .rosterEntryCommitmentOpen .. =>
        Ffi.finishOpen P m ((call G R O std P fuel m c).res >>= fun b => .ok (b = [1]))
      | _ => Ffi.finish P m (call G R O std P fuel m c).res := by
  cases c <;> simp only [Call.run, call, bind_res, quiet_res, okOrReturn_res, csprng_res,
    systemParameters_res, issuer_res, signalUser_res, presentation_res, verified_res]
  case systemParametersCreate s =>
    rw [Ffi.systemParametersCreateBody]
    congr 2; funext r
    cases SystemParameters.huntAndPeck (G := G) fuel r <;> rfl
  case rosterEntryCommitmentOpen e el n nl p pl =>
    rw [Ffi.rosterEntryCommitmentOpenBody]
    simp only [bind_assoc']
    congr 2; funext a
    congr 2; funext a
    congr 2; funext a
    congr 2; funext a
    congr 2; funext a
    split <;> simp_all
  all_goals rfl

/-! ## Which lines -/

/-- Nothing is printed unless something fails, at most `n` lines are, and the lines satisfy `p`. -/
structure Lines (n : ℕ) (p : Line → Prop) {ε α : Type} (x : Printed ε α) : Prop where
  silent : ∀ a, x.res = .ok a → x.out = []
  length : x.out.length ≤ n
  all : ∀ l ∈ x.out, p l

theorem Lines.bind {n : ℕ} {p : Line → Prop} {ε α β : Type} {x : Printed ε α} {f : α → Printed ε β}
    (hx : Lines n p x) (hf : ∀ a, x.res = .ok a → Lines n p (f a)) : Lines n p (x >>= f) := by
  rw [bind_def, Printed.bind]
  cases h : x.res with
  | err e => exact ⟨fun a ha => by (cases ha), hx.length, hx.all⟩
  | panic => exact ⟨fun a ha => by (cases ha), hx.length, hx.all⟩
  | ok a =>
    rw [hx.silent a h]
    exact ⟨(hf a h).silent, (hf a h).length, (hf a h).all⟩

theorem Lines.quiet {n : ℕ} {p : Line → Prop} {ε α : Type} (x : Res ε α) : Lines n p (quiet x) :=
  ⟨fun _ _ => rfl, Nat.zero_le _, fun l hl => absurd hl (by simp)⟩

theorem Lines.fail {p : Line → Prop} {ε α : Type} {std : Bool} {l : Line} {e : ε} (h : std = true → p l) :
    Lines 1 p (fail std l e : Printed ε α) := by
  refine ⟨fun a ha => by (cases ha), ?_, ?_⟩ <;> rw [fail_out] <;> cases std <;> simp_all

theorem Lines.mono {n k : ℕ} {p q : Line → Prop} {ε α : Type} {x : Printed ε α} (hx : Lines n p x)
    (hn : n ≤ k) (h : ∀ l, p l → q l) : Lines k q x :=
  ⟨hx.silent, hx.length.trans hn, fun l hl => h l (hx.all l hl)⟩

theorem Lines.okOrReturn {n : ℕ} {p : Line → Prop} {ε α : Type} {std : Bool} {name : ε → Error}
    {x : Printed ε α} (hx : Lines n p x) (h : std = true → ∀ e, p (.error e)) :
    Lines (n + 1) p (okOrReturn std name x) := by
  rw [Print.okOrReturn]
  cases hr : x.res with
  | ok a => exact ⟨fun _ _ => hx.silent a hr, hx.length.trans (Nat.le_succ _), hx.all⟩
  | panic => exact ⟨fun a ha => by (cases ha), hx.length.trans (Nat.le_succ _), hx.all⟩
  | err e =>
    refine ⟨fun a ha => by (cases ha), ?_, ?_⟩
    · have := hx.length
      cases std <;> simp <;> omega
    · intro l hl
      rw [List.mem_append] at hl
      refine hl.elim (hx.all l) fun hl => ?_
      cases std with
      | false => simp at hl
      | true =>
        simp only [if_true, List.mem_singleton] at hl
        exact hl ▸ h rfl _

theorem systemParameters_lines {p : Line → Prop} {std : Bool} {b : Bytes}
    (h1 : std = true → b.length = 64 → (dec (b.take 32) : Option G) = none → p (.notG (b.take 32)))
    (h2 : std = true → b.length = 64 → (dec (b.drop 32) : Option G) = none → p (.notH (b.drop 32))) :
    Lines 1 p (systemParameters std b : Printed _ (SystemParameters G)) := by
  rw [systemParameters]
  split
  · exact .quiet _
  · rename_i h
    have h : b.length = 64 := by simpa using h
    obtain ⟨x, y, rfl, hx⟩ := exists_split (b := b) (n := 32) (by omega)
    have hy : y.length = 32 := by simp at h; omega
    rw [slice_left hx, slice_right hx (by omega)]
    simp only [Res.ok_bind, copyFromSlice_ok hx, copyFromSlice_ok hy]
    rw [List.take_left' hx] at h1
    rw [List.drop_left' hx] at h2
    refine Lines.bind (.quiet _) fun a ha => ?_
    cases ha
    refine Lines.bind (.quiet _) fun a ha => ?_
    cases ha
    split
    · rename_i hd
      exact .fail fun hs => h1 hs (by simpa using by omega) hd
    · split
      · rename_i hd
        exact .fail fun hs => h2 hs (by simpa using by omega) hd
      · exact .quiet _

/-! ## Vocabulary -/

/-- The arguments of a call that contain system parameters, and where they begin. -/
def Spec.paramsAt : Call → List (ℕ × UInt64 × ℕ)
  | .systemParametersCreate _ => []
  | .issuerCreate p pl _ => [(p, pl, 0)]
  | .issuerNew p pl _ _ => [(p, pl, 0)]
  | .issuerGetIssuerParameters i il => [(i, il, 0)]
  | .issuerIssue i il _ _ _ _ => [(i, il, 0)]
  | .issuerVerify i il _ _ => [(i, il, 0)]
  | .issuerVerifyRosterMembership i il _ _ => [(i, il, 0)]
  | .userObtainFinish _ _ p pl _ _ _ _ => [(p, pl, 0)]
  | .userShow u ul _ _ _ _ _ => [(u, ul, 32)]
  | .rosterEntryCommitmentCreate _ _ p pl _ => [(p, pl, 0)]
  | .rosterEntryCommitmentRemoveOpening _ _ => []
  | .rosterEntryCommitmentOpen _ _ _ _ p pl => [(p, pl, 0)]

/-- The arguments of a call that are presentations. -/
def Spec.presentationAt : Call → List (ℕ × UInt64)
  | .issuerVerify _ _ p pl => [(p, pl)]
  | .issuerVerifyRosterMembership _ _ v vl => [(v, vl)]
  | _ => []

/-- The bytes `b` are the 32 bytes from `k` on of the system parameters of an argument. -/
def Spec.Excerpt (P : Platform) (m : Mem) (c : Call) (k : ℕ) (b : Bytes) : Prop :=
  ∃ p len off before after, (p, len, off) ∈ Spec.paramsAt c ∧
    Verif.Spec.Denotes P m p len (before ++ b ++ after) ∧ before.length = off + k ∧ b.length = 32

/-- What a line printed by a call may contain. -/
def Spec.Allowed (G : Type) [AddCommGroup G] [Module F G] [Ristretto G] (P : Platform) (m : Mem) (c : Call) :
    Line → Prop
  | .notG b => Spec.Excerpt P m c 0 b ∧ (dec b : Option G) = none
  | .notH b => Spec.Excerpt P m c 32 b ∧ (dec b : Option G) = none
  | .short n => ∃ p len b, (p, len) ∈ Spec.presentationAt c ∧ Verif.Spec.Denotes P m p len b ∧ n = b.length
  | .badProof => Spec.presentationAt c ≠ []
  | .digit _ => False
  | .deserialising _ _ => False
  | .error _ => True

/-- Every undecodable piece of 32 bytes of `b` from `k` on satisfies `p`. -/
def Piece (G : Type) [AddCommGroup G] [Module F G] [Ristretto G] (std : Bool) (p : Bytes → Prop) (b : Bytes)
    (k : ℕ) : Prop :=
  std = true → ∀ x before after, b = before ++ x ++ after → before.length = k → x.length = 32 →
    (dec x : Option G) = none → p x

theorem Piece.take {std : Bool} {p : Bytes → Prop} {b y : Bytes} {k : ℕ}
    (h : Piece G std p (b ++ y) k) : Piece G std p b k := by
  intro hs x before after hb hk hx hd
  refine h hs x before (after ++ y) ?_ hk hx hd
  rw [hb]
  simp

theorem Piece.drop {std : Bool} {p : Bytes → Prop} {b y : Bytes} {k : ℕ}
    (h : Piece G std p (b ++ y) (b.length + k)) : Piece G std p y k := by
  intro hs x before after hb hk hx hd
  refine h hs x (b ++ before) after ?_ (by simp [hk]) hx hd
  rw [hb]
  simp

theorem systemParameters_pieces {p : Line → Prop} {std : Bool} {b : Bytes}
    (h1 : Piece G std (fun x => p (.notG x)) b 0) (h2 : Piece G std (fun x => p (.notH x)) b 32) :
    Lines 1 p (systemParameters std b : Printed _ (SystemParameters G)) := by
  refine systemParameters_lines (fun hs hb hd => ?_) fun hs hb hd => ?_
  · exact h1 hs _ [] (b.drop 32) (by simp) rfl (by simp [hb]) hd
  · exact h2 hs _ (b.take 32) [] (by simp) (by simp [hb]) (by simp [hb]) hd

theorem issuer_lines {p : Line → Prop} {std checks : Bool} {b : Bytes}
    (h1 : Piece G std (fun x => p (.notG x)) b 0) (h2 : Piece G std (fun x => p (.notH x)) b 32) :
    Lines 1 p (issuer std checks b : Printed _ (SignalIssuer G)) := by
  rw [issuer]
  split
  · exact .quiet _
  · rename_i h
    obtain ⟨x, y, rfl, hx⟩ := exists_split (b := b) (n := 64) (by omega)
    rw [slice_left hx]
    refine Lines.bind (.quiet _) fun a ha => ?_
    cases ha
    refine Lines.bind (systemParameters_pieces h1.take h2.take) fun a _ => ?_
    refine Lines.bind (.quiet _) fun a _ => ?_
    exact .quiet _

theorem user_lines {p : Line → Prop} {std : Bool} {b : Bytes}
    (h1 : Piece G std (fun x => p (.notG x)) b 0) (h2 : Piece G std (fun x => p (.notH x)) b 32) :
    Lines 1 p (user std b : Printed _ (User G)) := by
  rw [user]
  split
  · exact .quiet _
  · rename_i h
    obtain ⟨x, y, rfl, hx⟩ := exists_split (b := b) (n := 64) (by omega)
    rw [slice_left hx]
    refine Lines.bind (.quiet _) fun a ha => ?_
    cases ha
    refine Lines.bind (systemParameters_pieces h1.take h2.take) fun a _ => ?_
    refine Lines.bind (.quiet _) fun a _ => ?_
    refine Lines.bind (.quiet _) fun a _ => ?_
    refine Lines.bind (.quiet _) fun a _ => ?_
    exact .quiet _

theorem signalUser_lines {p : Line → Prop} {std : Bool} {b : Bytes}
    (h1 : Piece G std (fun x => p (.notG x)) b 32) (h2 : Piece G std (fun x => p (.notH x)) b 64) :
    Lines 1 p (signalUser std b : Printed _ (SignalUser G)) := by
  rw [signalUser]
  refine Lines.bind (.quiet _) fun a _ => ?_
  refine Lines.bind (.quiet _) fun rest hr => ?_
  rw [quiet_res, sliceFrom] at hr
  split at hr
  · rename_i h
    cases hr
    obtain ⟨x, y, rfl, hx⟩ := exists_split (b := b) (n := 32) h
    rw [List.drop_left' hx]
    refine Lines.bind (user_lines (Piece.drop (b := x) ?_) (Piece.drop (b := x) ?_)) fun a _ => .quiet _
    · rw [hx]; exact h1
    · rw [hx]; exact h2
  · cases hr

theorem presentation_lines {p : Line → Prop} {std : Bool} {b : Bytes}
    (h1 : std = true → p (.short b.length)) (h2 : std = true → p .badProof) :
    Lines 1 p (presentation std b : Printed _ (SignalCredentialPresentation G)) := by
  rw [presentation]
  split
  · exact .fail h1
  · refine Lines.bind (.quiet _) fun a _ => ?_
    refine Lines.bind (.quiet _) fun a _ => ?_
    refine Lines.bind (.quiet _) fun a _ => ?_
    split
    · exact .fail h2
    · exact .quiet _

theorem verified_lines {p : Line → Prop} {std : Bool} {b : Bytes}
    (h1 : std = true → p (.short b.length)) (h2 : std = true → p .badProof) :
    Lines 1 p (verified std b : Printed _ (VerifiedSignalCredential G)) := by
  rw [verified]
  exact Lines.bind (presentation_lines h1 h2) fun a _ => .quiet _

theorem csprng_lines {p : Line → Prop} {R : Type} [SeedableRng R] {std : Bool} {m : Mem} {seed : ℕ}
    (h : std = true → ∀ e, p (.error e)) : Lines 2 p (csprng std m seed : Printed Exit R) := by
  rw [csprng]
  split
  · exact (Lines.okOrReturn (.quiet (n := 1) _) h)
  · exact .quiet _

theorem call_lines [DecidableEq G] {R : Type} [SeedableRng R] (O : Oracle) (std : Bool) (P : Platform)
    (fuel : ℕ) (m : Mem) (c : Call) :
    Lines 2 (fun l => std = true ∧ Spec.Allowed G P m c l) (call G R O std P fuel m c) := by
  have he : std = true → ∀ e, std = true ∧ Spec.Allowed G P m c (.error e) := fun hs e => ⟨hs, trivial⟩
  have hq : ∀ {ε α : Type} {name : ε → Error} {x : Res ε α},
      Lines 2 (fun l => std = true ∧ Spec.Allowed G P m c l) (okOrReturn std name (quiet x)) :=
    Lines.okOrReturn (.quiet (n := 1) _) he
  have hG : ∀ {p len off b}, (p, len, off) ∈ Spec.paramsAt c → (quiet (Ffi.slice P m len p)).res = .ok b →
      Piece G std (fun x => std = true ∧ Spec.Allowed G P m c (.notG x)) b off := by
    intro p len off b h hb hs x before after hx hk h32 hd
    exact ⟨hs, ⟨p, len, off, before, after, h, hx ▸ slice_ok_iff.1 hb, hk, h32⟩, hd⟩
  have hH : ∀ {p len off b}, (p, len, off) ∈ Spec.paramsAt c → (quiet (Ffi.slice P m len p)).res = .ok b →
      Piece G std (fun x => std = true ∧ Spec.Allowed G P m c (.notH x)) b (off + 32) := by
    intro p len off b h hb hs x before after hx hk h32 hd
    exact ⟨hs, ⟨p, len, off, before, after, h, hx ▸ slice_ok_iff.1 hb, hk, h32⟩, hd⟩
  have hS : ∀ {p len b}, (p, len) ∈ Spec.presentationAt c → (quiet (Ffi.slice P m len p)).res = .ok b →
      std = true → std = true ∧ Spec.Allowed G P m c (.short b.length) := by
    intro p len b h hb hs
    exact ⟨hs, p, len, b, h, slice_ok_iff.1 hb, rfl⟩
  have hP : ∀ {a}, a ∈ Spec.presentationAt c → std = true → std = true ∧ Spec.Allowed G P m c .badProof := by
    intro a h hs
    exact ⟨hs, List.ne_nil_of_mem h⟩
  cases c <;> rw [call]
  case systemParametersCreate =>
    refine Lines.bind (csprng_lines he) fun a _ => ?_
    split <;> exact .quiet _
  all_goals
    repeat first
      | exact .quiet _
      | refine Lines.bind (csprng_lines he) fun _ _ => ?_
      | refine Lines.bind hq fun _ _ => ?_
      | refine Lines.bind (Lines.okOrReturn (systemParameters_pieces
          (hG (List.mem_singleton_self _) (by assumption)) (hH (List.mem_singleton_self _) (by assumption)))
            he) fun _ _ => ?_
      | refine Lines.bind (Lines.okOrReturn (issuer_lines
          (hG (List.mem_singleton_self _) (by assumption)) (hH (List.mem_singleton_self _) (by assumption)))
            he) fun _ _ => ?_
      | refine Lines.bind (Lines.okOrReturn (signalUser_lines
          (hG (List.mem_singleton_self _) (by assumption)) (hH (List.mem_singleton_self _) (by assumption)))
            he) fun _ _ => ?_
      | refine Lines.bind (Lines.okOrReturn (presentation_lines
          (hS (List.mem_singleton_self _) (by assumption)) (hP (List.mem_singleton_self _))) he) fun _ _ => ?_
      | refine Lines.bind (Lines.okOrReturn (verified_lines
          (hS (List.mem_singleton_self _) (by assumption)) (hP (List.mem_singleton_self _))) he) fun _ _ => ?_
      | refine Lines.bind (.quiet _) fun _ _ => ?_
      | split

/-! ## C102 what the C interface prints -/

/-- Without `std` nothing is printed, a call that succeeds prints nothing, no call prints more than two lines,
and a line contains at most 32 bytes, of an argument that should be system parameters and does not decode. -/
theorem C102_printed [DecidableEq G] {R : Type} [SeedableRng R] (O : Oracle) (std : Bool) (P : Platform)
    (fuel : ℕ) (m : Mem) (c : Call) :
    (std = false → (call G R O std P fuel m c).out = []) ∧
    (∀ b, (call G R O std P fuel m c).res = .ok b → (call G R O std P fuel m c).out = []) ∧
    (call G R O std P fuel m c).out.length ≤ 2 ∧
    ∀ l ∈ (call G R O std P fuel m c).out, Spec.Allowed G P m c l := by
  have h := call_lines (G := G) (R := R) O std P fuel m c
  refine ⟨fun hs => ?_, h.silent, h.length, fun l hl => (h.all l hl).2⟩
  rw [List.eq_nil_iff_forall_not_mem]
  intro l hl
  have := (h.all l hl).1
  rw [hs] at this
  cases this

/-- A line with no bytes of any argument in it. -/
def Spec.Harmless : Line → Prop
  | .notG _ => False
  | .notH _ => False
  | .digit _ => False
  | _ => True

/-- The full claim, "no line contains bytes of an argument", holds if the system parameters in the arguments
are encodings of two points. Missing: other arguments, where it is false (`C102_number_false`,
`C102_opening_false`). -/
theorem C102_partial [DecidableEq G] {R : Type} [SeedableRng R] (O : Oracle) (std : Bool) (P : Platform)
    (fuel : ℕ) (m : Mem) (c : Call)
    (h : ∀ p len off a, (p, len, off) ∈ Spec.paramsAt c → Verif.Spec.Denotes P m p len a →
      ∃ before after, ∃ g h : G, a = before ++ enc g ++ enc h ++ after ∧ before.length = off) :
    ∀ l ∈ (call G R O std P fuel m c).out, Spec.Harmless l := by
  intro l hl
  have ha := (C102_printed (G := G) (R := R) O std P fuel m c).2.2.2 l hl
  cases l with
  | notG b =>
    obtain ⟨⟨p, len, off, before, after, hp, hd, hk, hb⟩, hn⟩ := ha
    obtain ⟨before', after', g, h, he, hk'⟩ := h p len off _ hp hd
    rw [List.append_assoc, List.append_assoc, List.append_assoc] at he
    have h1 := List.append_inj_right he (by omega)
    have h2 := List.append_inj_left h1 (by rw [hb, enc_length])
    rw [h2, dec_enc] at hn
    cases hn
  | notH b =>
    obtain ⟨⟨p, len, off, before, after, hp, hd, hk, hb⟩, hn⟩ := ha
    obtain ⟨before', after', g, h, he, hk'⟩ := h p len off _ hp hd
    rw [List.append_assoc, List.append_assoc _ (enc h)] at he
    have h1 := List.append_inj_right he (by rw [List.length_append, enc_length]; omega)
    have h2 := List.append_inj_left h1 (by rw [hb, enc_length])
    rw [h2, dec_enc] at hn
    cases hn
  | digit d => exact ha
  | _ => trivial

/-- System parameters in memory: a call that reads them as such meets the hypothesis. -/
example (P : Platform) (g h : G) (seed : ℕ) :
    let m := Mem.write (fun _ => none) 8 (enc g ++ enc h)
    ∀ p len off a, (p, len, off) ∈ Spec.paramsAt (.issuerCreate 8 64 seed) → Verif.Spec.Denotes P m p len a →
      ∃ before after, ∃ g h : G, a = before ++ enc g ++ enc h ++ after ∧ before.length = off := by
  intro m p len off a hp hd
  obtain ⟨rfl, rfl, rfl⟩ : p = 8 ∧ len = 64 ∧ off = 0 := by simpa [Spec.paramsAt] using hp
  have hl : (enc g ++ enc h).length = 64 := by simp
  have h64 : Verif.Spec.Denotes P m 8 64 (enc g ++ enc h) := by
    have := denotes_of_at (P := P) (m := m) (p := 8) (b := enc g ++ enc h) (by decide)
      (fun h0 => by rw [h0] at hl; cases hl) (by omega) (at_write _ 8 _)
    rwa [hl] at this
  have e := (slice_ok_iff.2 hd).symm.trans (slice_ok_iff.2 h64)
  cases e
  exact ⟨[], [], g, h, by simp, rfl⟩

/-! ## C102 what it should not print -/

theorem signalUser_long (u : SignalUser G) :
    ∃ rest, u.toBytes = u.phoneNumber.toBytes ++ rest ∧ 128 ≤ rest.length := by
  refine ⟨_, rfl, ?_⟩
  rw [User.toBytes]
  cases u.user.credential with
  | none =>
    simp only [List.length_append, SystemParameters.toBytes, enc_length, List.length_replicate]
    omega
  | some c =>
    simp only [List.length_append, SystemParameters.toBytes, enc_length, Credential.toBytes, Amacs.Tag.toBytes]
    omega

theorem issuer_out {checks : Bool} {x y : Bytes} (hx : x.length = 32) (hy : 128 ≤ y.length)
    (hd : (dec x : Option G) = none) :
    (issuer true checks (x ++ y) : Printed _ (SignalIssuer G)) =
      ⟨[.notG x], .err .pointDecompressionError⟩ := by
  obtain ⟨z, w, rfl, hz⟩ := exists_split (b := y) (n := 32) (by omega)
  have e : (x ++ (z ++ w)).length = 32 + (32 + w.length) := by simp [hx, hz]
  rw [List.length_append, hz] at hy
  rw [issuer, if_neg (by omega), ← List.append_assoc, slice_left (by simp [hx, hz])]
  rw [bind_def, Printed.bind]
  dsimp only [quiet]
  rw [bind_def, Printed.bind, systemParameters, if_neg (by simp [hx, hz]), slice_left hx,
    slice_right hx (by omega)]
  simp only [Res.ok_bind, copyFromSlice_ok hx, copyFromSlice_ok hz, bind_def, Printed.bind, quiet, hd]
  rfl

theorem params_out {g : G} {y : Bytes} (hy : y.length = 32) (hd : (dec y : Option G) = none) :
    (systemParameters true (enc g ++ y) : Printed _ (SystemParameters G)) =
      ⟨[.notH y], .err .pointDecompressionError⟩ := by
  rw [systemParameters, if_neg (by simp [hy]), slice_left (enc_length g), slice_right (enc_length g) (by omega)]
  simp only [Res.ok_bind, copyFromSlice_ok hy, copyFromSlice_ok (enc_length g), bind_def, Printed.bind, quiet,
    hd, dec_enc]
  rfl

theorem call_slice {P : Platform} {m : Mem} {p : ℕ} {len : UInt64} {b : Bytes}
    (h : Verif.Spec.Denotes P m p len b) {α : Type} (f : Bytes → Printed Exit α) :
    (quiet (Ffi.slice P m len p) >>= f) = f b := by
  rw [slice_ok_iff.2 h]
  rfl

/-- A caller that passes a saved user where the issuer is expected gets the phone number printed, if it is
not the encoding of a point. -/
theorem C102_number [DecidableEq G] {R : Type} [SeedableRng R] (O : Oracle) (P : Platform) (fuel : ℕ) (m : Mem)
    {p : ℕ} {len : UInt64} {u : SignalUser G} (hu : Verif.Spec.Denotes P m p len u.toBytes)
    (hd : (dec u.phoneNumber.toBytes : Option G) = none) (q : ℕ) (qlen : UInt64) :
    (call G R O true P fuel m (.issuerVerify p len q qlen)).out =
      [.notG u.phoneNumber.toBytes, .error (.credential .pointDecompressionError)] := by
  obtain ⟨rest, he, hr⟩ := signalUser_long u
  rw [he] at hu
  rw [call, call_slice hu, issuer_out (Scalar.toBytes_length _) hr hd]
  rfl

/-- A caller that passes a roster entry where the system parameters are expected gets the opening printed, if
it is not the encoding of a point; for example one that swaps the two in `roster_entry_commitment_open`. -/
theorem C102_opening [DecidableEq G] {R : Type} [SeedableRng R] (O : Oracle) (P : Platform) (fuel : ℕ) (m : Mem)
    {p q n : ℕ} {len qlen nlen : UInt64} {x : RosterEntryCommitment G} {number : Bytes}
    (hx : Verif.Spec.Denotes P m p len x.toBytes) (hn : Verif.Spec.Denotes P m n nlen number)
    (hd : (dec x.opening.toBytes : Option G) = none) :
    (call G R O true P fuel m (.rosterEntryCommitmentOpen q qlen n nlen p len)).out =
      [.notH x.opening.toBytes, .error (.credential .pointDecompressionError)] := by
  have he : x.toBytes = enc x.commitment ++ x.opening.toBytes := rfl
  rw [he] at hx
  rw [call, call_slice hn, call_slice hx, params_out (Scalar.toBytes_length _) hd]
  rfl

/-- In Ristretto255 no odd number is the encoding of a point. -/
theorem odd_undecodable {b : Bytes} (h : leVal b % 2 = 1) : (dec b : Option Curve.Ristretto255) = none := by
  cases hd : (dec b : Option Curve.Ristretto255) with
  | none => rfl
  | some Q =>
    obtain ⟨s, x, y, he⟩ := (Group255.C72_accept b).1 ⟨Q, hd⟩
    have h1 := he.nonneg
    rw [Group255.Nonneg, ← he.canonical] at h1
    omega

theorem number_undecodable {b : Bytes} {s : Scalar} (hs : PhoneNumber.tryFromBytes b = .ok s)
    (hb : b.length ≤ 26) :
    s.toBytes = Verif.Spec.phoneBytes b ∧ (dec s.toBytes : Option Curve.Ristretto255) = none := by
  obtain ⟨h1, rfl⟩ := PhoneNumber.encodeWith_eq_ok hs
  rw [List.map_id, toBytes_small hb]
  refine ⟨rfl, odd_undecodable ?_⟩
  rw [PhoneNumber.layout]
  simp only [List.cons_append, leVal_cons]
  have : (15 : UInt8).toNat = 15 := rfl
  omega

/-- With Ristretto255 that is the case for every number of at most 26 bytes: the line contains its digits. -/
theorem C102_number_false [DecidableEq Curve.Ristretto255] {R : Type} [SeedableRng R] (O : Oracle)
    (P : Platform) (fuel : ℕ) (m : Mem)
    {p : ℕ} {len : UInt64} {u : SignalUser Curve.Ristretto255} {number : Bytes}
    (hu : Verif.Spec.Denotes P m p len u.toBytes) (hn : PhoneNumber.tryFromBytes number = .ok u.phoneNumber)
    (hl : number.length ≤ 26) (q : ℕ) (qlen : UInt64) :
    (call Curve.Ristretto255 R O true P fuel m (.issuerVerify p len q qlen)).out =
      [.notG (Verif.Spec.phoneBytes number), .error (.credential .pointDecompressionError)] := by
  obtain ⟨h1, h2⟩ := number_undecodable hn hl
  rw [C102_number O P fuel m hu h2, h1]

/-- With Ristretto255 the opening of an entry is printed whenever it is odd. -/
theorem C102_opening_false [DecidableEq Curve.Ristretto255] {R : Type} [SeedableRng R] (O : Oracle)
    (P : Platform) (fuel : ℕ) (m : Mem)
    {p q n : ℕ} {len qlen nlen : UInt64} {x : RosterEntryCommitment Curve.Ristretto255} {number : Bytes}
    (hx : Verif.Spec.Denotes P m p len x.toBytes) (hn : Verif.Spec.Denotes P m n nlen number)
    (ho : x.opening.n % 2 = 1) :
    (call Curve.Ristretto255 R O true P fuel m (.rosterEntryCommitmentOpen q qlen n nlen p len)).out =
      [.notH x.opening.toBytes, .error (.credential .pointDecompressionError)] :=
  C102_opening O P fuel m hx hn (odd_undecodable (by rw [Scalar.leVal_toBytes]; exact ho))

/-- The full claim is false: a saved user with the number 14155551234, passed as the issuer. -/
theorem C102_false [DecidableEq Curve.Ristretto255] (R : Type) [SeedableRng R] (O : Oracle) (P : Platform)
    (fuel : ℕ) :
    ¬ ∀ (m : Mem) (c : Call), ∀ l ∈ (call Curve.Ristretto255 R O true P fuel m c).out, Spec.Harmless l := by
  intro h
  obtain ⟨s, hn⟩ : ∃ s, PhoneNumber.tryFromBytes [1, 4, 1, 5, 5, 5, 5, 1, 2, 3, 4] = .ok s :=
    ⟨_, PhoneNumber.encodeWith_ok _ _ (by decide)⟩
  set u : SignalUser Curve.Ristretto255 := ⟨s, ⟨⟨0, 0⟩, ⟨[0]⟩, none, none⟩⟩ with hu
  have hl : u.toBytes.length = 288 := by
    simp only [hu, SignalUser.toBytes, User.toBytes, SystemParameters.toBytes, Amacs.PublicKey.toBytes,
      PhoneNumber.toBytes, List.length_append, List.map_cons, List.map_nil, List.flatten_cons,
      List.flatten_nil, List.length_replicate, enc_length, Scalar.toBytes_length, List.length_nil]
  have hd : Verif.Spec.Denotes P (Mem.write (fun _ => none) 8 u.toBytes) 8
      (UInt64.ofNat u.toBytes.length) u.toBytes := by
    refine denotes_of_at (by decide) (fun h0 => ?_) (by omega) (at_write _ 8 _)
    rw [h0] at hl
    cases hl
  have := h (Mem.write (fun _ => none) 8 u.toBytes) (.issuerVerify 8 (UInt64.ofNat u.toBytes.length) 0 0)
  rw [C102_number_false (R := R) O P fuel _ hd hn (by decide) 0 0] at this
  exact this _ List.mem_cons_self

/-- An entry with the opening 1 and a number, in memory. -/
example (P : Platform) (g : Curve.Ristretto255) : ∃ (m : Mem) (p n : ℕ) (len nlen : UInt64) (number : Bytes),
    Verif.Spec.Denotes P m p len (⟨g, 1⟩ : RosterEntryCommitment Curve.Ristretto255).toBytes ∧
    Verif.Spec.Denotes P m n nlen number ∧ (1 : Scalar).n % 2 = 1 := by
  set x : RosterEntryCommitment Curve.Ristretto255 := ⟨g, 1⟩ with hx
  have hl : x.toBytes.length = 64 := by
    simp [RosterEntryCommitment.toBytes, CommittedPhoneNumber.toBytes, Pedersen.toBytes, Ephemeral.toBytes]
  refine ⟨(Mem.write (fun _ => none) 8 x.toBytes).write 80 [1, 4, 1, 5], 8, 80, _, _, [1, 4, 1, 5],
    denotes_of_at (by decide) (fun h0 => ?_) (by omega) (at_write_other (at_write _ 8 _) ?_),
    denotes_of_at (by decide) (by decide) (by decide) (at_write _ 80 _), rfl⟩
  · rw [h0] at hl
    cases hl
  · left
    omega

/-! ## C102 phone numbers as strings -/

theorem readDigits_out {ε : Type} : ∀ (ds pre post : Bytes) (i : ℕ), pre.length = i →
    (readDigits true (pre ++ ds ++ post) ds.length i : Printed ε Bytes) =
      ⟨(ds.filter fun d => !(d ≤ 9)).map .digit, .ok ((ds.filter fun d => d ≤ 9).map (· + 48))⟩
  | [], pre, post, i, _ => rfl
  | d :: ds, pre, post, i, h1 => by
    have hi : (index (pre ++ d :: ds ++ post) i : Res ε UInt8) = .ok d := by
      subst h1
      simp [index]
    have e : pre ++ d :: ds ++ post = (pre ++ [d]) ++ ds ++ post := by simp
    have ih := readDigits_out (ε := ε) ds (pre ++ [d]) post (i + 1) (by simp [h1])
    rw [List.length_cons, readDigits, hi, e, ih]
    by_cases hd : d ≤ 9
    · simp [bind_def, Printed.bind, quiet, hd]
    · simp [bind_def, Printed.bind, quiet, hd]

/-- The bytes of a number that are not digits from 0 to 9 are printed, and left out of the string. -/
theorem C102_digits {ε : Type} {b : Bytes} {p : Scalar} (h : PhoneNumber.tryFromBytes b = .ok p)
    (h1 : 1 ≤ b.length) (h2 : b.length ≤ 26) :
    (phoneString true p : Printed ε Bytes) =
      ⟨(b.filter fun d => !(d ≤ 9)).map .digit, .ok ((b.filter fun d => d ≤ 9).map (· + 48))⟩ := by
  obtain ⟨_, rfl⟩ := PhoneNumber.encodeWith_eq_ok h
  rw [List.map_id, phoneString, toBytes_small h2]
  have hz : UInt8.ofNat b.length ≠ 0 := by
    intro h
    have := congrArg UInt8.toNat h
    simp at this
    omega
  have hf : PhoneNumber.findLength (PhoneNumber.layout b) = b.length := by
    have e : PhoneNumber.layout b = ([15, 15] ++ b ++ [15, 15]) ++
        UInt8.ofNat b.length :: List.replicate (27 - b.length) 0 := by
      simp [PhoneNumber.layout]
    rw [e, findLength_append _ _ hz, UInt8.toNat_ofNat']
    omega
  have e : PhoneNumber.layout b = [15, 15] ++ b ++
      ([15, 15, UInt8.ofNat b.length] ++ List.replicate (27 - b.length) 0) := by
    simp [PhoneNumber.layout]
  rw [hf, e, readDigits_out _ _ _ 2 rfl]

/-- A number in ASCII that was read with `try_from_bytes` is printed digit by digit. -/
theorem C102_digits_false {ε : Type} {b : Bytes} {p : Scalar} (h : PhoneNumber.tryFromBytes b = .ok p)
    (h1 : 1 ≤ b.length) (h2 : b.length ≤ 26) (hd : ∀ d ∈ b, 48 ≤ d ∧ d ≤ 57) :
    (phoneString true p : Printed ε Bytes) = ⟨b.map .digit, .ok []⟩ := by
  have h3 : ∀ d ∈ b, ¬ d ≤ 9 := by
    intro d hb h9
    have h48 := (hd d hb).1
    rw [UInt8.le_iff_toNat_le] at h9 h48
    change d.toNat ≤ 9 at h9
    change 48 ≤ d.toNat at h48
    omega
  rw [C102_digits h h1 h2, List.filter_eq_self.2 (fun d hb => by simpa using h3 d hb),
    List.filter_eq_nil_iff.2 (fun d hb => by simpa using h3 d hb)]
  rfl

/-- A number of digits from 0 to 9, as `try_from_string` makes it, prints nothing. -/
theorem C102_digits_partial {ε : Type} {b : Bytes} {p : Scalar} (h : PhoneNumber.tryFromBytes b = .ok p)
    (h1 : 1 ≤ b.length) (h2 : b.length ≤ 26) (hd : ∀ d ∈ b, d ≤ 9) :
    (phoneString true p : Printed ε Bytes).out = [] := by
  rw [C102_digits h h1 h2, List.filter_eq_nil_iff.2 (fun d hb => by simpa using hd d hb)]
  rfl

/-- "14155551234" in ASCII. -/
example : let b : Bytes := [49, 52, 49, 53, 53, 53, 53, 49, 50, 51, 52]
    (∃ p, PhoneNumber.tryFromBytes b = .ok p) ∧ 1 ≤ b.length ∧ b.length ≤ 26 ∧ ∀ d ∈ b, 48 ≤ d ∧ d ≤ 57 :=
  ⟨⟨_, PhoneNumber.encodeWith_ok _ _ (by decide)⟩, by decide, by decide, by decide⟩

/-! ## C102 serde -/

/-- Decoding with serde adds one line, which names the type and the error. -/
theorem C102_serde {ε α : Type} (std : Bool) (type : String) (name : ε → Error) (x : Printed ε α) :
    (∀ l ∈ (visitBytes std type name x).out, l ∈ x.out ∨ std = true ∧ ∃ e, l = .deserialising type e) ∧
    (∀ a, (visitBytes std type name x).res = .ok a ↔ x.res = .ok a) ∧
    (∀ a, x.res = .ok a → (visitBytes std type name x).out = x.out) := by
  rw [visitBytes]
  cases h : x.res with
  | ok a => exact ⟨fun l hl => .inl hl, fun b => by simp, fun _ _ => rfl⟩
  | panic => exact ⟨fun l hl => .inl hl, fun b => by simp, fun _ _ => rfl⟩
  | err e =>
    refine ⟨fun l hl => ?_, fun b => by simp, fun b hb => by cases hb⟩
    rw [List.mem_append] at hl
    refine hl.imp_right fun hl => ?_
    cases std with
    | false => simp at hl
    | true => exact ⟨rfl, _, by simpa using hl⟩

end Verif.Print
