import Verif.Props.FfiPanic

/-!
# Null and empty arguments of the C interface (C51)
-/

set_option maxRecDepth 100000

namespace Verif

open Ffi Amacs

/-! ## Lemmas -/

/-- The computation `x` reads the arguments `as`, and otherwise leaves early only with an empty
result, except that it may hang if `H`. -/
structure Reads (P : Platform) (m : Mem) (H : Prop) (as : List Spec.Arg) {α : Type}
    (x : Res Exit α) : Prop where
  undefined : x = .err .undefined → ∃ a ∈ as, a.Invalid P m
  ok : ∀ v, x = .ok v → ∀ a ∈ as, a.Readable P m
  hangs : x = .err .hangs → H

namespace Reads

variable {P : Platform} {m : Mem} {H : Prop} {α β : Type}

theorem bind {as bs : List Spec.Arg} {x : Res Exit α} {f : α → Res Exit β} (hx : Reads P m H as x)
    (hf : ∀ a, Reads P m H bs (f a)) : Reads P m H (as ++ bs) (x >>= f) := by
  constructor
  · rw [Res.bind_eq_err]
    rintro (h | ⟨a, _, h⟩)
    · obtain ⟨a, h1, h2⟩ := hx.undefined h
      exact ⟨a, List.mem_append_left _ h1, h2⟩
    · obtain ⟨a, h1, h2⟩ := (hf a).undefined h
      exact ⟨a, List.mem_append_right _ h1, h2⟩
  · intro v
    rw [Res.bind_eq_ok]
    rintro ⟨a, h1, h2⟩ b hb
    rcases List.mem_append.1 hb with hb | hb
    · exact hx.ok _ h1 b hb
    · exact (hf a).ok _ h2 b hb
  · rw [Res.bind_eq_err]
    rintro (h | ⟨a, _, h⟩)
    · exact hx.hangs h
    · exact (hf a).hangs h

theorem slice (len : UInt64) (p : ℕ) : Reads P m H [.bytes p len] (Ffi.slice P m len p) where
  undefined h := ⟨_, List.mem_singleton.2 rfl, slice_undefined_iff.1 h⟩
  ok v h a ha := by
    rw [List.mem_singleton.1 ha]
    exact ⟨v, slice_ok_iff.1 h⟩
  hangs h := absurd h slice_ne_hangs

theorem seed {R : Type} [SeedableRng R] (p : ℕ) :
    Reads P m H [.seed p] (csprngFromSeed m p : Res Exit R) where
  undefined h := ⟨_, List.mem_singleton.2 rfl, seed_undefined_iff.1 h⟩
  ok v h a ha := by
    obtain ⟨s, hs, _⟩ := seed_ok_iff.1 h
    rw [List.mem_singleton.1 ha]
    exact ⟨s, hs⟩
  hangs h := absurd h seed_ne_hangs

theorem orReturn {ε : Type} (x : Res ε α) : Reads P m H [] (okOrReturn x) where
  undefined h := by
    have := (okOrReturn_eq_err.1 h).2
    cases this
  ok v h a ha := absurd ha List.not_mem_nil
  hangs h := by
    have := (okOrReturn_eq_err.1 h).2
    cases this

theorem pure (v : α) : Reads P m H [] (.ok v : Res Exit α) where
  undefined h := by cases h
  ok v h a ha := absurd ha List.not_mem_nil
  hangs h := by cases h

theorem perm {as bs : List Spec.Arg} {x : Res Exit α} (h : Reads P m H as x)
    (hp : ∀ a, a ∈ as ↔ a ∈ bs) : Reads P m H bs x where
  undefined hx := by
    obtain ⟨a, h1, h2⟩ := h.undefined hx
    exact ⟨a, (hp a).1 h1, h2⟩
  ok v hx a ha := h.ok v hx a ((hp a).2 ha)
  hangs := h.hangs

end Reads

variable (G : Type) [AddCommGroup G] [Module F G] [Ristretto G] [DecidableEq G]
variable (R : Type) [SeedableRng R] (O : Oracle) (P : Platform) (fuel : ℕ) (m : Mem)

/-- When `hunt_and_peck` does not find parameters in time. -/
def Spec.Hunting : Call → Prop
  | .systemParametersCreate s => ∃ sb, Spec.SeedAt m s sb ∧
      SystemParameters.huntAndPeck (G := G) fuel (SeedableRng.fromSeed sb : R) = none
  | _ => False

/-- Is this the last function, the only one that does not return bytes? -/
def Spec.IsOpen : Call → Prop
  | .rosterEntryCommitmentOpen .. => True
  | _ => False

/-- Every function is a computation that reads its arguments, followed by `finish` (or
`finishOpen`). -/
theorem run_reads (c : Call) :
    (¬ Spec.IsOpen c ∧ ∃ x : Res Exit Bytes, c.run G R O P fuel m = finish P m x ∧
      Reads P m (Spec.Hunting G R fuel m c) (Spec.args c) x) ∨
    (Spec.IsOpen c ∧ ∃ x : Res Exit Bool, c.run G R O P fuel m = finishOpen P m x ∧
      Reads P m (Spec.Hunting G R fuel m c) (Spec.args c) x) := by
  cases c with
  | systemParametersCreate s =>
    refine .inl ⟨id, _, rfl, ⟨?_, ?_, ?_⟩⟩
    · intro h
      rcases Res.bind_eq_err.1 h with h | ⟨_, _, h⟩
      · exact ⟨_, List.mem_singleton.2 rfl, seed_undefined_iff.1 h⟩
      · split at h <;> cases h
    · intro v h a ha
      obtain ⟨r, h1, _⟩ := Res.bind_eq_ok.1 h
      exact (Reads.seed (H := True) s).ok _ h1 a ha
    · intro h
      rcases Res.bind_eq_err.1 h with h | ⟨r, h1, h⟩
      · exact absurd h seed_ne_hangs
      · obtain ⟨sb, hs, rfl⟩ := seed_ok_iff.1 h1
        refine ⟨sb, hs, ?_⟩
        split at h
        · assumption
        · cases h
  | issuerCreate p pl s =>
    refine .inl ⟨id, _, rfl, Reads.perm (.bind (.seed s) fun _ => .bind (.slice pl p) fun _ =>
      .bind (.orReturn _) fun _ => .pure _) ?_⟩
    simp [Spec.args, or_comm]
  | issuerNew p pl k kl =>
    refine .inl ⟨id, _, rfl, Reads.perm (.bind (.slice pl p) fun _ => .bind (.orReturn _) fun _ =>
      .bind (.slice kl k) fun _ => .bind (.orReturn _) fun _ => .pure _) ?_⟩
    simp [Spec.args]
  | issuerGetIssuerParameters i il =>
    refine .inl ⟨id, _, rfl, Reads.perm (.bind (.slice il i) fun _ => .bind (.orReturn _) fun _ =>
      .pure _) ?_⟩
    simp [Spec.args]
  | issuerIssue i il n nl s e =>
    refine .inl ⟨id, _, rfl, Reads.perm (.bind (.slice il i) fun _ => .bind (.orReturn _) fun _ =>
      .bind (.seed s) fun _ => .bind (.slice nl n) fun _ => .bind (.orReturn _) fun _ => .pure _) ?_⟩
    simp [Spec.args, or_comm]
  | issuerVerify i il p pl =>
    refine .inl ⟨id, _, rfl, Reads.perm (.bind (.slice il i) fun _ => .bind (.orReturn _) fun _ =>
      .bind (.slice pl p) fun _ => .bind (.orReturn _) fun _ => .bind (.orReturn _) fun _ =>
      .pure _) ?_⟩
    simp [Spec.args]
  | issuerVerifyRosterMembership i il v vl =>
    refine .inl ⟨id, _, rfl, Reads.perm (.bind (.slice il i) fun _ => .bind (.orReturn _) fun _ =>
      .bind (.slice vl v) fun _ => .bind (.orReturn _) fun _ => .bind (.orReturn _) fun _ =>
      .pure _) ?_⟩
    simp [Spec.args]
  | userObtainFinish n nl p pl ip ipl i il =>
    refine .inl ⟨id, _, rfl, Reads.perm (.bind (.slice pl p) fun _ => .bind (.orReturn _) fun _ =>
      .bind (.slice ipl ip) fun _ => .bind (.orReturn _) fun _ =>
      .bind (.slice il i) fun _ => .bind (.orReturn _) fun _ =>
      .bind (.slice nl n) fun _ => .bind (.orReturn _) fun _ => .bind (.orReturn _) fun _ =>
      .pure _) ?_⟩
    intro a
    simp only [Spec.args, List.cons_append, List.nil_append, List.append_nil, List.mem_cons,
      List.not_mem_nil, or_false]
    tauto
  | userShow u ul e el s e1 e2 =>
    refine .inl ⟨id, _, rfl, Reads.perm (.bind (.seed s) fun _ => .bind (.slice ul u) fun _ =>
      .bind (.orReturn _) fun _ => .bind (.slice el e) fun _ => .bind (.orReturn _) fun _ =>
      .bind (.orReturn _) fun _ => .pure _) ?_⟩
    intro a
    simp only [Spec.args, List.cons_append, List.nil_append, List.append_nil, List.mem_cons,
      List.not_mem_nil, or_false]
    tauto
  | rosterEntryCommitmentCreate n nl p pl s =>
    refine .inl ⟨id, _, rfl, Reads.perm (.bind (.seed s) fun _ => .bind (.slice nl n) fun _ =>
      .bind (.slice pl p) fun _ => .bind (.orReturn _) fun _ =>
      .bind (.orReturn _) fun _ => .pure _) ?_⟩
    intro a
    simp only [Spec.args, List.cons_append, List.nil_append, List.append_nil, List.mem_cons,
      List.not_mem_nil, or_false]
    tauto
  | rosterEntryCommitmentRemoveOpening e el =>
    refine .inl ⟨id, _, rfl, Reads.perm (.bind (.slice el e) fun _ => .bind (.orReturn _) fun _ =>
      .pure _) ?_⟩
    simp [Spec.args]
  | rosterEntryCommitmentOpen e el n nl p pl =>
    refine .inr ⟨trivial, _, rfl, Reads.perm (as := _ ++ (_ ++ (_ ++ (_ ++ (_ ++ []))))) (.bind (.slice nl n) fun _ => .bind (.slice pl p) fun _ =>
      .bind (.orReturn _) fun _ => .bind (.slice el e) fun _ => .bind (.orReturn _) fun _ =>
      ⟨?_, ?_, ?_⟩) ?_⟩
    · intro h
      split at h <;> cases h
    · intro v h a ha
      exact absurd ha List.not_mem_nil
    · intro h
      split at h <;> cases h
    · intro a
      simp only [Spec.args, List.cons_append, List.nil_append, List.append_nil, List.mem_cons,
        List.not_mem_nil, or_false]
      tauto

/-! ## C51 null and empty arguments -/

/-- Nothing is read that the caller does not own: if each argument is null, empty, or readable then
behaviour is defined. -/
theorem C51_no_undefined (c : Call) (h : ∀ a ∈ Spec.args c, a.Absent ∨ a.Readable P m) :
    c.run G R O P fuel m ≠ .undefined := by
  have key : ¬ ∃ a ∈ Spec.args c, a.Invalid P m := by
    rintro ⟨a, ha, h1, h2⟩
    exact (h a ha).elim h1 h2
  rcases run_reads G R O P fuel m c with ⟨_, x, hr, hx⟩ | ⟨_, x, hr, hx⟩ <;> rw [hr] <;> intro h0
  · rcases x with b | (_ | _ | _) | _
    · simp only [finish] at h0
      split at h0 <;> cases h0
    · cases h0
    · exact key (hx.undefined rfl)
    · cases h0
    · cases h0
  · rcases x with (_ | _) | (_ | _ | _) | _
    · cases h0
    · cases h0
    · cases h0
    · exact key (hx.undefined rfl)
    · cases h0
    · cases h0

/-- Full claim: if an argument is null or empty then the call returns an empty buffer. Missing: the
calls that panic for another reason first (`C51_exceptions`). -/
theorem C51_absent_partial (c : Call) (h : ∀ a ∈ Spec.args c, a.Absent ∨ a.Readable P m)
    (ha : ∃ a ∈ Spec.args c, a.Absent) (hp : ¬ Spec.CallPanics G P m c) :
    ∃ buf, c.run G R O P fuel m = .returns buf m m ∧ buf.len = 0 := by
  have key : ¬ ∃ a ∈ Spec.args c, a.Invalid P m := by
    rintro ⟨a, ha, h1, h2⟩
    exact (h a ha).elim h1 h2
  obtain ⟨a, ha, hab⟩ := ha
  have hunt : ¬ Spec.Hunting G R fuel m c := by
    intro hh
    cases c with
    | systemParametersCreate s =>
      obtain ⟨sb, hs, _⟩ := hh
      rw [Spec.args, List.mem_singleton] at ha
      rw [ha] at hab
      exact hs.1 hab
    | _ => exact hh
  rw [← C56_table_partial (R := R) O P fuel m c] at hp
  rcases run_reads G R O P fuel m c with ⟨_, x, hr, hx⟩ | ⟨_, x, hr, hx⟩ <;> rw [hr] at hp ⊢
  · rcases x with b | (_ | _ | _) | _
    · exact absurd hab (readable_not_absent (hx.ok b rfl a ha))
    · exact ⟨_, rfl, rfl⟩
    · exact absurd (hx.undefined rfl) key
    · exact absurd (hx.hangs rfl) hunt
    · exact absurd rfl hp
  · rcases x with b | (_ | _ | _) | _
    · exact absurd hab (readable_not_absent (hx.ok b rfl a ha))
    · exact ⟨_, rfl, rfl⟩
    · exact absurd (hx.undefined rfl) key
    · exact absurd (hx.hangs rfl) hunt
    · exact absurd rfl hp

variable {G} {P} {m}

omit [DecidableEq G] in
/-- The only calls that panic although an argument is null or empty: `user_show` without an entry
when the user is shorter than 32 bytes, and `user_obtain_finish` without a number when the issuance
is cut short. -/
theorem C51_exceptions {c : Call} (ha : ∃ a ∈ Spec.args c, a.Absent)
    (hp : Spec.CallPanics G P m c) :
    (∃ u ul e el s e1 e2, c = .userShow u ul e el s e1 e2 ∧ (e = 0 ∨ el = 0) ∧
      ∃ b, Spec.Denotes P m u ul b ∧ b.length < 32) ∨
    ∃ n nl p pl ip ipl i il, c = .userObtainFinish n nl p pl ip ipl i il ∧ (n = 0 ∨ nl = 0) ∧
      ∃ b, Spec.Denotes P m i il b ∧ Spec.IssuancePanics G b := by
  have hd : ∀ {p pl b}, Spec.Denotes P m p pl b → ¬ (p = 0 ∨ pl = 0) := fun h h0 =>
    h0.elim h.1 h.2.1
  cases c with
  | issuerNew p pl k kl =>
    obtain ⟨_, ⟨g, h, h1⟩, b, h2, _⟩ := hp
    simp only [Spec.args, List.mem_cons, List.not_mem_nil, or_false, exists_eq_or_imp,
      exists_eq_left, Spec.Arg.Absent] at ha
    rcases ha with ha | ha
    · exact absurd ha (hd h1)
    · exact absurd ha (hd h2)
  | issuerIssue i il n nl s e =>
    obtain ⟨⟨b, h1, _⟩, ⟨sb, h2⟩, b', h3, _⟩ := hp
    simp only [Spec.args, List.mem_cons, List.not_mem_nil, or_false, exists_eq_or_imp,
      exists_eq_left, Spec.Arg.Absent] at ha
    rcases ha with ha | ha | ha
    · exact absurd ha (hd h1)
    · exact absurd ha (hd h3)
    · exact absurd ha h2.1
  | userObtainFinish n nl p pl ip ipl i il =>
    obtain ⟨⟨g, h, h1⟩, ⟨Xs, h2⟩, b, h3, h4⟩ := hp
    simp only [Spec.args, List.mem_cons, List.not_mem_nil, or_false, exists_eq_or_imp,
      exists_eq_left, Spec.Arg.Absent] at ha
    rcases ha with ha | ha | ha | ha
    · rcases h4 with h4 | ⟨_, b', h4, _⟩
      · exact .inr ⟨n, nl, p, pl, ip, ipl, i, il, rfl, ha, b, h3, h4⟩
      · exact absurd ha (hd h4)
    · exact absurd ha (hd h1)
    · exact absurd ha (hd h2)
    · exact absurd ha (hd h3)
  | userShow u ul e el s e1 e2 =>
    obtain ⟨⟨sb, h1⟩, b, h2, h3⟩ := hp
    simp only [Spec.args, List.mem_cons, List.not_mem_nil, or_false, exists_eq_or_imp,
      exists_eq_left, Spec.Arg.Absent] at ha
    rcases ha with ha | ha | ha
    · exact absurd ha (hd h2)
    · rcases h3 with h3 | ⟨_, b', h4, _⟩
      · exact .inl ⟨u, ul, e, el, s, e1, e2, rfl, ha, b, h2, h3⟩
      · exact absurd ha (hd h4)
    · exact absurd ha h1.1
  | rosterEntryCommitmentCreate n nl p pl s =>
    obtain ⟨⟨sb, h1⟩, ⟨g, h, h2⟩, b, h3, _⟩ := hp
    simp only [Spec.args, List.mem_cons, List.not_mem_nil, or_false, exists_eq_or_imp,
      exists_eq_left, Spec.Arg.Absent] at ha
    rcases ha with ha | ha | ha
    · exact absurd ha (hd h3)
    · exact absurd ha (hd h2)
    · exact absurd ha h1.1
  | rosterEntryCommitmentRemoveOpening e el =>
    obtain ⟨b, h1, _⟩ := hp
    simp only [Spec.args, List.mem_cons, List.not_mem_nil, or_false, exists_eq_left,
      Spec.Arg.Absent] at ha
    exact absurd ha (hd h1)
  | rosterEntryCommitmentOpen e el n nl p pl =>
    obtain ⟨bn, h1, ⟨g, h, h2⟩, b, h3, _⟩ := hp
    simp only [Spec.args, List.mem_cons, List.not_mem_nil, or_false, exists_eq_or_imp,
      exists_eq_left, Spec.Arg.Absent] at ha
    rcases ha with ha | ha | ha
    · exact absurd ha (hd h3)
    · exact absurd ha (hd h1)
    · exact absurd ha (hd h2)
  | _ => exact hp.elim

variable (G) (P)

/-- The claim is false: `user_show` given one byte as a user, a null pointer as the entry, and a good
seed panics. -/
theorem C51_false :
    let c : Call := .userShow 200 1 0 0 100 [] []
    (∀ a ∈ Spec.args c, a.Absent ∨ a.Readable P toyMem) ∧ (∃ a ∈ Spec.args c, a.Absent) ∧
      c.run G R O P fuel toyMem = .panics := by
  refine ⟨?_, ⟨.bytes 0 0, by simp [Spec.args], Or.inl rfl⟩, (C56_table_partial O P fuel toyMem _).2 ?_⟩
  · simp only [Spec.args, List.mem_cons, List.not_mem_nil, or_false, forall_eq_or_imp, forall_eq]
    exact ⟨.inr ⟨_, toyMem_byte P⟩, .inl (.inl rfl), .inr ⟨_, toyMem_seed⟩⟩
  · exact ⟨⟨_, toyMem_seed⟩, _, toyMem_byte P, .inl (by decide)⟩

/-- The argument each function looks at first. -/
def Spec.first : Call → Spec.Arg
  | .systemParametersCreate s => .seed s
  | .issuerCreate _ _ s => .seed s
  | .issuerNew p pl _ _ => .bytes p pl
  | .issuerGetIssuerParameters i il => .bytes i il
  | .issuerIssue i il _ _ _ _ => .bytes i il
  | .issuerVerify i il _ _ => .bytes i il
  | .issuerVerifyRosterMembership i il _ _ => .bytes i il
  | .userObtainFinish _ _ p pl _ _ _ _ => .bytes p pl
  | .userShow _ _ _ _ s _ _ => .seed s
  | .rosterEntryCommitmentCreate _ _ _ _ s => .seed s
  | .rosterEntryCommitmentRemoveOpening e el => .bytes e el
  | .rosterEntryCommitmentOpen _ _ n nl _ _ => .bytes n nl

/-- If the argument looked at first is null or empty, the call returns an empty buffer in every
memory and whatever the other pointers are. -/
theorem C51_first (m : Mem) (c : Call) (h : (Spec.first c).Absent) :
    c.run G R O P fuel m = .returns ⟨0, P.dangling⟩ m m := by
  cases c
  case systemParametersCreate | issuerCreate | userShow | rosterEntryCommitmentCreate =>
    have h := seed_empty_iff (R := R) (m := m).2 h
    simp only [Call.run, systemParametersCreateBody, issuerCreateBody, userShowBody,
      rosterEntryCommitmentCreateBody, h, Res.err_bind, finish]
  all_goals
    have h := slice_empty_iff (P := P) (m := m).2 h
    simp only [Call.run, issuerNewBody, issuerGetIssuerParametersBody, issuerIssueBody,
      issuerVerifyBody, issuerVerifyRosterMembershipBody, userObtainFinishBody,
      rosterEntryCommitmentRemoveOpeningBody, rosterEntryCommitmentOpenBody, h, Res.err_bind, finish,
      finishOpen]

-- the hypotheses of C51_no_undefined and C51_absent_partial are met: an entry of zero length
example : let c : Call := .rosterEntryCommitmentRemoveOpening 200 0
    (∀ a ∈ Spec.args c, a.Absent ∨ a.Readable P toyMem) ∧ (∃ a ∈ Spec.args c, a.Absent) ∧
      ¬ Spec.CallPanics G P toyMem c := by
  refine ⟨?_, ⟨.bytes 200 0, by simp [Spec.args], Or.inr rfl⟩, ?_⟩
  · simp only [Spec.args, List.mem_cons, List.not_mem_nil, or_false, forall_eq]
    exact .inl (.inr rfl)
  · rintro ⟨b, h, _⟩
    exact h.2.1 rfl

-- those of C51_exceptions by the witness of C51_false, those of C51_first by any null seed
example : Spec.CallPanics G P toyMem (.userShow 200 1 0 0 100 [] []) :=
  ⟨⟨_, toyMem_seed⟩, _, toyMem_byte P, .inl (by decide)⟩

example (u e : ℕ) (ul el : UInt64) : (Spec.first (.userShow u ul e el 0 [] [])).Absent := rfl

end Verif
