import Verif.Props.Gang
import Verif.Props.Setup

/-!
# C103 for the whole program

Parameters from `hunt_and_peck`, keys from `Issuer::create`, the roster entries of any number of users from
`RosterEntryCommitment::create`, and presentations from `SignalUser::show` with its own generators, which the adversary may
read as well.
-/

set_option maxRecDepth 100000
set_option exponentiation.threshold 300

namespace Verif

open Amacs

variable {G : Type} [AddCommGroup G] [Module F G] [Ristretto G] {N : ℕ}

/-! ## The game -/

/-- An adversary that asks the hash, reads transcript generators, watches any of the owners of `N` roster entries present,
and finally sends bytes. -/
inductive Spec.Sneak (G : Type) (N : ℕ) where
  | out (b : Bytes)
  | ask (t : Transcript) (next : Spec.Answer → Spec.Sneak G N)
  | read (q : Spec.Read) (next : Spec.Answer → Spec.Sneak G N)
  | watch (k : Fin N) (next : SignalCredentialPresentation G → Spec.Sneak G N)

/-- At most `q` hash queries and `s` reads by the adversary, and `n` presentations. -/
def Spec.Sneak.Within : Spec.Sneak G N → ℕ → ℕ → ℕ → Prop
  | .out _, _, _, _ => True
  | .ask _ next, q, s, n => ∃ q', q = q' + 1 ∧ ∀ a, (next a).Within q' s n
  | .read _ next, q, s, n => ∃ s', s = s' + 1 ∧ ∀ a, (next a).Within q s' n
  | .watch _ next, q, s, n => ∃ n', n = n' + 1 ∧ ∀ p, (next p).Within q s n'

open Classical in
/-- The adversary, who watches the users `w`, together with the check of what it sends, after the presentations `ps`. -/
noncomputable def Spec.Sneak.watcher (O : Oracle) (i : Issuer G) (E : Fin N → G) (w : Fin N → Spec.Member) :
    Spec.Sneak G N → List (Fin N × SignalCredentialPresentation G) → Spec.Watcher (Scalar ⊕ Spec.Member) (Spec.Sent G)
  | .out b, ps => .ask (Spec.sentQuery i b 0) fun c => .ask (Spec.sentQuery i b 1) fun d =>
      .done (decide (∃ j, Spec.Stolen (Spec.HashLog.oracle O [(Spec.sentQuery i b 0, c), (Spec.sentQuery i b 1, d)]) i (E j)
        b (Spec.sentBy j ps)))
  | .ask t next, ps => .ask t fun a => (next a).watcher O i E w ps
  | .read q next, ps => .read q fun a => (next a).watcher O i E w ps
  | .watch k next, ps => .request (.inr (w k)) fun p => (next p).watcher O i E w ((k, p) :: ps)

/-- An adversary: from parameters, the issuer's secret key and coins, it chooses the owners' numbers and nonces; then it is
given the roster entries. -/
abbrev Spec.Heist (G Ω : Type) (N : ℕ) :=
  SystemParameters G → F × F → Ω → (Fin N → Spec.Owner) × ((Fin N → G) → Spec.Sneak G N)

/-- The probability that this issuer accepts the adversary for the roster entry of one of the owners, which have the openings
`z`, with something that this owner did not send. (Issuers with other than one key do not occur.) -/
noncomputable def Spec.Heist.against {Ω : Type} (O : Oracle) (A : Spec.Heist G Ω N) (ω : Ω) (z : Fin N → F)
    (i : Issuer G) : ℚ :=
  match i.keypair.secretKey.xn with
  | [x1] =>
    let sp := i.systemParameters
    let x0 := i.keypair.secretKey.x0
    let a := A sp (x0.val, x1.val) ω
    let E := fun k => (a.1 k).entry sp (z k)
    ((a.2 E).watcher O i E (fun k => (a.1 k).member (z k)) []).yesRun (Spec.sends sp x0 x1) [] []
  | _ => 0

/-- The probability that an adversary gets accepted for the roster entry of one of the owners, if the parameters are from
`hunt_and_peck` with at most `M` draws of uniform bytes, and keys and openings are drawn from uniform bytes as well. If
`hunt_and_peck` needs more draws the adversary does not succeed. -/
noncomputable def Spec.heistWins {Ω : Type} [Fintype Ω] (O : Oracle) (M : ℕ) (A : Spec.Heist G Ω N) : ℚ :=
  Spec.mean fun x : Hunt.Tape M × (Ω × (Fin N → Spec.Answer)) × Spec.Answer × Spec.Answer =>
    match SystemParameters.huntAndPeck (G := G) M (⟨x.1, 0⟩ : Hunt.TapeRng M) with
    | none => 0
    | some (sp, _) =>
      A.against O x.2.1.1 (fun k => Spec.coin (x.2.1.2 k).1) (Issuer.create sp (⟨[x.2.2.1, x.2.2.2]⟩ : Spec.WideRng)).1

/-- The adversary that asks the hash instead of reading generators. -/
def Spec.Sneak.pack : Spec.Sneak G N → Spec.Gang G N
  | .out o => .out o
  | .ask t next => .ask (Forge.askedT t) fun a => (next a).pack
  | .read q next => .ask (Forge.packedT q) fun a => (next a).pack
  | .watch k next => .watch k fun p => (next p).pack

/-- The same, as an adversary of `C103_many`. -/
def Spec.Heist.pack {Ω : Type} (A : Spec.Heist G Ω N) : Spec.Gangsters G Ω N :=
  fun sp k ω => ((A sp k ω).1, fun E => ((A sp k ω).2 E).pack)

namespace Theft

omit [AddCommGroup G] [Module F G] [Ristretto G] in
theorem pack_within (A : Spec.Sneak G N) : ∀ q s n, A.Within q s n → A.pack.Within (q + s + 2 * n) := by
  induction A with
  | out o => intros; trivial
  | ask t next ih => rintro _ s n ⟨q, rfl, h⟩; exact ⟨q + s + 2 * n, by omega, fun a => ih a q s n (h a)⟩
  | read t next ih => rintro q _ n ⟨s, rfl, h⟩; exact ⟨q + s + 2 * n, by omega, fun a => ih a q s n (h a)⟩
  | watch k next ih => rintro q s _ ⟨n, rfl, h⟩; exact ⟨q + s + 2 * n, by omega, fun a => ih a q s n (h a)⟩

theorem watcher_within {O : Oracle} {i : Issuer G} {E : Fin N → G} {w : Fin N → Spec.Member} (A : Spec.Sneak G N) :
    ∀ ps q s n, A.Within q s n → (A.watcher O i E w ps).Within (q + 2) s n := by
  induction A with
  | out o => intro ps q s n _; exact ⟨q + 1, rfl, fun _ => ⟨q, rfl, fun _ => trivial⟩⟩
  | ask t next ih => rintro ps _ s n ⟨q, rfl, h⟩; exact ⟨q + 2, rfl, fun a => ih a ps q s n (h a)⟩
  | read t next ih => rintro ps q _ n ⟨s, rfl, h⟩; exact ⟨s, rfl, fun a => ih a ps q s n (h a)⟩
  | watch k next ih => rintro ps q s _ ⟨n, rfl, h⟩; exact ⟨n, rfl, fun a => ih a ((k, a) :: ps) q s n (h a)⟩

/-- Only the answers to the two queries matter. -/
theorem stolen_congr {O O' : Oracle} {sp : SystemParameters G} {x0 x1 : F} {E : G} {b : Bytes}
    {ps : List (SignalCredentialPresentation G)}
    (h : ∀ n, n = 0 ∨ n = 1 → O.chal (Spec.sentQuery (Spec.issuerOf sp x0 x1) b n) "chal" 64 =
      O'.chal (Spec.sentQuery (Spec.issuerOf sp x0 x1) b n) "chal" 64)
    (hg : Spec.Stolen O (Spec.issuerOf sp x0 x1) E b ps) : Spec.Stolen O' (Spec.issuerOf sp x0 x1) E b ps := by
  obtain ⟨p, v, R, a1, a2, a3, a4⟩ := hg
  have h0 := h 0 (.inl rfl)
  have h1 := h 1 (.inr rfl)
  simp only [Spec.sentQuery, a1, Spec.onDecoded, if_true, Nat.one_ne_zero, if_false] at h0 h1
  obtain ⟨Cm, rest, ho, -⟩ := (C10_ok_iff _ p).1 a1
  obtain ⟨o1, o2, -⟩ := ho.1
  have hv : v = ⟨p⟩ := by
    rw [SignalIssuer.verify] at a2
    cases hi : (Spec.issuerOf sp x0 x1).verify O p.presentation <;> rw [hi] at a2 <;> cases a2
    rfl
  subst hv
  refine ⟨p, ⟨p⟩, R, a1, ?_, ?_, a4⟩
  · have e : (Spec.issuerOf sp x0 x1).verify O' p.presentation = (Spec.issuerOf sp x0 x1).verify O p.presentation := by
      obtain ⟨R', ⟨CQ, P, as, Cs, r⟩, t⟩ := p
      dsimp only at o1 o2
      subst o1 o2
      simp only [Spec.issuerOf] at h0 ⊢
      rw [verify_one, verify_one, ValidCredential.verify, ValidCredential.verify, getChallenge, getChallenge]
      have hp : Spec.presentationPublics (⟨sp, ⟨⟨[x1 • sp.h]⟩, ⟨Scalar.ofF x0, [Scalar.ofF x1]⟩⟩⟩ : Issuer G)
          ⟨CQ, P, [], [Cm], r⟩ (x1 • sp.h) Cm =
          ⟨sp.g, sp.h, x1 • sp.h, P, Scalar.ofF x0 • P + Scalar.ofF x1 • Cm - CQ, Cm⟩ := by
        simp [Spec.presentationPublics, Spec.dot, Scalar.smul_def]
      simp only [Spec.showQuery, List.headD_cons, hp] at h0
      rw [show ValidCredential.verifyTranscript Issuer.showTranscript _ _ = Spec.Query.ops (.validCredential
        "AEONFLUX SHOW" _ _) from rfl, h0]
    rw [SignalIssuer.verify] at a2 ⊢
    dsimp only at a2 ⊢
    rw [e]
    exact a2
  · rw [← a3]
    obtain ⟨R', ⟨CQ, P, as, Cs, r⟩, t⟩ := p
    dsimp only at o1 o2
    subst o1 o2
    rw [verifyRoster_one, verifyRoster_one, CommittedValuesEqual.verify, CommittedValuesEqual.verify, getChallenge,
      getChallenge]
    simp only [Spec.rosterQuery, List.headD_cons] at h1
    rw [show CommittedValuesEqual.verifyTranscript SignalIssuer.membershipTranscript _ _ =
      Spec.Query.ops (.committedValuesEqual "SIGNAL GROUP MEMBERSHIP" _ _) from rfl, h1]

theorem head_query (i : Issuer G) (b : Bytes) (n : ℕ) : Forge.askedT (Spec.sentQuery i b n) = Spec.sentQuery i b n :=
  Reduction.head_query i ⟨0, 0, b⟩ n

/-- Reading generators and asking the hash are alike. -/
theorem pack_yes (O : Oracle) {sp : SystemParameters G} {x0 x1 : F} {E : Fin N → G} {w : Fin N → Spec.Member}
    (A : Spec.Sneak G N) : ∀ (l h : Spec.HashLog) (r : Spec.ReadLog) (ps : List (Fin N × SignalCredentialPresentation G)),
      Forge.Rel l h r →
      (A.watcher O (Spec.issuerOf sp x0 x1) E w ps).yes (Onlooker.honestly O sp (Scalar.ofF x0) (Scalar.ofF x1)) h r =
        (A.pack.checked (Spec.issuerOf sp x0 x1)).expect
          (fun k => Spec.memberShow O sp (Scalar.ofF x0) (Scalar.ofF x1) (w k))
          (fun b l ps => open Classical in
            if ∃ j, Spec.Stolen (l.oracle O) (Spec.issuerOf sp x0 x1) (E j) b (Spec.sentBy j ps) then 1 else 0)
          l ps := by
  induction A with
  | out o =>
    intro l h r ps hr
    simp only [Spec.Sneak.watcher, Spec.Sneak.pack, Spec.Gang.checked, Spec.Gang.expect, Spec.Watcher.yes]
    refine Sim.mean_congr fun a => Sim.mean_congr fun b => ?_
    have e0 := hr.1 (Spec.sentQuery (Spec.issuerOf sp x0 x1) o 0)
    have h1 := hr.hash (Spec.sentQuery (Spec.issuerOf sp x0 x1) o 0) a
    have e1 := h1.1 (Spec.sentQuery (Spec.issuerOf sp x0 x1) o 1)
    rw [head_query] at e0 h1
    rw [head_query, head_query] at e1
    rw [← e0, ← e1]
    have key : ∀ n, n = 0 ∨ n = 1 →
        (Spec.HashLog.oracle O [(Spec.sentQuery (Spec.issuerOf sp x0 x1) o 0,
          (l.lookup (Spec.sentQuery (Spec.issuerOf sp x0 x1) o 0)).getD a),
          (Spec.sentQuery (Spec.issuerOf sp x0 x1) o 1, ((l.asked (Spec.sentQuery (Spec.issuerOf sp x0 x1) o 0) a).lookup
            (Spec.sentQuery (Spec.issuerOf sp x0 x1) o 1)).getD b)]).chal
          (Spec.sentQuery (Spec.issuerOf sp x0 x1) o n) "chal" 64 =
        (((l.asked (Spec.sentQuery (Spec.issuerOf sp x0 x1) o 0) a).asked
          (Spec.sentQuery (Spec.issuerOf sp x0 x1) o 1) b).oracle O).chal
          (Spec.sentQuery (Spec.issuerOf sp x0 x1) o n) "chal" 64 := by
      generalize ht0 : Spec.sentQuery (Spec.issuerOf sp x0 x1) o 0 = t at *
      generalize ht : Spec.sentQuery (Spec.issuerOf sp x0 x1) o 1 = t' at *
      rintro n (rfl | rfl)
      · rw [ht0]
        rw [Reduction.oracle_chal (Reduction.lookup_mono (Reduction.lookup_asked l t a))]
        exact Reduction.oracle_chal (by simp)
      · rw [ht]
        rw [Reduction.oracle_chal (Reduction.lookup_asked _ t' b)]
        refine Reduction.oracle_chal ?_
        by_cases e : t' = t
        · subst e
          rw [Reduction.lookup_asked l t' a]
          simp
        · simp [List.lookup_cons, beq_eq_false_iff_ne.2 e]
    classical
    rw [if_congr decide_eq_true_iff rfl rfl]
    exact if_congr (exists_congr fun j => ⟨stolen_congr key, stolen_congr fun n hn => (key n hn).symm⟩) rfl rfl
  | ask t next ih =>
    intro l h r ps hr
    simp only [Spec.Sneak.watcher, Spec.Sneak.pack, Spec.Gang.checked, Spec.Gang.expect, Spec.Watcher.yes]
    refine Sim.mean_congr fun a => ?_
    rw [hr.1 t]
    exact ih _ _ _ _ _ (hr.hash t a)
  | read q next ih =>
    intro l h r ps hr
    simp only [Spec.Sneak.watcher, Spec.Sneak.pack, Spec.Gang.checked, Spec.Gang.expect, Spec.Watcher.yes]
    refine Sim.mean_congr fun a => ?_
    rw [hr.2 q]
    exact ih _ _ _ _ _ (hr.read q a)
  | watch k next ih =>
    intro l h r ps hr
    simp only [Spec.Sneak.watcher, Spec.Sneak.pack, Spec.Gang.checked, Spec.Gang.expect, Spec.Watcher.yes,
      Onlooker.honestly]
    exact Onlooker.show_rel O hr fun l' h' p hr' => ih p l' h' r ((k, p) :: ps) hr'

theorem against01 {Ω : Type} (O : Oracle) (A : Spec.Heist G Ω N) (ω : Ω) (z : Fin N → F) (i : Issuer G) :
    0 ≤ A.against O ω z i ∧ A.against O ω z i ≤ 1 := by
  unfold Spec.Heist.against
  split
  · exact Setup.run01 _ _ _ _
  · exact ⟨le_rfl, zero_le_one⟩

/-- For given parameters, keys and openings. -/
theorem against_le {Ω : Type} (O : Oracle) (A : Spec.Heist G Ω N) {sp : SystemParameters G} {x0 x1 : F} {z : Fin N → F}
    {ω : Ω} {q s n : ℕ} (hA : ∀ E, ((A sp (x0, x1) ω).2 E).Within q s n) :
    |A.against O ω z (Spec.issuerOf sp x0 x1) -
      (((A.pack sp (x0, x1) ω).2 fun k => ((A.pack sp (x0, x1) ω).1 k).entry sp (z k)).checked
        (Spec.issuerOf sp x0 x1)).expect
        (fun k => Spec.memberShow O sp (Scalar.ofF x0) (Scalar.ofF x1) (((A.pack sp (x0, x1) ω).1 k).member (z k)))
        (fun b l ps => open Classical in if ∃ j, Spec.Stolen (l.oracle O) (Spec.issuerOf sp x0 x1)
          (((A.pack sp (x0, x1) ω).1 j).entry sp (z j)) b (Spec.sentBy j ps) then 1 else 0) [] []| ≤
      9 * n / 2 ^ 259 + 3 * n * (2 * s + 8 * n + 3) / 2 ^ 256 := by
  have h := Onlooker.code_le O sp (Scalar.ofF x0) (Scalar.ofF x1) _
    (watcher_within (O := O) (i := Spec.issuerOf sp x0 x1) (E := fun k => ((A sp (x0, x1) ω).1 k).entry sp (z k))
      (w := fun k => ((A sp (x0, x1) ω).1 k).member (z k))
      ((A sp (x0, x1) ω).2 fun k => ((A sp (x0, x1) ω).1 k).entry sp (z k)) [] q s n (hA _))
  rw [pack_yes O _ [] [] [] [] ⟨fun _ => rfl, fun _ => rfl⟩] at h
  unfold Spec.Heist.against Spec.issuerOf
  dsimp only
  rw [Scalar.val_ofF, Scalar.val_ofF]
  exact h

end Theft

/-! ## C103 -/

/-- **C103** for the code as it is: the openings of the `N` roster entries are drawn from uniform bytes, the owners run
`SignalUser::show` with its own generators, and the adversary makes at most `q` hash queries, reads generators at most `s`
times, and sees at most `n` presentations. It succeeds at most as often as an adversary to which `C103_many` and
`C103_many_bound` apply with `T = q + s + 2n`, up to negligible terms. -/
theorem C103_code {S Ω : Type} [Fintype S] [Nonempty S] [Fintype Ω] [Nonempty Ω] (O : Oracle)
    (sp : S → SystemParameters G) (A : Spec.Heist G Ω N) (q s n : ℕ)
    (hA : ∀ σ k ω E, ((A (sp σ) k ω).2 E).Within q s n) :
    |(Spec.mean fun x : S × (Ω × (Fin N → Spec.Answer)) × F × F =>
        A.against O x.2.1.1 (fun k => Spec.coin (x.2.1.2 k).1) (Spec.issuerOf (sp x.1) x.2.2.1 x.2.2.2)) -
      Spec.gangWins O sp A.pack| ≤
      9 * n / 2 ^ 259 + 3 * n * (2 * s + 8 * n + 3) / 2 ^ 256 + N / 2 ^ 259 ∧
    ∀ σ k ω E, ((A.pack (sp σ) k ω).2 E).Within (q + s + 2 * n) := by
  refine ⟨?_, fun σ k ω E => Theft.pack_within _ q s n (hA σ k ω E)⟩
  have hn : Sim.Near (N / 2 ^ 259) fun x : S × (Ω × (Fin N → Spec.Answer)) × F × F =>
      (x.1, (x.2.1.1, fun k => Spec.coin (x.2.1.2 k).1), x.2.2) := by
    have := (Sim.Near.equiv (Equiv.refl S)).prod (((Sim.Near.equiv (Equiv.refl Ω)).prod
      (Sim.Near.pi fun _ : Fin N => Sim.Near.coin)).prod (Sim.Near.equiv (Equiv.refl (F × F))))
    rw [zero_add, zero_add, add_zero, Finset.sum_const, Finset.card_univ, Fintype.card_fin, nsmul_eq_mul, mul_one_div]
      at this
    exact this
  unfold Spec.gangWins
  exact hn.mean (f := fun x : S × (Ω × (Fin N → F)) × F × F =>
    A.against O x.2.1.1 x.2.1.2 (Spec.issuerOf (sp x.1) x.2.2.1 x.2.2.2))
    (fun x => Theft.against01 O A _ _ _) fun x => Theft.against_le O A (hA x.1 _ _)

/-- **C103** for the program as a whole: with parameters from `hunt_and_peck` and keys from `Issuer::create`, all from
uniform bytes, an adversary succeeds at most as often as one of `C103_many` with the parameters of a uniform discrete
logarithm instance, up to negligible terms. -/
theorem C103_setup {Ω : Type} [Fintype Ω] [Nonempty Ω] (O : Oracle) (M : ℕ) (A : Spec.Heist G Ω N) (q s n : ℕ)
    (hA : ∀ sp k ω E, ((A sp k ω).2 E).Within q s n) :
    |Spec.heistWins O M A - Spec.gangWins O (Spec.Log.parameters G) A.pack| ≤
      (15 / 16) ^ M + 1 / (ell - 1) + 1 / 2 ^ 258 +
        (9 * n / 2 ^ 259 + 3 * n * (2 * s + 8 * n + 3) / 2 ^ 256 + N / 2 ^ 259) := by
  have h1 := Setup.setup_le (G := G) M
    (fun ω : Ω × (Fin N → Spec.Answer) => A.against O ω.1 (fun k => Spec.coin (ω.2 k).1))
    fun _ _ => Theft.against01 _ _ _ _ _
  have h2 := (C103_code O (Spec.Log.parameters G) A q s n fun σ => hA _).1
  exact (abs_sub_le _ _ _).trans (add_le_add h1 h2)

/-- **C103** for the program as a whole, as a bound: if, for each of the `N` owners, `Spec.opener` opens the entry with
probability at most `t²/(2(T+2))`, where `T = q + s + 2n`, and `Spec.finder` finds the logarithm of `h` with probability at
most `u²/(4(T+2))`, then the adversary succeeds with probability at most `N(t + u)` and negligible terms. By `C103_log` and
`C95_finder` both are asked for discrete logarithms of uniform elements. -/
theorem C103_program {Ω : Type} [Fintype Ω] [Nonempty Ω] (O : Oracle) (M : ℕ) (A : Spec.Heist G Ω N) (q s n : ℕ)
    (hA : ∀ sp k ω E, ((A sp k ω).2 E).Within q s n) (T : ℕ) (hT : T = q + s + 2 * n) (t u : ℚ) (ht : 0 ≤ t) (hu : 0 ≤ u)
    (ho : ∀ j, Spec.openerWins (Spec.Log.parameters G) (A.pack.mole T j) T ≤ t ^ 2 / (2 * (T + 2)))
    (hl : ∀ j, Spec.robberFinderWins (Spec.Log.parameters G) (A.pack.mole T j) T ≤ u ^ 2 / (4 * (T + 2))) :
    Spec.heistWins O M A ≤ N * (t + u + 3 * (T + 2) ^ 2 / ell + 4 * (T + 2) / 2 ^ 252) +
      ((15 / 16) ^ M + 1 / (ell - 1) + 1 / 2 ^ 258 +
        (9 * n / 2 ^ 259 + 3 * n * (2 * s + 8 * n + 3) / 2 ^ 256 + N / 2 ^ 259)) := by
  subst hT
  have h1 := (abs_sub_le_iff.1 (C103_setup O M A q s n hA)).1
  have h2 := C103_many_bound O (Spec.Log.parameters G) (fun _ => Ristretto.base_ne)
    (fun y => smul_ne_zero y.2 Ristretto.base_ne) A.pack (q + s + 2 * n)
    (fun y k ω E => Theft.pack_within _ q s n (hA _ k ω E)) t u ht hu ho hl
  rw [sub_le_iff_le_add'] at h1
  exact h1.trans (add_le_add_left h2 _)

/-- **C103**: what an owner of the game does is `RosterEntryCommitment::create` and `SignalUser::show`. -/
theorem C103_programs {R : Type} [RngCore R] (O : Oracle) (sp : SystemParameters G) (x0 x1 : F) (w : Spec.Owner)
    {number : Bytes} (hm : PhoneNumber.tryFromBytes number = .ok w.m) (a : Spec.Answer) (rng : R) (e1 e2 : Spec.Seed) :
    ∃ ros : RosterEntryCommitment G, (RosterEntryCommitment.create number sp (⟨[a]⟩ : Spec.WideRng)).1 = .ok ros ∧
      ros.commitment = w.entry sp (Spec.coin a.1) ∧ ros = (w.member (Spec.coin a.1)).entry sp ∧
    ∃ (u : SignalUser G) (p : SignalCredentialPresentation G), u.user.systemParameters = sp ∧
      u.user.issuerParameters.Xn = [x1 • sp.h] ∧ (∃ tag, u.user.credential = some ⟨tag, [w.m]⟩ ∧
        tag.nonce = w.b • basepoint G ∧ tag.mac = (x1 * w.m.val + x0) • tag.nonce) ∧
      (u.show O rng ros e1.1 e2.1).1 = .ok p ∧
      (Spec.sends sp (.ofF x0) (.ofF x1) (.inr (w.member (Spec.coin a.1)))).Returns O []
        ((Spec.reads [64, 32] rng).1 ++ [e1.1, e2.1]) p := by
  refine ⟨(w.member (Spec.coin a.1)).entry sp, ?_, Theft.entry_eq sp w _, rfl,
    (C94_programs O sp x0 x1 w.m (w.member (Spec.coin a.1)) rng e1 e2).2⟩
  rw [roster_create number sp _ hm]
  rfl

/-! ## Examples -/

/-- An adversary that reads a generator, asks the hash, and watches two owners, whose numbers are 7 and 8. -/
example : let A : Spec.Heist F Unit 2 := fun _ _ _ =>
      (![⟨⟨7, by decide +kernel⟩, 1, one_ne_zero⟩, ⟨⟨8, by decide +kernel⟩, 1, one_ne_zero⟩], fun _ =>
      .read ⟨[.init "AEONFLUX SHOW"], [], List.replicate 32 0, 0⟩ fun _ => .ask [.init "AEONFLUX SHOW"] fun _ =>
      .watch 0 fun _ => .watch 1 fun _ => .out [])
    ∀ sp k ω E, ((A sp k ω).2 E).Within 1 1 2 :=
  fun _ _ _ _ => ⟨0, rfl, fun _ => ⟨0, rfl, fun _ => ⟨1, rfl, fun _ => ⟨0, rfl, fun _ => trivial⟩⟩⟩⟩

/-- An owner with the phone number 14155551234, as `C103_programs` needs. -/
example : ∃ w : Spec.Owner, PhoneNumber.tryFromBytes [1, 4, 1, 5, 5, 5, 5, 1, 2, 3, 4] = .ok w.m :=
  ⟨⟨_, 1, one_ne_zero⟩, rfl⟩

end Verif
