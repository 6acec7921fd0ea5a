import Verif.Props.Reduction
import Verif.Props.Forge

/-!
# C93 for the code with its own generators

In the game of `C93_reduction` the issuer draws its randomness uniformly. Here it runs the program of `Issuer::issue`,
which draws from generators that are keyed with the transcript, the witnesses and 32 bytes of entropy, and the
adversary may read generators as well. Reads and hash queries together are queries to one random function.
-/

set_option maxRecDepth 100000
set_option exponentiation.threshold 300

namespace Verif

open Amacs

variable {G : Type} [AddCommGroup G] [Module F G] [Ristretto G]

/-! ## The game -/

/-- An adversary that asks the hash, reads transcript generators, gets attributes issued, and finally claims
something. It need not be algebraic. -/
inductive Spec.Intruder (G : Type) where
  | out (o : Spec.Attempt)
  | ask (t : Transcript) (next : Spec.Answer → Spec.Intruder G)
  | read (q : Spec.Read) (next : Spec.Answer → Spec.Intruder G)
  | issue (m : Scalar) (next : CredentialIssuance G → Spec.Intruder G)

/-- At most `q` hash queries, `s` reads and `n` requests for issuance. -/
def Spec.Intruder.Within : Spec.Intruder G → ℕ → ℕ → ℕ → Prop
  | .out _, _, _, _ => True
  | .ask _ next, q, s, n => ∃ q', q = q' + 1 ∧ ∀ a, (next a).Within q' s n
  | .read _ next, q, s, n => ∃ s', s = s' + 1 ∧ ∀ a, (next a).Within q s' n
  | .issue _ next, q, s, n => ∃ n', n = n' + 1 ∧ ∀ c, (next c).Within q s n'

/-- No attribute in `V` is issued. -/
def Spec.Intruder.Avoids (V : Set F) : Spec.Intruder G → Prop
  | .out _ => True
  | .ask _ next => ∀ a, (next a).Avoids V
  | .read _ next => ∀ a, (next a).Avoids V
  | .issue m next => m.val ∉ V ∧ ∀ c, (next c).Avoids V

open Classical in
/-- The adversary together with the check of its claim: the issuer makes its two queries, and looks whether the
claim is accepted with the answers to them. -/
noncomputable def Spec.Intruder.watcher (O : Oracle) (i : Issuer G) (V : Set F) :
    Spec.Intruder G → Spec.Watcher Scalar fun _ => CredentialIssuance G
  | .out o => .ask (o.query i 0) fun a => .ask (o.query i 1) fun b =>
      .done (decide (o.Good (Spec.HashLog.oracle O [(o.query i 0, a), (o.query i 1, b)]) i V))
  | .ask t next => .ask t fun a => (next a).watcher O i V
  | .read q next => .read q fun a => (next a).watcher O i V
  | .issue m next => .request m fun c => (next c).watcher O i V

/-- The probability that an adversary gets accepted for a number in `V`, if the issuer runs `Issuer::issue` with its
own generators. -/
noncomputable def Spec.intruderWins {S Ω : Type} [Fintype S] [Fintype Ω] (O : Oracle) (sp : S → SystemParameters G)
    (A : SystemParameters G → G → Ω → Spec.Intruder G) (V : Set F) : ℚ :=
  Spec.mean fun x : S × Ω × F × F =>
    ((A (sp x.1) (x.2.2.2 • (sp x.1).h) x.2.1).watcher O (Spec.issuerOf (sp x.1) x.2.2.1 x.2.2.2) V).yesRun
      (fun m => Spec.Program.issue (sp x.1) (Scalar.ofF x.2.2.1) (Scalar.ofF x.2.2.2) m) [] []

/-- The adversary that asks the hash instead of reading generators. -/
def Spec.Intruder.pack : Spec.Intruder G → Spec.Impostor G Spec.Attempt
  | .out o => .out o
  | .ask t next => .ask (Forge.askedT t) fun a => (next a).pack
  | .read q next => .ask (Forge.packedT q) fun a => (next a).pack
  | .issue m next => .issue m fun c => (next c).pack

namespace Reduction

omit [AddCommGroup G] [Module F G] [Ristretto G] in
theorem pack_within (A : Spec.Intruder G) : ∀ q s n, A.Within q s n → A.pack.Within (q + s + n) := by
  induction A with
  | out o => intros; trivial
  | ask t next ih => rintro _ s n ⟨q, rfl, h⟩; exact ⟨q + s + n, by omega, fun a => ih a q s n (h a)⟩
  | read t next ih => rintro q _ n ⟨s, rfl, h⟩; exact ⟨q + s + n, by omega, fun a => ih a q s n (h a)⟩
  | issue t next ih => rintro q s _ ⟨n, rfl, h⟩; exact ⟨q + s + n, by omega, fun a => ih a q s n (h a)⟩

omit [AddCommGroup G] [Module F G] [Ristretto G] in
theorem pack_avoids {V : Set F} (A : Spec.Intruder G) : A.Avoids V → A.pack.Avoids V := by
  induction A with
  | out o => intros; trivial
  | ask t next ih => exact fun h a => ih a (h a)
  | read t next ih => exact fun h a => ih a (h a)
  | issue t next ih => exact fun h => ⟨h.1, fun a => ih a (h.2 a)⟩

theorem watcher_within {O : Oracle} {i : Issuer G} {V : Set F} (A : Spec.Intruder G) : ∀ q s n, A.Within q s n →
    (A.watcher O i V).Within (q + 2) s n := by
  induction A with
  | out o => intro q s n _; exact ⟨q + 1, rfl, fun _ => ⟨q, rfl, fun _ => trivial⟩⟩
  | ask t next ih => rintro _ s n ⟨q, rfl, h⟩; exact ⟨q + 2, rfl, fun a => ih a q s n (h a)⟩
  | read t next ih => rintro q _ n ⟨s, rfl, h⟩; exact ⟨s, rfl, fun a => ih a q s n (h a)⟩
  | issue t next ih => rintro q s _ ⟨n, rfl, h⟩; exact ⟨n, rfl, fun a => ih a q s n (h a)⟩

/-- Whether a claim is accepted depends on two answers of the hash. -/
theorem good_congr {O O' : Oracle} {sp : SystemParameters G} {x0 x1 : F} {V : Set F} {o : Spec.Attempt}
    (h : ∀ n, n = 0 ∨ n = 1 → O.chal (o.query (Spec.issuerOf sp x0 x1) n) "chal" 64 =
      O'.chal (o.query (Spec.issuerOf sp x0 x1) n) "chal" 64)
    (hg : o.Good O (Spec.issuerOf sp x0 x1) V) : o.Good O' (Spec.issuerOf sp x0 x1) V := by
  obtain ⟨p, v, R, a1, a2, a3, a4⟩ := hg
  have h0 := h 0 (.inl rfl)
  have h1 := h 1 (.inr rfl)
  simp only [Spec.Attempt.query, a1, Spec.onDecoded, if_true, Nat.one_ne_zero, if_false] at h0 h1
  obtain ⟨Cm, rest, ho, -⟩ := (C10_ok_iff _ p).1 a1
  obtain ⟨o1, o2, -⟩ := ho.1
  have hv : v = ⟨p⟩ := by
    rw [SignalIssuer.verify] at a2
    cases hi : (Spec.issuerOf sp x0 x1).verify O p.presentation <;> rw [hi] at a2 <;> cases a2
    rfl
  subst hv
  refine ⟨p, ⟨p⟩, R, a1, ?_, ?_, a4⟩
  · have e : (Spec.issuerOf sp x0 x1).verify O' p.presentation = (Spec.issuerOf sp x0 x1).verify O p.presentation := by
      obtain ⟨R', ⟨CQ, P, as, Cs, r⟩, t⟩ := p
      dsimp only at o1 o2
      subst o1 o2
      simp only [Spec.issuerOf] at h0 ⊢
      rw [verify_one, verify_one, ValidCredential.verify, ValidCredential.verify, getChallenge, getChallenge]
      have hp : Spec.presentationPublics (⟨sp, ⟨⟨[x1 • sp.h]⟩, ⟨Scalar.ofF x0, [Scalar.ofF x1]⟩⟩⟩ : Issuer G)
          ⟨CQ, P, [], [Cm], r⟩ (x1 • sp.h) Cm =
          ⟨sp.g, sp.h, x1 • sp.h, P, Scalar.ofF x0 • P + Scalar.ofF x1 • Cm - CQ, Cm⟩ := by
        simp [Spec.presentationPublics, Spec.dot, Scalar.smul_def]
      simp only [Spec.showQuery, List.headD_cons, hp] at h0
      rw [show ValidCredential.verifyTranscript Issuer.showTranscript _ _ = Spec.Query.ops (.validCredential
        "AEONFLUX SHOW" _ _) from rfl, h0]
    rw [SignalIssuer.verify] at a2 ⊢
    dsimp only at a2 ⊢
    rw [e]
    exact a2
  · rw [← a3]
    obtain ⟨R', ⟨CQ, P, as, Cs, r⟩, t⟩ := p
    dsimp only at o1 o2
    subst o1 o2
    rw [verifyRoster_one, verifyRoster_one, CommittedValuesEqual.verify, CommittedValuesEqual.verify, getChallenge,
      getChallenge]
    simp only [Spec.rosterQuery, List.headD_cons] at h1
    rw [show CommittedValuesEqual.verifyTranscript SignalIssuer.membershipTranscript _ _ =
      Spec.Query.ops (.committedValuesEqual "SIGNAL GROUP MEMBERSHIP" _ _) from rfl, h1]

theorem head_query (i : Issuer G) (o : Spec.Attempt) (n : ℕ) : Forge.askedT (o.query i n) = o.query i n := by
  unfold Spec.Attempt.query Spec.onDecoded
  split
  · split <;> rfl
  · rfl

theorem rel_append {l h : Spec.HashLog} {r : Spec.ReadLog} (hr : Forge.Rel l h r) (c : String) (t : Transcript)
    (a : Spec.Answer) : Forge.Rel (l ++ [(.init c :: t, a)]) (h ++ [(.init c :: t, a)]) r := by
  refine ⟨fun u => ?_, fun q => ?_⟩
  · rw [List.lookup_append, List.lookup_append, hr.1]
    congr 1
    by_cases hu : u = .init c :: t
    · rw [hu]
      rfl
    · have hu' : Forge.askedT u ≠ .init c :: t := fun e =>
        hu (Forge.askedT_inj (e.trans (Forge.askedT_init c t).symm))
      simp [List.lookup_cons, beq_eq_false_iff_ne.2 hu, beq_eq_false_iff_ne.2 hu']
  · rw [List.lookup_append, hr.2]
    have hu : Forge.packedT q ≠ .init c :: t := fun e =>
      Forge.askedT_ne_packedT (.init c :: t) q (e.symm ▸ Forge.askedT_init c t)
    simp [List.lookup_cons, beq_eq_false_iff_ne.2 hu]

/-- Reading generators and asking the hash are alike. -/
theorem pack_yes (O : Oracle) {sp : SystemParameters G} {x0 x1 : F} {V : Set F} {X : G} {tag : Scalar → F → Tag G}
    (A : Spec.Intruder G) : ∀ (l h : Spec.HashLog) (r : Spec.ReadLog), Forge.Rel l h r →
      (A.watcher O (Spec.issuerOf sp x0 x1) V).yes (Spec.simulatedIssue sp X tag) h r =
        (A.pack.checked (Spec.issuerOf sp x0 x1)).expect (Spec.simulatedIssue sp X tag)
          (Spec.Attempt.value O (Spec.issuerOf sp x0 x1) V) l := by
  induction A with
  | out o =>
    intro l h r hr
    simp only [Spec.Intruder.watcher, Spec.Intruder.pack, Spec.Impostor.checked, Spec.Impostor.expect, Spec.Watcher.yes]
    refine Sim.mean_congr fun a => Sim.mean_congr fun b => ?_
    have e0 := hr.1 (o.query (Spec.issuerOf sp x0 x1) 0)
    have h1 := hr.hash (o.query (Spec.issuerOf sp x0 x1) 0) a
    have e1 := h1.1 (o.query (Spec.issuerOf sp x0 x1) 1)
    rw [head_query] at e0 h1
    rw [head_query, head_query] at e1
    rw [← e0, ← e1]
    have key : ∀ n, n = 0 ∨ n = 1 →
        (Spec.HashLog.oracle O [(o.query (Spec.issuerOf sp x0 x1) 0, (l.lookup (o.query (Spec.issuerOf sp x0 x1) 0)).getD a),
          (o.query (Spec.issuerOf sp x0 x1) 1, ((l.asked (o.query (Spec.issuerOf sp x0 x1) 0) a).lookup
            (o.query (Spec.issuerOf sp x0 x1) 1)).getD b)]).chal (o.query (Spec.issuerOf sp x0 x1) n) "chal" 64 =
        (((l.asked (o.query (Spec.issuerOf sp x0 x1) 0) a).asked (o.query (Spec.issuerOf sp x0 x1) 1) b).oracle O).chal
          (o.query (Spec.issuerOf sp x0 x1) n) "chal" 64 := by
      generalize ht0 : o.query (Spec.issuerOf sp x0 x1) 0 = t at *
      generalize ht : o.query (Spec.issuerOf sp x0 x1) 1 = t' at *
      rintro n (rfl | rfl)
      · rw [ht0]
        rw [oracle_chal (lookup_mono (lookup_asked l t a))]
        exact oracle_chal (by simp)
      · rw [ht]
        rw [oracle_chal (lookup_asked _ t' b)]
        refine oracle_chal ?_
        by_cases e : t' = t
        · subst e
          rw [lookup_asked l t' a]
          simp
        · simp [List.lookup_cons, beq_eq_false_iff_ne.2 e]
    unfold Spec.Attempt.value
    classical
    rw [if_congr decide_eq_true_iff rfl rfl]
    exact if_congr ⟨good_congr key, good_congr fun n hn => (key n hn).symm⟩ rfl rfl
  | ask t next ih =>
    intro l h r hr
    simp only [Spec.Intruder.watcher, Spec.Intruder.pack, Spec.Impostor.checked, Spec.Impostor.expect, Spec.Watcher.yes]
    refine Sim.mean_congr fun a => ?_
    rw [hr.1 t]
    exact ih _ _ _ _ (hr.hash t a)
  | read q next ih =>
    intro l h r hr
    simp only [Spec.Intruder.watcher, Spec.Intruder.pack, Spec.Impostor.checked, Spec.Impostor.expect, Spec.Watcher.yes]
    refine Sim.mean_congr fun a => ?_
    rw [hr.2 q]
    exact ih _ _ _ _ (hr.read q a)
  | issue m next ih =>
    intro l h r hr
    simp only [Spec.Intruder.watcher, Spec.Intruder.pack, Spec.Impostor.checked, Spec.Impostor.expect, Spec.Watcher.yes]
    unfold Spec.simulatedIssue Spec.IssuanceRevealed.simulated
    refine Sim.mean_congr fun b => Sim.mean_congr fun w => Sim.mean_congr fun a => Sim.mean_congr fun z => ?_
    exact ih _ _ _ _ (rel_append hr _ _ _)

theorem intruder_le {S Ω : Type} [Fintype S] [Fintype Ω] [Nonempty S] [Nonempty Ω] (O : Oracle)
    {sp : S → SystemParameters G} (hh : ∀ σ, (sp σ).h ≠ 0) {A : SystemParameters G → G → Ω → Spec.Intruder G}
    {V : Set F} {q s n : ℕ} (hA : ∀ σ X ω, (A (sp σ) X ω).Within q s n) :
    Spec.intruderWins O sp A V ≤ simulated O sp (fun sp k ω => (A sp (k.2 • sp.h) ω).pack) V (q + s + n + 2) +
      (n * (q + n + 2) / ell + 6 * n / 2 ^ 259 + 2 * n * (2 * s + 6 * n + 2) / 2 ^ 256) := by
  unfold simulated Spec.intruderWins
  rw [Tagging.mean_prod (α := S × Ω × F × F), ← Sim.mean_const (α := S × Ω × F × F)
    (n * (q + n + 2) / ell + 6 * n / 2 ^ 259 + 2 * n * (2 * s + 6 * n + 2) / 2 ^ 256 : ℚ), ← Sim.mean_add]
  refine Sim.mean_mono fun x => ?_
  have hx := hA x.1 (x.2.2.2 • (sp x.1).h) x.2.1
  have h1 := C88_issuance (sp x.1) (hh x.1) (Scalar.ofF x.2.2.1) (Scalar.ofF x.2.2.2)
    ((A (sp x.1) (x.2.2.2 • (sp x.1).h) x.2.1).watcher O (Spec.issuerOf (sp x.1) x.2.2.1 x.2.2.2) V) _ _ _
    (watcher_within _ q s n hx)
  rw [Scalar.val_ofF, Scalar.val_ofF, pack_yes O _ [] [] [] ⟨fun _ => rfl, fun _ => rfl⟩] at h1
  have h2 := expect_tape (sp := sp x.1) (X := x.2.2.2 • (sp x.1).h) (x0 := x.2.2.1) (x1 := x.2.2.2)
    (Spec.Attempt.value O (Spec.issuerOf (sp x.1) x.2.2.1 x.2.2.2) V) (Q := q + s + n + 2) _ [] (fun _ => none)
    (q + s + n + 2) (checked_within (i := Spec.issuerOf (sp x.1) x.2.2.1 x.2.2.2) _ _ (pack_within _ q s n hx))
    (by simp)
  change |_ - Spec.Impostor.expect (Spec.simulatedIssue (sp x.1) (x.2.2.2 • (sp x.1).h)
    (mac G x.2.2.1 x.2.2.2)) _ _ _| ≤ _ at h1
  rw [h2] at h1
  have h3 := (abs_sub_le_iff.1 h1).1
  rw [sub_le_iff_le_add'] at h3
  refine h3.trans (le_of_eq ?_)
  push_cast
  rw [show (q + 2 + n : ℚ) = q + n + 2 by ring]
  rfl

/-- No query is one that `pack` changes. -/
def Plain : Spec.Impostor G Spec.Attempt → Prop
  | .out _ => True
  | .ask t next => Forge.askedT t = t ∧ ∀ a, Plain (next a)
  | .issue _ next => ∀ c, Plain (next c)

end Reduction

/-- An adversary that does not read generators. -/
def Spec.Impostor.intrude : Spec.Impostor G Spec.Attempt → Spec.Intruder G
  | .out o => .out o
  | .ask t next => .ask t fun a => (next a).intrude
  | .issue m next => .issue m fun c => (next c).intrude

namespace Reduction

omit [AddCommGroup G] [Module F G] [Ristretto G] in
theorem pack_intrude (A : Spec.Impostor G Spec.Attempt) : Plain A → A.intrude.pack = A := by
  induction A with
  | out o => intro _; rfl
  | ask t next ih =>
    rintro ⟨h, h'⟩
    rw [Spec.Impostor.intrude, Spec.Intruder.pack, h]
    exact congrArg _ (funext fun a => ih a (h' a))
  | issue m next ih =>
    intro h
    exact congrArg _ (funext fun a => ih a (h a))

omit [AddCommGroup G] [Module F G] [Ristretto G] in
theorem intrude_avoids {V : Set F} (A : Spec.Impostor G Spec.Attempt) : A.Avoids V → A.intrude.Avoids V := by
  induction A with
  | out o => intro _; trivial
  | ask t next ih => exact fun h a => ih a (h a)
  | issue m next ih => exact fun h => ⟨h.1, fun a => ih a (h.2 a)⟩

theorem impostor_plain {sp : SystemParameters G} {X : G} {n : F} {V : Set F} {m₁ : Scalar}
    (B : Spec.Forger G) : Plain (B.impostor sp X V m₁ n) := by
  induction B with
  | forge m tag => exact ⟨rfl, fun _ => ⟨rfl, fun _ => trivial⟩⟩
  | log x => exact fun _ => ⟨rfl, fun _ => ⟨rfl, fun _ => trivial⟩⟩
  | query m next ih =>
    rw [Spec.Forger.impostor]
    split
    · trivial
    · exact fun c => ih _

theorem intrude_within {sp : SystemParameters G} {X : G} {n : F} {V : Set F} {m₁ : Scalar} (B : Spec.Forger G) :
    ∀ q, B.Within q → (B.impostor sp X V m₁ n).intrude.Within 2 0 (q + 1) := by
  induction B with
  | forge m tag => intro q _; exact ⟨1, rfl, fun _ => ⟨0, rfl, fun _ => trivial⟩⟩
  | log x => intro q _; exact ⟨q, rfl, fun _ => ⟨1, rfl, fun _ => ⟨0, rfl, fun _ => trivial⟩⟩⟩
  | query m next ih =>
    rintro _ ⟨q, rfl, hw⟩
    rw [Spec.Forger.impostor]
    split
    · trivial
    · exact ⟨q + 1, rfl, fun c => ih _ q (hw _)⟩

end Reduction

/-- **C93** for the code as it is: the issuer runs `Issuer::issue` with its own generators, and the adversary makes at
most `q` hash queries, reads generators at most `s` times, and gets at most `n` attributes issued, none of them in `V`.
If it gets accepted for a number in `V` with probability `ε` and some negligible terms, the algorithm of
`C93_reduction` succeeds with the probability given there, for `T = q + s + n`. -/
theorem C93_code {S Ω : Type} [Fintype S] [Nonempty S] [Fintype Ω] [Nonempty Ω] (O : Oracle)
    (sp : S → SystemParameters G) (hh : ∀ σ, (sp σ).h ≠ 0)
    (A : SystemParameters G → G → Ω → Spec.Intruder G) (V : Set F) (q s n : ℕ)
    (hA : ∀ σ X ω, (A (sp σ) X ω).Within q s n) (hV : ∀ σ X ω, (A (sp σ) X ω).Avoids V)
    (ε : ℚ) (hε : ε + (n * (q + n + 2) / ell + 6 * n / 2 ^ 259 + 2 * n * (2 * s + 6 * n + 2) / 2 ^ 256) ≤
      Spec.intruderWins O sp A V) (T : ℕ) (hT : T = q + s + n) :
    ε < 4 * (T + 2) / 2 ^ 252 ∨
      ε / 2 * (ε / (4 * (T + 2)) - 1 / 2 ^ 252) ^ 2 / (T + 2) ^ 2 ≤
        Spec.forgerWins sp (fun sp X ω => (A sp X ω).pack) V T := by
  subst hT
  rcases lt_or_ge ε (4 * ((q + s + n : ℕ) + 2) / 2 ^ 252) with h | h
  · exact .inl h
  right
  set T := q + s + n with hT'
  have hT : (0 : ℚ) < T + 2 := by positivity
  have h1 : ε ≤ Reduction.simulated O sp (fun sp k ω => (A sp (k.2 • sp.h) ω).pack) V (T + 2) := by
    have := Reduction.intruder_le (V := V) O hh hA
    linarith
  have h2 := Reduction.fork_le (A := fun sp k ω => (A sp (k.2 • sp.h) ω).pack) O
    (fun σ k ω => Reduction.pack_within _ q s n (hA σ _ ω)) (fun σ k ω => Reduction.pack_avoids _ (hV σ _ ω))
    (h.trans h1)
  change _ ≤ _ * Spec.forgerWins sp (fun sp X ω => (A sp X ω).pack) V T at h2
  rw [div_le_iff₀ (by positivity), mul_comm (Spec.forgerWins _ _ _ _)]
  refine le_trans ?_ h2
  have h3 : (0 : ℚ) ≤ ε := le_trans (by positivity) h
  have h4 : 0 ≤ ε / (4 * (T + 2)) - 1 / 2 ^ 252 := by
    rw [sub_nonneg, le_div_iff₀ (by positivity)]
    refine le_trans (le_of_eq ?_) h
    ring
  have h5 := h3.trans h1
  gcongr

/-- **C93** for the code as it is, converse: every algorithm that forges MACs on numbers in `V` with at most `q` tags,
or finds the logarithm of `h`, gives an adversary that gets accepted for a number in `V` with the same probability,
up to negligible terms. It asks the hash twice, does not read generators, and gets at most `q + 1` attributes
issued. -/
theorem C93_code_converse {S Ω : Type} [Fintype S] [Nonempty S] [Fintype Ω] [Nonempty Ω] (O : Oracle)
    (sp : S → SystemParameters G) (hh : ∀ σ, (sp σ).h ≠ 0) (B : SystemParameters G → G → Ω → Spec.Forger G)
    (V : Set F) (m₁ : Scalar) (n : F)
    (hm : m₁.val ∉ V) (hn : n ∈ V) (q : ℕ) (hB : ∀ σ X ω, (B (sp σ) X ω).Within q) :
    let A : SystemParameters G → G → Ω → Spec.Intruder G := fun sp X ω => ((B sp X ω).impostor sp X V m₁ n).intrude
    Spec.forgeryWins sp B V - (2 * (q + 5) ^ 2 / ell + 6 * (q + 1) / 2 ^ 259 + 2 * (q + 1) * (6 * q + 8) / 2 ^ 256) ≤
        Spec.intruderWins O sp A V ∧
      (∀ σ X ω, (A (sp σ) X ω).Within 2 0 (q + 1)) ∧ ∀ σ X ω, (A (sp σ) X ω).Avoids V := by
  intro A
  refine ⟨?_, fun σ X ω => Reduction.intrude_within _ q (hB σ X ω),
    fun σ X ω => Reduction.intrude_avoids _ (Reduction.impostor_avoids hm _)⟩
  refine le_trans ?_ (sub_le_sub_right ((C93_converse O sp B V m₁ n hm hn q hB).1.trans' (le_refl _))
    (2 * (q + 5) ^ 2 / ell + 6 * (q + 1) / 2 ^ 259 + 2 * (q + 1) * (6 * q + 8) / 2 ^ 256 - 1 / ell) |>.trans ?_)
  · exact le_of_eq (by ring)
  unfold Spec.intruderWins Spec.impostorWins
  rw [← Sim.mean_const (α := S × Ω × F × F)
    (2 * (q + 5) ^ 2 / ell + 6 * (q + 1) / 2 ^ 259 + 2 * (q + 1) * (6 * q + 8) / 2 ^ 256 - 1 / ell : ℚ), ← Sim.mean_sub]
  refine Sim.mean_mono fun x => ?_
  have hx := hB x.1 (x.2.2.2 • (sp x.1).h) x.2.1
  have h1 := C88_issuance (sp x.1) (hh x.1) (Scalar.ofF x.2.2.1) (Scalar.ofF x.2.2.2)
    ((A (sp x.1) (x.2.2.2 • (sp x.1).h) x.2.1).watcher O (Spec.issuerOf (sp x.1) x.2.2.1 x.2.2.2) V) _ _ _
    (Reduction.watcher_within _ _ _ _ (Reduction.intrude_within _ q hx))
  rw [Scalar.val_ofF, Scalar.val_ofF, Reduction.pack_yes O _ [] [] [] ⟨fun _ => rfl, fun _ => rfl⟩,
    Reduction.pack_intrude _ (Reduction.impostor_plain _)] at h1
  have h2 := Reduction.expect_close (Sim.issue_close O (sp x.1) (hh x.1) (Scalar.ofF x.2.2.1) (Scalar.ofF x.2.2.2))
    (Reduction.value01 O (Spec.issuerOf (sp x.1) x.2.2.1 x.2.2.2) V) _ [] (q + 3 + 2)
    (Reduction.checked_within (i := Spec.issuerOf (sp x.1) x.2.2.1 x.2.2.2) _ _
      (Reduction.impostor_within (sp := sp x.1) (X := x.2.2.2 • (sp x.1).h) (V := V) (m₁ := m₁) (n := n) _ q hx))
  rw [Scalar.val_ofF, Scalar.val_ofF] at h2
  have h3 := (abs_sub_le_iff.1 h1).2
  have h4 := (abs_sub_le_iff.1 h2).1
  simp only [List.length_nil, Nat.cast_zero, zero_add] at h3 h4
  push_cast at h3 h4
  have hell : (0 : ℚ) < ell := Tagging.ell_pos
  have e : (2 * (q + 5) ^ 2 / ell : ℚ) - 1 / ell - (q + 1) * (4 + (q + 1)) / ell - (q + 5) * (q + 5) / ell =
      (4 * q + 19) / ell := by
    field_simp
    ring
  have e' : (0 : ℚ) ≤ (4 * q + 19) / ell := by positivity
  have e1 : (2 * (q + 1) * (2 * 0 + 6 * (q + 1) + 2) : ℚ) = 2 * (q + 1) * (6 * q + 8) := by ring
  have e3 : ((q + 3 + 2) * (q + 3 + 2) : ℚ) = (q + 5) * (q + 5) := by ring
  rw [e1] at h3
  rw [e3] at h4
  dsimp only
  generalize (6 * (q + 1) / 2 ^ 259 : ℚ) = b1 at *
  generalize (2 * (q + 1) * (6 * q + 8) / 2 ^ 256 : ℚ) = b2 at *
  linarith

/-- **C93**: what the issuer of the game runs is `Issuer::issue`. -/
theorem C93_program {R : Type} [RngCore R] (O : Oracle) (sp : SystemParameters G) (x0 x1 : F) (m : Scalar) (rng : R)
    (e : Spec.Seed) : ∃ c, ((Spec.issuerOf sp x0 x1).issue O ⟨[m]⟩ rng e.1).1 = .ok c ∧
      (Spec.Program.issue sp (.ofF x0) (.ofF x1) m).Returns O [] ((Spec.reads [32] rng).1 ++ [e.1]) c :=
  C88_issue_program (i := Spec.issuerOf sp x0 x1) O rfl (by rw [Scalar.val_ofF]; rfl) m rng e

/-- In the toy group logarithms are easy: an adversary that satisfies the hypotheses of `C93_code`, with `ε` more than
one half. -/
example (O : Oracle) : ∃ (A : SystemParameters F → F → Unit → Spec.Intruder F) (V : Set F) (ε : ℚ),
    (∀ X ω, (A ⟨1, 4⟩ X ω).Within 2 0 1 ∧ (A ⟨1, 4⟩ X ω).Avoids V) ∧
    1 / 2 < ε ∧ ε + ((1 : ℕ) * ((2 : ℕ) + (1 : ℕ) + 2) / ell + 6 * (1 : ℕ) / 2 ^ 259 +
      2 * (1 : ℕ) * (2 * (0 : ℕ) + 6 * (1 : ℕ) + 2) / 2 ^ 256) ≤
      Spec.intruderWins O (fun _ : Unit => ⟨1, 4⟩) A V := by
  obtain ⟨h1, h2, h3⟩ := C93_code_converse (Ω := Unit) O (fun _ : Unit => (⟨1, 4⟩ : SystemParameters F))
    (fun _ => by decide +kernel)
    (fun sp _ _ => .log (sp.h / sp.g)) {8} ⟨7, by decide +kernel⟩ 8
    (by rw [Set.mem_singleton_iff]; decide +kernel) rfl 0 fun _ _ _ => trivial
  refine ⟨_, _, 1 - 55 / ell - 12 / 2 ^ 259 - 32 / 2 ^ 256, fun X ω => ⟨h2 () X ω, h3 () X ω⟩, ?_,
    le_trans (le_of_eq ?_) h1⟩
  · have : (220 : ℚ) < ell := by exact_mod_cast (by decide +kernel : 220 < ell)
    have hp : (0 : ℚ) < ell := by linarith
    have h4 : 55 / (ell : ℚ) < 1 / 4 := by rw [div_lt_div_iff₀ hp (by norm_num)]; linarith
    have h5 : (12 / 2 ^ 259 : ℚ) < 1 / 8 := by
      rw [div_lt_div_iff₀ (by positivity) (by norm_num), show (2 : ℚ) ^ 259 = 2 ^ 10 * 2 ^ 249 by rw [← pow_add]]
      nlinarith [one_le_pow₀ (n := 249) (show (1 : ℚ) ≤ 2 by norm_num)]
    have h6 : (32 / 2 ^ 256 : ℚ) < 1 / 8 := by norm_num
    linarith
  · have e : Spec.forgeryWins (fun _ : Unit => (⟨1, 4⟩ : SystemParameters F))
        (fun sp _ (_ : Unit) => .log (sp.h / sp.g)) {8} = 1 := by
      unfold Spec.forgeryWins
      refine Eq.trans (Sim.mean_congr fun x => ?_) (Sim.mean_const (α := Unit × Unit × F × F) 1)
      rw [Spec.Forger.wins, if_pos]
      simp
    rw [e]
    push_cast
    ring

end Verif
