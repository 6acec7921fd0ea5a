import Verif.Props.Guild
import Verif.Props.Syndicate

/-!
# C105 with checks, for the whole program

As `Syndicate`, but the adversary may have any bytes checked by any of the issuers, at any time, as in `Guild`.
-/

set_option maxRecDepth 100000
set_option exponentiation.threshold 300

namespace Verif

open Amacs

variable {G : Type} [AddCommGroup G] [Module F G] [Ristretto G] {N : ℕ} {Out : Type}

/-! ## The game -/

/-- An adversary that asks the hash, reads transcript generators, gets attributes issued by any of `N` issuers, watches users
of any of them present, has bytes checked by any of them, learns secret keys, and finally attacks the issuer `j`. -/
inductive Spec.Cartel (G : Type) (N : ℕ) (Out : Type) where
  | out (j : Fin N) (o : Out)
  | ask (t : Transcript) (next : Spec.Answer → Spec.Cartel G N Out)
  | read (q : Spec.Read) (next : Spec.Answer → Spec.Cartel G N Out)
  | issue (k : Fin N) (m : Scalar) (next : CredentialIssuance G → Spec.Cartel G N Out)
  | watch (k : Fin N) (w : Spec.Member) (next : SignalCredentialPresentation G → Spec.Cartel G N Out)
  | submit (k : Fin N) (b : Bytes) (next : Res CredentialError G → Spec.Cartel G N Out)
  | corrupt (k : Fin N) (next : F × F → Spec.Cartel G N Out)

namespace Spec.Cartel

/-- At most `q` hash queries, counting two for each check, `s` reads, and `n` issuances and presentations. -/
def Within : Spec.Cartel G N Out → ℕ → ℕ → ℕ → Prop
  | .out _ _, _, _, _ => True
  | .ask _ next, q, s, n => ∃ q', q = q' + 1 ∧ ∀ a, (next a).Within q' s n
  | .read _ next, q, s, n => ∃ s', s = s' + 1 ∧ ∀ a, (next a).Within q s' n
  | .issue _ _ next, q, s, n => ∃ n', n = n' + 1 ∧ ∀ c, (next c).Within q s n'
  | .watch _ _ next, q, s, n => ∃ n', n = n' + 1 ∧ ∀ p, (next p).Within q s n'
  | .submit _ _ next, q, s, n => ∃ q', q = q' + 2 ∧ ∀ r, (next r).Within q' s n
  | .corrupt _ next, q, s, n => ∀ x, (next x).Within q s n

/-- The issuer `k` issues no attribute in `V k` to the adversary. -/
def Avoids (V : Fin N → Set F) : Spec.Cartel G N Out → Prop
  | .out _ _ => True
  | .ask _ next => ∀ a, (next a).Avoids V
  | .read _ next => ∀ a, (next a).Avoids V
  | .issue k m next => m.val ∉ V k ∧ ∀ c, (next c).Avoids V
  | .watch _ _ next => ∀ p, (next p).Avoids V
  | .submit _ _ next => ∀ r, (next r).Avoids V
  | .corrupt _ next => ∀ x, (next x).Avoids V

/-- The adversary together with the issuers that check: they make their two queries, and answer by them. -/
def checks (O : Oracle) (i : Fin N → Issuer G) : Spec.Cartel G N Out → Spec.Syndicate G N Out
  | .out j o => .out j o
  | .ask t next => .ask t fun a => (next a).checks O i
  | .read q next => .read q fun a => (next a).checks O i
  | .issue k m next => .issue k m fun c => (next c).checks O i
  | .watch k w next => .watch k w fun p => (next p).checks O i
  | .submit k b next => .ask (Spec.checkQuery (i k) b 0) fun a => .ask (Spec.checkQuery (i k) b 1) fun a' =>
      (next (Spec.reply (Spec.HashLog.oracle O [(Spec.checkQuery (i k) b 0, a), (Spec.checkQuery (i k) b 1, a')])
        (i k) b)).checks O i
  | .corrupt k next => .corrupt k fun x => (next x).checks O i

/-- The adversary that asks the hash instead of reading generators. -/
def pack : Spec.Cartel G N Out → Spec.Guild G N Out
  | .out j o => .out j o
  | .ask t next => .ask (Forge.askedT t) fun a => (next a).pack
  | .read q next => .ask (Forge.packedT q) fun a => (next a).pack
  | .issue k m next => .issue k m fun c => (next c).pack
  | .watch k w next => .watch k w fun p => (next p).pack
  | .submit k b next => .submit k b fun r => (next r).pack
  | .corrupt k next => .corrupt k fun x => (next x).pack

end Spec.Cartel

/-- The probability that an adversary gets accepted by an issuer `j` that it did not corrupt, for a number in `V j`, without
repeating a presentation by a user of `j`, with parameters from `hunt_and_peck` and keys from `Issuer::create`, as
`Spec.syndicateWins`. -/
noncomputable def Spec.cartelWins {Ω : Type} [Fintype Ω] (O : Oracle) (M : ℕ)
    (A : SystemParameters G → (Fin N → G) → Ω → Spec.Cartel G N Spec.Attempt) (V : Fin N → Set F) : ℚ :=
  Spec.mean fun x : Hunt.Tape M × Ω × (Fin N → Spec.Answer × Spec.Answer) =>
    match SystemParameters.huntAndPeck (G := G) M (⟨x.1, 0⟩ : Hunt.TapeRng M) with
    | none => 0
    | some (sp, _) =>
      let i := fun k => (Issuer.create sp (⟨[(x.2.2 k).1, (x.2.2 k).2]⟩ : Spec.WideRng)).1
      Spec.Syndicate.against sp i (Spec.checkShow O i V) fun sp X => (A sp X x.2.1).checks O i

namespace Guild

theorem cartel_within {O : Oracle} {i : Fin N → Issuer G} (A : Spec.Cartel G N Out) : ∀ q s n, A.Within q s n →
    (A.checks O i).Within q s n := by
  induction A with
  | out j o => intros; trivial
  | ask t next ih => rintro _ s n ⟨q, rfl, h⟩; exact ⟨q, rfl, fun a => ih a q s n (h a)⟩
  | read t next ih => rintro q _ n ⟨s, rfl, h⟩; exact ⟨s, rfl, fun a => ih a q s n (h a)⟩
  | issue k m next ih => rintro q s _ ⟨n, rfl, h⟩; exact ⟨n, rfl, fun a => ih a q s n (h a)⟩
  | watch k w next ih => rintro q s _ ⟨n, rfl, h⟩; exact ⟨n, rfl, fun a => ih a q s n (h a)⟩
  | submit k b next ih => rintro _ s n ⟨q, rfl, h⟩; exact ⟨q + 1, rfl, fun a => ⟨q, rfl, fun a' => ih _ q s n (h _)⟩⟩
  | corrupt k next ih => exact fun q s n h x => ih x q s n (h x)

omit [AddCommGroup G] [Module F G] [Ristretto G] in
theorem within_mono (A : Spec.Guild G N Out) : ∀ n n', n ≤ n' → A.Within n → A.Within n' := by
  induction A with
  | out j o => exact fun _ _ _ _ => trivial
  | ask t next ih => rintro _ n' hn ⟨n, rfl, h⟩; exact ⟨n' - 1, by omega, fun a => ih a n _ (by omega) (h a)⟩
  | issue k m next ih => rintro _ n' hn ⟨n, rfl, h⟩; exact ⟨n' - 1, by omega, fun a => ih a n _ (by omega) (h a)⟩
  | watch k w next ih => rintro _ n' hn ⟨n, rfl, h⟩; exact ⟨n' - 2, by omega, fun a => ih a n _ (by omega) (h a)⟩
  | submit k b next ih => rintro _ n' hn ⟨n, rfl, h⟩; exact ⟨n' - 2, by omega, fun a => ih a n _ (by omega) (h a)⟩
  | corrupt k next ih => exact fun n n' hn h x => ih x n n' hn (h x)

omit [AddCommGroup G] [Module F G] [Ristretto G] in
theorem pack_within (A : Spec.Cartel G N Out) : ∀ q s n, A.Within q s n → A.pack.Within (q + s + 2 * n) := by
  induction A with
  | out j o => intros; trivial
  | ask t next ih => rintro _ s n ⟨q, rfl, h⟩; exact ⟨q + s + 2 * n, by omega, fun a => ih a q s n (h a)⟩
  | read t next ih => rintro q _ n ⟨s, rfl, h⟩; exact ⟨q + s + 2 * n, by omega, fun a => ih a q s n (h a)⟩
  | issue k m next ih =>
    rintro q s _ ⟨n, rfl, h⟩
    exact ⟨q + s + 2 * n + 1, by omega, fun a => within_mono _ _ _ (by omega) (ih a q s n (h a))⟩
  | watch k w next ih => rintro q s _ ⟨n, rfl, h⟩; exact ⟨q + s + 2 * n, by omega, fun a => ih a q s n (h a)⟩
  | submit k b next ih => rintro _ s n ⟨q, rfl, h⟩; exact ⟨q + s + 2 * n, by omega, fun a => ih a q s n (h a)⟩
  | corrupt k next ih => exact fun q s n h x => ih x q s n (h x)

omit [AddCommGroup G] [Module F G] [Ristretto G] in
theorem pack_avoids {V : Fin N → Set F} (A : Spec.Cartel G N Out) : A.Avoids V → A.pack.Avoids V := by
  induction A with
  | out j o => intros; trivial
  | ask t next ih => exact fun h a => ih a (h a)
  | read t next ih => exact fun h a => ih a (h a)
  | issue k t next ih => exact fun h => ⟨h.1, fun a => ih a (h.2 a)⟩
  | watch k t next ih => exact fun h a => ih a (h a)
  | submit k b next ih => exact fun h a => ih a (h a)
  | corrupt k next ih => exact fun h a => ih a (h a)

theorem checks_pack {O : Oracle} {i : Fin N → Issuer G} (A : Spec.Cartel G N Out) :
    (A.checks O i).pack = A.pack.checks O i := by
  induction A with
  | out j o => rfl
  | ask t next ih => simp only [Spec.Cartel.checks, Spec.Cartel.pack, Spec.Syndicate.pack, Spec.Guild.checks, ih]
  | read t next ih => simp only [Spec.Cartel.checks, Spec.Cartel.pack, Spec.Syndicate.pack, Spec.Guild.checks, ih]
  | issue k m next ih => simp only [Spec.Cartel.checks, Spec.Cartel.pack, Spec.Syndicate.pack, Spec.Guild.checks, ih]
  | watch k w next ih => simp only [Spec.Cartel.checks, Spec.Cartel.pack, Spec.Syndicate.pack, Spec.Guild.checks, ih]
  | submit k b next ih =>
    have e : ∀ n, Forge.askedT (Spec.checkQuery (i k) b n) = Spec.checkQuery (i k) b n := fun n =>
      Reduction.head_query (i k) _ n
    simp only [Spec.Cartel.checks, Spec.Cartel.pack, Spec.Syndicate.pack, Spec.Guild.checks, ih, e]
  | corrupt k next ih => simp only [Spec.Cartel.checks, Spec.Cartel.pack, Spec.Syndicate.pack, Spec.Guild.checks, ih]

end Guild

/-! ## C105 -/

/-- **C105** for the program as a whole, if the adversary may have presentations checked: one that makes at most `q` hash
queries (two for each check), reads generators at most `s` times, and gets at most `n` issuances and presentations succeeds
at most as often as one of `C105_checked` with `T = q + s + 2n`, up to negligible terms. -/
theorem C105_setup_checked {Ω : Type} [Fintype Ω] [Nonempty Ω] (O : Oracle) (M : ℕ)
    (A : SystemParameters G → (Fin N → G) → Ω → Spec.Cartel G N Spec.Attempt) (V : Fin N → Set F) (q s n : ℕ)
    (hA : ∀ sp X ω, (A sp X ω).Within q s n) (hV : ∀ sp X ω, (A sp X ω).Avoids V) :
    |Spec.cartelWins O M A V - Spec.guildWins O (Spec.Log.parameters G) (fun sp X ω => (A sp X ω).pack) V| ≤
      (15 / 16) ^ M + 1 / (ell - 1) + N / 2 ^ 258 + (9 * n / 2 ^ 259 + 3 * n * (2 * s + 8 * n + 3) / 2 ^ 256) ∧
    ∀ sp X ω, (A sp X ω).pack.Within (q + s + 2 * n) ∧ (A sp X ω).pack.Avoids V := by
  refine ⟨?_, fun sp X ω => ⟨Guild.pack_within _ q s n (hA _ _ _), Guild.pack_avoids _ (hV _ _ _)⟩⟩
  have h1 := Consort.setup_le (G := G) (N := N) M (fun (ω : Ω) sp i =>
    Spec.Syndicate.against sp i (Spec.checkShow O i V) fun sp X => (A sp X ω).checks O i) fun _ _ _ => Setup.run01 _ _ _ _
  refine (abs_sub_le _ _ _).trans (add_le_add h1 ?_)
  refine Sim.abs_sub_mean_le fun x => ?_
  have h := Consort.against_le O (sp := x.1.parameters G) (key := x.2.2) (Consort.checkShow_yes O V) Consort.checkShow_within
    (fun sp X => (A sp X x.2.1).checks O fun k => Spec.issuerOf (x.1.parameters G) (x.2.2 k).1 (x.2.2 k).2)
    (Guild.cartel_within _ q s n (hA _ _ _))
  rw [Guild.checks_pack] at h
  exact h

set_option synthInstance.maxSize 1000 in
/-- **C105** for the program as a whole, if the adversary may have presentations checked, as a bound: `C105_checked_bound` and
`C105_setup_checked` together. -/
theorem C105_program_checked {Ω : Type} [Fintype Ω] [Nonempty Ω] (O : Oracle) (M : ℕ)
    (A : SystemParameters G → (Fin N → G) → Ω → Spec.Cartel G N Spec.Attempt) (V : Fin N → Set F) (q s n : ℕ)
    (hA : ∀ sp X ω, (A sp X ω).Within q s n) (hV : ∀ sp X ω, (A sp X ω).Avoids V) (T : ℕ) (hT : T = q + s + 2 * n)
    (d : Spec.Attempt) (m₁ : Scalar) (hm : ∀ j, m₁.val ∉ V j) (t u : ℚ) (ht : 0 ≤ t) (hu : 0 ≤ u)
    (hf : ∀ j, Spec.testerWins (Spec.Log.parameters G) (Spec.probers m₁
      (Spec.guildMole (fun sp X ω => (A sp X ω).pack) T j d) T) (V j) (T + 1) ≤ t ^ 3 / (128 * (T + 3) ^ 4))
    (hl : ∀ j, Spec.applicantFinds (Spec.Log.parameters G) (Spec.guildMole (fun sp X ω => (A sp X ω).pack) T j d) T ≤
      u ^ 2 / (4 * (T + 2))) :
    Spec.cartelWins O M A V ≤ N * (t + u + 4 * (T + 3) ^ 2 / ell + 10 * (T + 3) / 2 ^ 252) +
      ((15 / 16) ^ M + 1 / (ell - 1) + N / 2 ^ 258 + (9 * n / 2 ^ 259 + 3 * n * (2 * s + 8 * n + 3) / 2 ^ 256)) := by
  subst hT
  obtain ⟨h1, h2⟩ := C105_setup_checked O M A V q s n hA hV
  have h3 := C105_checked_bound O (Spec.Log.parameters G) (fun _ => Ristretto.base_ne)
    (fun y => smul_ne_zero y.2 Ristretto.base_ne) (fun sp X ω => (A sp X ω).pack) V (q + s + 2 * n)
    (fun y X ω => (h2 _ X ω).1) (fun y X ω => (h2 _ X ω).2) d m₁ hm t u ht hu hf hl
  have h4 := (abs_sub_le_iff.1 h1).1
  rw [sub_le_iff_le_add'] at h4
  exact h4.trans (add_le_add_left h3 _)

/-- An adversary that reads a generator, learns the key of issuer 1, gets 7 issued by issuer 0, watches a user of issuer 0,
and has what it saw checked by both. -/
example : let A : Spec.Cartel F 2 Spec.Attempt :=
      .read ⟨[.init "AEONFLUX SHOW"], [], List.replicate 32 0, 0⟩ fun _ => .corrupt 1 fun _ =>
      .issue 0 ⟨7, by decide +kernel⟩ fun _ =>
      .watch 0 ⟨⟨8, by decide +kernel⟩, ⟨3, by decide +kernel⟩, 1, one_ne_zero⟩ fun p =>
      .submit 0 p.toBytes fun _ => .submit 1 p.toBytes fun _ => .out 0 ⟨8, 0, []⟩
    A.Within 4 1 2 ∧ A.Avoids ![{8}, ∅] := by
  refine ⟨⟨0, rfl, fun _ _ => ⟨1, rfl, fun _ => ⟨0, rfl, fun _ => ⟨2, rfl, fun _ => ⟨0, rfl, fun _ => trivial⟩⟩⟩⟩⟩,
    fun _ _ => ⟨?_, fun _ _ _ _ => trivial⟩⟩
  change _ ∉ ({8} : Set F)
  rw [Set.mem_singleton_iff]
  decide +kernel

end Verif
