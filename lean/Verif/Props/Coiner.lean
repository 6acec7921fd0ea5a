import Verif.Props.Bystander
import Verif.Props.Setup

/-!
# C104 for the whole program

Parameters from `hunt_and_peck`, keys from `Issuer::create`, issuances from `Issuer::issue` and presentations from
`SignalUser::show` with their own generators, which the adversary may read as well.
-/

set_option maxRecDepth 100000
set_option exponentiation.threshold 300

namespace Verif

open Amacs

variable {G : Type} [AddCommGroup G] [Module F G] [Ristretto G]

/-! ## The game -/

/-- An adversary that asks the hash, reads transcript generators, gets attributes of its choice issued, watches users of
its choice present, and finally sends bytes. -/
inductive Spec.Coiner (G : Type) where
  | out (b : Bytes)
  | ask (t : Transcript) (next : Spec.Answer → Spec.Coiner G)
  | read (q : Spec.Read) (next : Spec.Answer → Spec.Coiner G)
  | issue (m : Scalar) (next : CredentialIssuance G → Spec.Coiner G)
  | watch (w : Spec.Member) (next : SignalCredentialPresentation G → Spec.Coiner G)

/-- At most `q` hash queries and `s` reads by the adversary, and `n` issuances and
presentations. -/
def Spec.Coiner.Within : Spec.Coiner G → ℕ → ℕ → ℕ → Prop
  | .out _, _, _, _ => True
  | .ask _ next, q, s, n => ∃ q', q = q' + 1 ∧ ∀ a, (next a).Within q' s n
  | .read _ next, q, s, n => ∃ s', s = s' + 1 ∧ ∀ a, (next a).Within q s' n
  | .issue _ next, q, s, n => ∃ n', n = n' + 1 ∧ ∀ c, (next c).Within q s n'
  | .watch _ next, q, s, n => ∃ n', n = n' + 1 ∧ ∀ p, (next p).Within q s n'

open Classical in
/-- The adversary together with a user to whom it sends the bytes, after the issuances `cs`. -/
noncomputable def Spec.Coiner.watcher (O : Oracle) (sp : SystemParameters G) (X : G) :
    Spec.Coiner G → List (CredentialIssuance G) → Spec.Watcher (Scalar ⊕ Spec.Member) (Spec.Sent G)
  | .out b, cs => .ask (Spec.mintQuery sp X b) fun a =>
      .done (decide (Spec.Minted (Spec.HashLog.oracle O [(Spec.mintQuery sp X b, a)]) (User.new sp ⟨[X]⟩ none) b cs))
  | .ask t next, cs => .ask t fun a => (next a).watcher O sp X cs
  | .read q next, cs => .read q fun a => (next a).watcher O sp X cs
  | .issue m next, cs => .request (.inl m) fun c => (next c).watcher O sp X (c :: cs)
  | .watch w next, cs => .request (.inr w) fun p => (next p).watcher O sp X cs

/-- The probability that the adversary makes a new issuance, which a user with the public key of this issuer accepts. It is
given the parameters and the public key. (Issuers with other than one key do not occur.) -/
noncomputable def Spec.Coiner.against (O : Oracle) (A : SystemParameters G → G → Spec.Coiner G) (i : Issuer G) : ℚ :=
  match i.keypair.publicKey.Xn, i.keypair.secretKey.xn with
  | [X], [x1] =>
    ((A i.systemParameters X).watcher O i.systemParameters X []).yesRun
      (Spec.sends i.systemParameters i.keypair.secretKey.x0 x1) [] []
  | _, _ => 0

/-- The probability that an adversary makes a new issuance which a user accepts, if the parameters are from
`hunt_and_peck` with at most `N` draws of uniform bytes, and the keys from `Issuer::create` with uniform bytes. If
`hunt_and_peck` needs more draws the adversary does not succeed. -/
noncomputable def Spec.coinerWins {Ω : Type} [Fintype Ω] (O : Oracle) (N : ℕ)
    (A : SystemParameters G → G → Ω → Spec.Coiner G) : ℚ :=
  Spec.mean fun x : Hunt.Tape N × Ω × Spec.Answer × Spec.Answer =>
    match SystemParameters.huntAndPeck (G := G) N (⟨x.1, 0⟩ : Hunt.TapeRng N) with
    | none => 0
    | some (sp, _) =>
      Spec.Coiner.against O (fun sp X => A sp X x.2.1) (Issuer.create sp (⟨[x.2.2.1, x.2.2.2]⟩ : Spec.WideRng)).1

/-- The adversary that asks the hash instead of reading generators. -/
def Spec.Coiner.pack : Spec.Coiner G → Spec.Onlooker G Bytes
  | .out o => .out o
  | .ask t next => .ask (Forge.askedT t) fun a => (next a).pack
  | .read q next => .ask (Forge.packedT q) fun a => (next a).pack
  | .issue m next => .issue m fun c => (next c).pack
  | .watch w next => .watch w fun p => (next p).pack

namespace Mint

omit [AddCommGroup G] [Module F G] [Ristretto G] in
theorem pack_within (A : Spec.Coiner G) : ∀ q s n, A.Within q s n → A.pack.Within (q + s + 2 * n) := by
  induction A with
  | out o => intros; trivial
  | ask t next ih => rintro _ s n ⟨q, rfl, h⟩; exact ⟨q + s + 2 * n, by omega, fun a => ih a q s n (h a)⟩
  | read t next ih => rintro q _ n ⟨s, rfl, h⟩; exact ⟨q + s + 2 * n, by omega, fun a => ih a q s n (h a)⟩
  | issue m next ih =>
    rintro q s _ ⟨n, rfl, h⟩
    exact ⟨q + s + 2 * n + 1, by omega, fun a => Bystander.within_mono _ _ _ (by omega) (ih a q s n (h a))⟩
  | watch w next ih => rintro q s _ ⟨n, rfl, h⟩; exact ⟨q + s + 2 * n, by omega, fun a => ih a q s n (h a)⟩

theorem watcher_within {O : Oracle} {sp : SystemParameters G} {X : G} (A : Spec.Coiner G) :
    ∀ cs q s n, A.Within q s n → (A.watcher O sp X cs).Within (q + 1) s n := by
  induction A with
  | out o => intro cs q s n _; exact ⟨q, rfl, fun _ => trivial⟩
  | ask t next ih => rintro cs _ s n ⟨q, rfl, h⟩; exact ⟨q + 1, rfl, fun a => ih a cs q s n (h a)⟩
  | read t next ih => rintro cs q _ n ⟨s, rfl, h⟩; exact ⟨s, rfl, fun a => ih a cs q s n (h a)⟩
  | issue m next ih => rintro cs q s _ ⟨n, rfl, h⟩; exact ⟨n, rfl, fun a => ih a (a :: cs) q s n (h a)⟩
  | watch w next ih => rintro cs q s _ ⟨n, rfl, h⟩; exact ⟨n, rfl, fun a => ih a cs q s n (h a)⟩

/-- Only the answer to the query matters. -/
theorem minted_congr {O O' : Oracle} {sp : SystemParameters G} {X : G} {b : Bytes} {cs : List (CredentialIssuance G)}
    (h : O.chal (Spec.mintQuery sp X b) "chal" 64 = O'.chal (Spec.mintQuery sp X b) "chal" 64)
    (hg : Spec.Minted O (User.new sp ⟨[X]⟩ none) b cs) : Spec.Minted O' (User.new sp ⟨[X]⟩ none) b cs := by
  obtain ⟨c, a1, a2, a3⟩ := hg
  simp only [Spec.mintQuery, a1, Spec.onDecoded] at h
  refine ⟨c, a1, ?_, a3⟩
  have hv := accepted a2
  have hv' : IssuanceRevealed.verify O' [.init "AEONFLUX ISSUANCE"] c.proof (Spec.issuancePublics sp X c) = true := by
    rw [IssuanceRevealed.verify, getChallenge] at hv ⊢
    change decide (Scalar.fromWide (O.chal (Spec.acceptQuery sp X c) "chal" 64) = _) = true at hv
    change decide (Scalar.fromWide (O'.chal (Spec.acceptQuery sp X c) "chal" 64) = _) = true
    rw [← h]
    exact hv
  unfold User.obtainFinish
  dsimp only [User.new, List.getElem?_cons_zero]
  split
  · rfl
  · rename_i h
    exact absurd hv' h

theorem mint_query (sp : SystemParameters G) (X : G) (b : Bytes) :
    Forge.askedT (Spec.mintQuery sp X b) = Spec.mintQuery sp X b := by
  unfold Spec.mintQuery Spec.onDecoded
  split <;> rfl

/-- Reading generators and asking the hash are alike. -/
theorem pack_yes (O : Oracle) {sp : SystemParameters G} {x0 x1 : F} {X : G} (A : Spec.Coiner G) :
    ∀ (l h : Spec.HashLog) (r : Spec.ReadLog) (cs : List (CredentialIssuance G))
      (ps : List (SignalCredentialPresentation G)), Forge.Rel l h r →
      (A.watcher O sp X cs).yes (Onlooker.honestly O sp (Scalar.ofF x0) (Scalar.ofF x1)) h r =
        (A.pack.delivered sp X cs).expect (Spec.honestIssue O sp (Scalar.ofF x0) (Scalar.ofF x1))
          (Spec.memberShow O sp (Scalar.ofF x0) (Scalar.ofF x1))
          (fun o l _ => open Classical in if Spec.Minted (l.oracle O) (User.new sp ⟨[X]⟩ none) o.1 o.2 then 1 else 0)
          l ps := by
  induction A with
  | out o =>
    intro l h r cs ps hr
    simp only [Spec.Coiner.watcher, Spec.Coiner.pack, Spec.Onlooker.delivered, Spec.Onlooker.expect, Spec.Watcher.yes]
    refine Sim.mean_congr fun a => ?_
    have e0 := hr.1 (Spec.mintQuery sp X o)
    rw [mint_query] at e0
    rw [← e0]
    have key : (Spec.HashLog.oracle O [(Spec.mintQuery sp X o, (l.lookup (Spec.mintQuery sp X o)).getD a)]).chal
        (Spec.mintQuery sp X o) "chal" 64 =
        ((l.asked (Spec.mintQuery sp X o) a).oracle O).chal (Spec.mintQuery sp X o) "chal" 64 := by
      generalize Spec.mintQuery sp X o = t at *
      rw [Reduction.oracle_chal (Reduction.lookup_asked l t a)]
      exact Reduction.oracle_chal (by simp)
    classical
    rw [if_congr decide_eq_true_iff rfl rfl]
    exact if_congr ⟨minted_congr key, minted_congr key.symm⟩ rfl rfl
  | ask t next ih =>
    intro l h r cs ps hr
    simp only [Spec.Coiner.watcher, Spec.Coiner.pack, Spec.Onlooker.delivered, Spec.Onlooker.expect, Spec.Watcher.yes]
    refine Sim.mean_congr fun a => ?_
    rw [hr.1 t]
    exact ih _ _ _ _ _ _ (hr.hash t a)
  | read q next ih =>
    intro l h r cs ps hr
    simp only [Spec.Coiner.watcher, Spec.Coiner.pack, Spec.Onlooker.delivered, Spec.Onlooker.expect, Spec.Watcher.yes]
    refine Sim.mean_congr fun a => ?_
    rw [hr.2 q]
    exact ih _ _ _ _ _ _ (hr.read q a)
  | issue m next ih =>
    intro l h r cs ps hr
    simp only [Spec.Coiner.watcher, Spec.Coiner.pack, Spec.Onlooker.delivered, Spec.Onlooker.expect, Spec.Watcher.yes,
      Onlooker.honestly]
    exact Onlooker.issue_rel O hr fun l' h' c hr' => ih c l' h' r (c :: cs) ps hr'
  | watch w next ih =>
    intro l h r cs ps hr
    simp only [Spec.Coiner.watcher, Spec.Coiner.pack, Spec.Onlooker.delivered, Spec.Onlooker.expect, Spec.Watcher.yes,
      Onlooker.honestly]
    exact Onlooker.show_rel O hr fun l' h' p hr' => ih p l' h' r cs (p :: ps) hr'

theorem against01 (O : Oracle) (A : SystemParameters G → G → Spec.Coiner G) (i : Issuer G) :
    0 ≤ Spec.Coiner.against O A i ∧ Spec.Coiner.against O A i ≤ 1 := by
  unfold Spec.Coiner.against
  split
  · exact Setup.run01 _ _ _ _
  · exact ⟨le_rfl, zero_le_one⟩

/-- For given parameters and keys. -/
theorem against_le (O : Oracle) (A : SystemParameters G → G → Spec.Coiner G) {sp : SystemParameters G} {x0 x1 : F}
    {q s n : ℕ} (hA : (A sp (x1 • sp.h)).Within q s n) :
    |Spec.Coiner.against O A (Spec.issuerOf sp x0 x1) -
      ((A sp (x1 • sp.h)).pack.delivered sp (x1 • sp.h) []).expect
        (Spec.honestIssue O sp (Scalar.ofF x0) (Scalar.ofF x1))
        (Spec.memberShow O sp (Scalar.ofF x0) (Scalar.ofF x1))
        (fun o l _ => open Classical in if Spec.Minted (l.oracle O) (User.new sp ⟨[x1 • sp.h]⟩ none) o.1 o.2 then 1 else 0)
        [] []| ≤
      9 * n / 2 ^ 259 + 3 * n * (2 * s + 8 * n + 3) / 2 ^ 256 := by
  have h := Onlooker.code_le O sp (Scalar.ofF x0) (Scalar.ofF x1) _
    (watcher_within (O := O) (sp := sp) (X := x1 • sp.h) (A sp (x1 • sp.h)) [] q s n hA)
  rw [pack_yes O _ [] [] [] [] [] ⟨fun _ => rfl, fun _ => rfl⟩] at h
  exact h

end Mint

/-! ## C104 -/

/-- **C104** for the code as it is: the issuer runs `Issuer::issue` and users run `SignalUser::show` with their own generators,
and the adversary makes at most `q` hash queries, reads generators at most `s` times, and gets at most `n` issuances and
presentations. It succeeds at most as often as an adversary to which `C104_watching` and `C104_watching_bound` apply with
`T = q + s + 2n`, up to negligible terms. -/
theorem C104_code {S Ω : Type} [Fintype S] [Nonempty S] [Fintype Ω] [Nonempty Ω] (O : Oracle)
    (sp : S → SystemParameters G) (A : SystemParameters G → G → Ω → Spec.Coiner G) (q s n : ℕ)
    (hA : ∀ σ X ω, (A (sp σ) X ω).Within q s n) :
    |(Spec.mean fun x : S × Ω × F × F =>
        Spec.Coiner.against O (fun sp X => A sp X x.2.1) (Spec.issuerOf (sp x.1) x.2.2.1 x.2.2.2)) -
      Spec.watchingMinterWins O sp (fun sp X ω => (A sp X ω).pack)| ≤
      9 * n / 2 ^ 259 + 3 * n * (2 * s + 8 * n + 3) / 2 ^ 256 ∧
    ∀ σ X ω, (A (sp σ) X ω).pack.Within (q + s + 2 * n) :=
  ⟨Sim.abs_sub_mean_le fun x => Mint.against_le O (fun sp X => A sp X x.2.1) (hA x.1 _ _),
    fun σ X ω => Mint.pack_within _ q s n (hA σ X ω)⟩

/-- **C104** for the program as a whole: with parameters from `hunt_and_peck` and keys from `Issuer::create`, all from
uniform bytes, an adversary succeeds at most as often as one of C104 with the parameters of a uniform discrete logarithm
instance, up to negligible terms. -/
theorem C104_setup {Ω : Type} [Fintype Ω] [Nonempty Ω] (O : Oracle) (N : ℕ)
    (A : SystemParameters G → G → Ω → Spec.Coiner G) (q s n : ℕ) (hA : ∀ sp X ω, (A sp X ω).Within q s n) :
    |Spec.coinerWins O N A - Spec.watchingMinterWins O (Spec.Log.parameters G) (fun sp X ω => (A sp X ω).pack)| ≤
      (15 / 16) ^ N + 1 / (ell - 1) + 1 / 2 ^ 258 + (9 * n / 2 ^ 259 + 3 * n * (2 * s + 8 * n + 3) / 2 ^ 256) := by
  have h1 := Setup.setup_le (G := G) N (fun ω : Ω => Spec.Coiner.against O (fun sp X => A sp X ω))
    fun _ _ => Mint.against01 _ _ _
  have h2 := (C104_code O (Spec.Log.parameters G) A q s n fun σ => hA _).1
  exact (abs_sub_le _ _ _).trans (add_le_add h1 h2)

/-- **C104** for the program as a whole, as a bound: if `Spec.unlock` finds the logarithm of the public key with
probability at most `t²/(2(T+1))`, where `T = q + s + 2n`, and the logarithm of `h` is found with probability at most `u`,
then the adversary succeeds with probability at most `t + u` and negligible terms. -/
theorem C104_program {Ω : Type} [Fintype Ω] [Nonempty Ω] (O : Oracle) (N : ℕ)
    (A : SystemParameters G → G → Ω → Spec.Coiner G) (q s n : ℕ) (hA : ∀ sp X ω, (A sp X ω).Within q s n) (T : ℕ)
    (hT : T = q + s + 2 * n) (t u : ℚ) (ht : 0 ≤ t)
    (h1 : Spec.watchingUnlockWins (Spec.Log.parameters G) (fun sp X ω => (A sp X ω).pack) T ≤ t ^ 2 / (2 * (T + 1)))
    (h2 : Spec.watchingQuotientWins O (Spec.Log.parameters G) (fun sp X ω => (A sp X ω).pack) ≤ u) :
    Spec.coinerWins O N A ≤ t + u + 4 * (T + 1) ^ 2 / ell + 2 * (T + 1) / 2 ^ 252 +
      ((15 / 16) ^ N + 1 / (ell - 1) + 1 / 2 ^ 258 + (9 * n / 2 ^ 259 + 3 * n * (2 * s + 8 * n + 3) / 2 ^ 256)) := by
  subst hT
  have h3 := (abs_sub_le_iff.1 (C104_setup O N A q s n hA)).1
  have h4 := C104_watching_bound O (Spec.Log.parameters G) (fun _ => Ristretto.base_ne)
    (fun y => smul_ne_zero y.2 Ristretto.base_ne) (fun sp X ω => (A sp X ω).pack) (q + s + 2 * n)
    (fun y X ω => Mint.pack_within _ q s n (hA _ X ω)) t u ht h1 h2
  rw [sub_le_iff_le_add'] at h3
  exact h3.trans (add_le_add_left h4 _)

open Classical in
/-- **C104**: with these parameters, the two algorithms are asked for the discrete logarithms of uniform elements: of the
public key to the base `h`, and of `h` to the base `g`. -/
theorem C104_log {Ω : Type} [Fintype Ω] (O : Oracle) (A : SystemParameters G → G → Ω → Spec.Onlooker G Bytes) (T : ℕ) :
    (Spec.watchingUnlockWins (Spec.Log.parameters G) A T =
      Spec.mean fun x : Spec.Log × (Ω × (Fin T → Spec.ActCoins)) × F × F =>
      Spec.mean fun s : (Fin (T + 1) → Spec.Cell × F) × (Fin (T + 1) → Spec.Cell × F) =>
        let sp : SystemParameters G := ⟨basepoint G, x.1.1 • basepoint G⟩
        let X := x.2.2.2 • sp.h
        let B := (A sp X x.2.1.1).actor sp X x.2.2.1 [] (Spec.stretch x.2.1.2)
        if x.2.2.2 = Spec.unlock sp X x.2.2.1 B (Reduction.cellsOf s.1) (Reduction.cellsOf s.2)
          (Spec.coinsOf s.1) (Spec.coinsOf s.2) then 1 else 0) ∧
    Spec.watchingQuotientWins O (Spec.Log.parameters G) A =
      Spec.mean fun x : Spec.Log × Ω × F × F =>
        let sp : SystemParameters G := ⟨basepoint G, x.1.1 • basepoint G⟩
        let X := x.2.2.2 • sp.h
        ((A sp X x.2.1).delivered sp X []).expect (Spec.honestIssue O sp (Scalar.ofF x.2.2.1) (Scalar.ofF x.2.2.2))
          (Spec.memberShow O sp (Scalar.ofF x.2.2.1) (Scalar.ofF x.2.2.2))
          (fun o _ _ => if x.1.1 ∈ Spec.quotients o.1 o.2 then 1 else 0) [] [] := by
  refine ⟨Sim.mean_congr fun x => Sim.mean_congr fun s => ?_, Sim.mean_congr fun x => ?_⟩
  · have hh : x.1.1 • basepoint G ≠ 0 := smul_ne_zero x.1.2 Ristretto.base_ne
    exact if_congr (smul_left_injective F hh).eq_iff rfl rfl
  · have h : ∀ (b : Bytes) (cs : List (CredentialIssuance G)),
        Spec.Divided (x.1.parameters G) b cs ↔ x.1.1 ∈ Spec.quotients b cs := by
      refine fun b cs => ⟨?_, fun h => ⟨_, h, rfl⟩⟩
      rintro ⟨y, hy, e⟩
      rwa [smul_left_injective F (Ristretto.base_ne (G := G)) e]
    dsimp only
    simp only [h]
    rfl

/-- **C104**: what the issuer of the game does is `Issuer::issue`, and what it sends is accepted by the user of the
game. (What the users that are watched do is `SignalUser::show` by `C94_programs`.) -/
theorem C104_programs {R : Type} [RngCore R] (O : Oracle) (sp : SystemParameters G) (x0 x1 : F) (m : Scalar) (rng : R)
    (e : Spec.Seed) :
    ∃ c, ((Spec.issuerOf sp x0 x1).issue O ⟨[m]⟩ rng e.1).1 = .ok c ∧
      (Spec.sends (G := G) sp (.ofF x0) (.ofF x1) (.inl m)).Returns O [] ((Spec.reads [32] rng).1 ++ [e.1]) c ∧
      ((User.new sp ⟨[x1 • sp.h]⟩ none).obtainFinish O (some c)).1 = .ok () := by
  obtain ⟨c, h1, h2⟩ := (C94_programs O sp x0 x1 m ⟨m, 0, 1, one_ne_zero⟩ rng e e).1
  obtain ⟨c', h3, -, -, h4⟩ := C33_honest_accepted O (i := Spec.issuerOf sp x0 x1)
    (by simp [Spec.KeypairMatches, Spec.issuerOf]) m rng e.1 (User.new sp ⟨[x1 • sp.h]⟩ none) rfl rfl
  obtain rfl : c' = c := by
    rw [h1] at h3
    exact (Res.ok.inj h3).symm
  exact ⟨c', h1, h2, by rw [h4]⟩

/-! ## Examples -/

/-- An adversary that reads a generator, asks the hash, gets the attribute 8 issued, and watches somebody with the number
8. -/
example : let A : SystemParameters F → F → Unit → Spec.Coiner F := fun _ _ _ =>
      .read ⟨[.init "AEONFLUX ISSUANCE"], [], List.replicate 32 0, 0⟩ fun _ => .ask [.init "AEONFLUX ISSUANCE"] fun _ =>
      .issue ⟨8, by decide +kernel⟩ fun c =>
      .watch ⟨⟨8, by decide +kernel⟩, ⟨3, by decide +kernel⟩, 1, one_ne_zero⟩ fun _ => .out c.toBytes
    ∀ sp X ω, (A sp X ω).Within 1 1 2 :=
  fun _ _ _ => ⟨0, rfl, fun _ => ⟨0, rfl, fun _ => ⟨1, rfl, fun _ => ⟨0, rfl, fun _ => trivial⟩⟩⟩⟩

end Verif
