import Verif.Props.Spy
import Verif.Props.Hunt
import Verif.Props.Draws

/-!
# C95: from the generation of parameters and keys on

In C94 the parameters come from any distribution and the keys are uniform. Here they are what
`SystemParameters::hunt_and_peck` and `Issuer::create` make of uniform bytes, and nothing is left of them in the bound
but the discrete logarithm problem for a uniform instance and forgery of the MAC.
-/

set_option maxRecDepth 100000
set_option exponentiation.threshold 600

namespace Verif

open Amacs

variable {G : Type} [AddCommGroup G] [Module F G] [Ristretto G]

/-! ## The game -/

noncomputable instance (n : ℕ) : Fintype (Hunt.Tape n) := Fintype.ofFinite _

/-- A generator whose next draws of 64 bytes are these; other draws are zeros, they do not occur here. -/
structure Spec.WideRng where
  next : List Spec.Answer

instance : RngCore Spec.WideRng where
  fill r m :=
    match r.next with
    | [] => (List.replicate m 0, ⟨[]⟩)
    | a :: l => (if m = 64 then a.1 else List.replicate m 0, ⟨l⟩)
  fill_length r m := by
    split
    · simp
    · rename_i a l _
      dsimp only
      split
      · rename_i h
        rw [a.2, h]
      · simp

/-- The probability that the adversary gets accepted by this issuer for a number in `V` without repeating a
presentation. It is given the parameters and the public key. (Issuers with other than one key do not occur.) -/
noncomputable def Spec.Spy.against (O : Oracle) (A : SystemParameters G → G → Spec.Spy G) (V : Set F) (i : Issuer G) :
    ℚ :=
  match i.keypair.publicKey.Xn, i.keypair.secretKey.xn with
  | [X], [x1] =>
    ((A i.systemParameters X).watcher O i V []).yesRun (Spec.sends i.systemParameters i.keypair.secretKey.x0 x1) [] []
  | _, _ => 0

/-- The probability that an adversary gets accepted for a number in `V` without repeating a presentation, if the
parameters are from `hunt_and_peck` with at most `N` draws of uniform bytes, and the keys from `Issuer::create` with
uniform bytes. If `hunt_and_peck` needs more draws the adversary does not succeed. -/
noncomputable def Spec.setupWins {Ω : Type} [Fintype Ω] (O : Oracle) (N : ℕ)
    (A : SystemParameters G → G → Ω → Spec.Spy G) (V : Set F) : ℚ :=
  Spec.mean fun x : Hunt.Tape N × Ω × Spec.Answer × Spec.Answer =>
    match SystemParameters.huntAndPeck (G := G) N (⟨x.1, 0⟩ : Hunt.TapeRng N) with
    | none => 0
    | some (sp, _) =>
      Spec.Spy.against O (fun sp X => A sp X x.2.1) V (Issuer.create sp (⟨[x.2.2.1, x.2.2.2]⟩ : Spec.WideRng)).1

/-- An instance of the discrete logarithm problem: a non-zero exponent. -/
abbrev Spec.Log := {y : F // y ≠ 0}

instance : Nonempty Spec.Log := ⟨⟨1, one_ne_zero⟩⟩

/-- The instance as parameters: the base point and its multiple. -/
def Spec.Log.parameters (G : Type) [AddCommGroup G] [Module F G] [Ristretto G] (y : Spec.Log) : SystemParameters G :=
  ⟨basepoint G, y.1 • basepoint G⟩

namespace Setup

/-- The probability that `hunt_and_peck` needs more than `n` draws. -/
noncomputable def late (G : Type) [AddCommGroup G] [Module F G] [Ristretto G] (n : ℕ) : ℚ :=
  Nat.card {t : Hunt.Tape n // Hunt.run G t = none} / Nat.card (Hunt.Tape n)

theorem late_le (n : ℕ) : 0 ≤ late G n ∧ late G n ≤ (15 / 16) ^ n := by
  have h := Hunt.C73_bound (G := G) n
  have h0 : 0 < Nat.card (Hunt.Tape n) := Nat.card_pos
  refine ⟨div_nonneg (Nat.cast_nonneg _) (Nat.cast_nonneg _), ?_⟩
  unfold late
  rw [div_pow, div_le_div_iff₀ (by exact_mod_cast h0) (by positivity)]
  exact_mod_cast h

theorem mean_run (n : ℕ) (f : G → ℚ) : (Spec.mean fun t : Hunt.Tape n => ((Hunt.run G t).elim 0 f)) =
    (1 - late G n) * ((∑ y ∈ Finset.univ.erase (1 : F), f (y • basepoint G)) / (ell - 1)) := by
  classical
  have : Fintype G := Fintype.ofFinite G
  have hpos : 0 < Nat.card (Hunt.Tape n) := Nat.card_pos
  have e1 : (∑ t : Hunt.Tape n, (Hunt.run G t).elim 0 f) =
      ∑ o : Option G, (Nat.card {t : Hunt.Tape n // Hunt.run G t = o} : ℚ) * o.elim 0 f := by
    rw [← Finset.sum_fiberwise Finset.univ (fun t : Hunt.Tape n => Hunt.run G t)]
    refine Finset.sum_congr rfl fun o _ => ?_
    rw [Finset.sum_congr rfl (g := fun _ => o.elim 0 f) (fun a ha => by rw [(Finset.mem_filter.1 ha).2]),
      Finset.sum_const, nsmul_eq_mul, Nat.card_eq_fintype_card, Fintype.card_subtype]
  let e : F ≃ G := Equiv.ofBijective (fun s : F => s • basepoint G)
    ⟨fun s t h => (smul_right_inj' (Ristretto.base_ne (G := G))).1 h, fun P => by
      obtain ⟨s, hs⟩ := Ristretto.gen P
      exact ⟨s, hs.symm⟩⟩
  have e2 : (∑ o : Option G, (Nat.card {t : Hunt.Tape n // Hunt.run G t = o} : ℚ) * o.elim 0 f) =
      ∑ y : F, (Nat.card {t : Hunt.Tape n // Hunt.run G t = some (y • basepoint G)} : ℚ) * f (y • basepoint G) := by
    rw [Fintype.sum_option]
    simp only [Option.elim, mul_zero, zero_add]
    exact (Equiv.sum_comp e fun P => (Nat.card {t : Hunt.Tape n // Hunt.run G t = some P} : ℚ) * f P).symm
  have hne : ∀ y : F, y ≠ 1 → y • basepoint G ≠ basepoint G := fun y hy h => hy (by
    rw [← one_smul F (basepoint G), smul_smul, mul_one] at h
    exact e.injective h)
  have h3 : ((ell - 1 : ℕ) : ℚ) = (ell : ℚ) - 1 := by
    rw [Nat.cast_sub ell_pos, Nat.cast_one]
  have hl : (0 : ℚ) < (ell : ℚ) - 1 := by
    rw [← h3]
    exact_mod_cast (by decide +kernel : 0 < ell - 1)
  have e3 : ∀ y : F, y ≠ 1 → (Nat.card {t : Hunt.Tape n // Hunt.run G t = some (y • basepoint G)} : ℚ) =
      (1 - late G n) * Nat.card (Hunt.Tape n) / (ell - 1) := fun y hy => by
    have h := Hunt.C73_exact n (hne y hy)
    have h4 : ell - 1 = 2 ^ 252 + 27742317777372353535851937790883648492 := rfl
    rw [← h4] at h
    have h5 : ((ell - 1 : ℕ) : ℚ) * (Nat.card {t : Hunt.Tape n // Hunt.run G t = some (y • basepoint G)} : ℚ) +
        (Nat.card {t : Hunt.Tape n // Hunt.run G t = none} : ℚ) = Nat.card (Hunt.Tape n) := by exact_mod_cast h
    rw [h3] at h5
    have hN : (Nat.card (Hunt.Tape n) : ℚ) ≠ 0 := by exact_mod_cast hpos.ne'
    rw [eq_div_iff hl.ne', sub_mul, one_mul, late, div_mul_cancel₀ _ hN]
    linarith
  have e4 : Nat.card {t : Hunt.Tape n // Hunt.run G t = some ((1 : F) • basepoint G)} = 0 := by
    rw [one_smul]
    exact (Hunt.C73_uniform n (hne 0 zero_ne_one) (hne 0 zero_ne_one)).2
  unfold Spec.mean
  rw [e1, e2, ← Finset.add_sum_erase _ _ (Finset.mem_univ (1 : F)), e4, Nat.cast_zero, zero_mul, zero_add,
    Finset.sum_congr rfl (g := fun y => (1 - late G n) * Nat.card (Hunt.Tape n) / (ell - 1) * f (y • basepoint G))
      (fun y hy => by rw [e3 y (Finset.ne_of_mem_erase hy)]), ← Finset.mul_sum, ← Nat.card_eq_fintype_card]
  have hN : (Nat.card (Hunt.Tape n) : ℚ) ≠ 0 := by exact_mod_cast hpos.ne'
  field_simp

theorem mean_log (f : F → ℚ) : (Spec.mean fun y : Spec.Log => f y.1) =
    (∑ y ∈ Finset.univ.erase (0 : F), f y) / (ell - 1) := by
  unfold Spec.mean
  have h1 : (Finset.univ.erase (0 : F)) = Finset.univ.filter fun y : F => y ≠ 0 := by
    ext y
    simp
  have h2 : (Fintype.card Spec.Log : ℚ) = (ell : ℚ) - 1 := by
    rw [Fintype.card_subtype, ← h1, Finset.card_erase_of_mem (Finset.mem_univ _), Finset.card_univ, ZMod.card,
      Nat.cast_sub ell_pos, Nat.cast_one]
  rw [h2, h1, Finset.sum_subtype (p := fun y : F => y ≠ 0) _ (by simp)]

end Setup

/-- **C95.** The parameters that `hunt_and_peck` makes of uniform bytes are, for every purpose, those of a uniform
instance of the discrete logarithm problem, up to the probability that it does not end within `n` draws and `1/(ℓ-1)`. -/
theorem C95_parameters (n : ℕ) (f : SystemParameters G → ℚ) (hf : ∀ sp, 0 ≤ f sp ∧ f sp ≤ 1) :
    |(Spec.mean fun t : Hunt.Tape n =>
        match SystemParameters.huntAndPeck (G := G) n (⟨t, 0⟩ : Hunt.TapeRng n) with
        | none => 0
        | some (sp, _) => f sp) -
      Spec.mean fun y : Spec.Log => f (y.parameters G)| ≤ (15 / 16) ^ n + 1 / (ell - 1) := by
  have e : (Spec.mean fun t : Hunt.Tape n =>
        match SystemParameters.huntAndPeck (G := G) n (⟨t, 0⟩ : Hunt.TapeRng n) with
        | none => 0
        | some (sp, _) => f sp) =
      Spec.mean fun t : Hunt.Tape n => (Hunt.run G t).elim 0 fun P => f ⟨basepoint G, P⟩ := by
    refine Sim.mean_congr fun t => ?_
    unfold Hunt.run
    cases h : SystemParameters.huntAndPeck (G := G) n (⟨t, 0⟩ : Hunt.TapeRng n) with
    | none => rfl
    | some x =>
      have hg : x.1.g = basepoint G := by
        obtain ⟨k, -, -, -, -, hg, -⟩ := (C48_result_iff _ _ _ _).1 h
        exact hg
      obtain ⟨⟨g, P⟩, r⟩ := x
      dsimp only at hg
      rw [hg]
      rfl
  rw [e, Setup.mean_run]
  unfold Spec.Log.parameters
  rw [Setup.mean_log fun y => f ⟨basepoint G, y • basepoint G⟩]
  set g : F → ℚ := fun y => f ⟨basepoint G, y • basepoint G⟩ with hg
  have h0 := Finset.add_sum_erase (Finset.univ : Finset F) g (Finset.mem_univ 0)
  have h1 := Finset.add_sum_erase (Finset.univ : Finset F) g (Finset.mem_univ 1)
  have hl : (0 : ℚ) < (ell : ℚ) - 1 := by
    rw [sub_pos]
    exact_mod_cast (by decide +kernel : 1 < ell)
  obtain ⟨hn0, hn1⟩ := Setup.late_le (G := G) n
  have hS : 0 ≤ (∑ y ∈ Finset.univ.erase (1 : F), g y) / ((ell : ℚ) - 1) ∧
      (∑ y ∈ Finset.univ.erase (1 : F), g y) / ((ell : ℚ) - 1) ≤ 1 := by
    refine ⟨div_nonneg (Finset.sum_nonneg fun y _ => (hf _).1) hl.le, (div_le_one hl).2 ?_⟩
    refine (Finset.sum_le_card_nsmul _ _ 1 fun y _ => (hf _).2).trans (le_of_eq ?_)
    rw [Finset.card_erase_of_mem (Finset.mem_univ _), Finset.card_univ, ZMod.card, nsmul_eq_mul, mul_one,
      Nat.cast_sub ell_pos, Nat.cast_one]
  have hd : |(∑ y ∈ Finset.univ.erase (1 : F), g y) / ((ell : ℚ) - 1) -
      (∑ y ∈ Finset.univ.erase (0 : F), g y) / ((ell : ℚ) - 1)| ≤ 1 / ((ell : ℚ) - 1) := by
    rw [← sub_div, abs_div, abs_of_pos hl]
    refine div_le_div_of_nonneg_right ?_ hl.le
    have a := hf ⟨basepoint G, (0 : F) • basepoint G⟩
    have b := hf ⟨basepoint G, (1 : F) • basepoint G⟩
    have a' : 0 ≤ g 0 ∧ g 0 ≤ 1 := a
    have b' : 0 ≤ g 1 ∧ g 1 ≤ 1 := b
    rw [abs_le]
    constructor <;> linarith
  generalize (∑ y ∈ Finset.univ.erase (1 : F), g y) / ((ell : ℚ) - 1) = S1 at *
  generalize (∑ y ∈ Finset.univ.erase (0 : F), g y) / ((ell : ℚ) - 1) = S0 at *
  have h2 : |(1 - Setup.late G n) * S1 - S1| ≤ (15 / 16) ^ n := by
    rw [show (1 - Setup.late G n) * S1 - S1 = -(Setup.late G n * S1) by ring, abs_neg,
      abs_of_nonneg (mul_nonneg hn0 hS.1)]
    exact (mul_le_of_le_one_right hn0 hS.2).trans hn1
  exact (abs_sub_le _ S1 _).trans (add_le_add h2 hd)

namespace Setup

theorem run01 {K : Type} {Pf : K → Type} (code : (x : K) → Spec.Program (Pf x)) (A : Spec.Watcher K Pf) :
    ∀ l r, 0 ≤ A.yesRun code l r ∧ A.yesRun code l r ≤ 1 := by
  induction A with
  | done b => intro l r; cases b <;> simp [Spec.Watcher.yesRun]
  | toss next ih => intro l r; exact Sim.mean01 fun c => ih c l r
  | ask t next ih => intro l r; exact Sim.mean01 fun a => ih _ _ r
  | read q next ih => intro l r; exact Sim.mean01 fun a => ih _ l _
  | request x next ih => intro l r; exact Sim.run01 _ _ l r fun l' r' π => ih π l' r'

theorem against01 (O : Oracle) (A : SystemParameters G → G → Spec.Spy G) (V : Set F) (i : Issuer G) :
    0 ≤ Spec.Spy.against O A V i ∧ Spec.Spy.against O A V i ≤ 1 := by
  unfold Spec.Spy.against
  split
  · exact run01 _ _ _ _
  · exact ⟨le_rfl, zero_le_one⟩

theorem against_issuerOf (O : Oracle) (A : SystemParameters G → G → Spec.Spy G) (V : Set F) (sp : SystemParameters G)
    (x0 x1 : F) : Spec.Spy.against O A V (Spec.issuerOf sp x0 x1) =
      ((A sp (x1 • sp.h)).watcher O (Spec.issuerOf sp x0 x1) V []).yesRun
        (Spec.sends sp (Scalar.ofF x0) (Scalar.ofF x1)) [] [] := rfl

end Setup

omit [Ristretto G] in
/-- **C95.** The issuer that `Issuer::create` makes of two blocks of 64 bytes. -/
theorem C95_create (sp : SystemParameters G) (a b : Spec.Answer) :
    (Issuer.create sp (⟨[a, b]⟩ : Spec.WideRng)).1 = Spec.issuerOf sp (Spec.coin a.1) (Spec.coin b.1) ∧
      SignalIssuer.create sp (⟨[a, b]⟩ : Spec.WideRng) =
        (⟨Spec.issuerOf sp (Spec.coin a.1) (Spec.coin b.1)⟩, ⟨[]⟩) := by
  have h : (Issuer.create sp (⟨[a, b]⟩ : Spec.WideRng)).1 = Spec.issuerOf sp (Spec.coin a.1) (Spec.coin b.1) := by
    unfold Spec.issuerOf Spec.coin
    have e : Scalar.fromWide b.1 • sp.h = (leVal b.1 : F) • sp.h := by
      rw [Scalar.smul_def, Scalar.fromWide, Scalar.val_ofF]
    rw [← e]
    rfl
  refine ⟨h, ?_⟩
  rw [← h]
  rfl

namespace Setup

/-- Whatever is done with the issuer, parameters and keys from uniform bytes are as good as those of a uniform discrete
logarithm instance and uniform keys. -/
theorem setup_le {Ω : Type} [Fintype Ω] [Nonempty Ω] (N : ℕ) (W : Ω → Issuer G → ℚ)
    (hW : ∀ ω i, 0 ≤ W ω i ∧ W ω i ≤ 1) :
    |(Spec.mean fun x : Hunt.Tape N × Ω × Spec.Answer × Spec.Answer =>
        match SystemParameters.huntAndPeck (G := G) N (⟨x.1, 0⟩ : Hunt.TapeRng N) with
        | none => 0
        | some (sp, _) => W x.2.1 (Issuer.create sp (⟨[x.2.2.1, x.2.2.2]⟩ : Spec.WideRng)).1) -
      Spec.mean fun x : Spec.Log × Ω × F × F => W x.2.1 (Spec.issuerOf (x.1.parameters G) x.2.2.1 x.2.2.2)| ≤
      (15 / 16) ^ N + 1 / (ell - 1) + 1 / 2 ^ 258 := by
  let w : SystemParameters G → ℚ := fun sp => Spec.mean fun x : Ω × Spec.Answer × Spec.Answer =>
    W x.1 (Issuer.create sp (⟨[x.2.1, x.2.2]⟩ : Spec.WideRng)).1
  have e1 : (Spec.mean fun x : Hunt.Tape N × Ω × Spec.Answer × Spec.Answer =>
        match SystemParameters.huntAndPeck (G := G) N (⟨x.1, 0⟩ : Hunt.TapeRng N) with
        | none => 0
        | some (sp, _) => W x.2.1 (Issuer.create sp (⟨[x.2.2.1, x.2.2.2]⟩ : Spec.WideRng)).1) =
      Spec.mean fun t : Hunt.Tape N =>
      match SystemParameters.huntAndPeck (G := G) N (⟨t, 0⟩ : Hunt.TapeRng N) with
      | none => 0
      | some (sp, _) => w sp := by
    rw [Tagging.mean_prod]
    refine Sim.mean_congr fun t => ?_
    dsimp only
    cases SystemParameters.huntAndPeck (G := G) N (⟨t, 0⟩ : Hunt.TapeRng N) with
    | none => exact Sim.mean_const (α := Ω × Spec.Answer × Spec.Answer) 0
    | some x => rfl
  have e2 : ∀ sp, |w sp - Spec.mean fun x : Ω × F × F => W x.1 (Spec.issuerOf sp x.2.1 x.2.2)| ≤ 1 / 2 ^ 258 := fun sp => by
    rw [Tagging.mean_prod]
    have e3 : w sp = Spec.mean fun ω : Ω => Spec.mean fun x : Spec.Answer × Spec.Answer =>
        (fun y : F × F => W ω (Spec.issuerOf sp y.1 y.2)) (Spec.coin x.1.1, Spec.coin x.2.1) := by
      show Spec.mean _ = _
      rw [Tagging.mean_prod]
      refine Sim.mean_congr fun ω => Sim.mean_congr fun x => ?_
      dsimp only
      rw [(C95_create sp x.1 x.2).1]
    rw [e3]
    refine Sim.abs_sub_mean_le fun ω => ?_
    have hn := (Coins.near1.prod Coins.near1) (fun y : F × F => W ω (Spec.issuerOf sp y.1 y.2)) fun y => hW _ _
    have hb : Coins.bias + Coins.bias = 1 / 2 ^ 258 := by
      rw [Coins.bias]
      norm_num
    rw [hb] at hn
    exact hn
  have h1 := C95_parameters (G := G) N w fun sp => Sim.mean01 fun x => hW _ _
  have h2 : |(Spec.mean fun y : Spec.Log => w (y.parameters G)) -
      Spec.mean fun x : Spec.Log × Ω × F × F => W x.2.1 (Spec.issuerOf (x.1.parameters G) x.2.2.1 x.2.2.2)| ≤
      1 / 2 ^ 258 := by
    rw [Tagging.mean_prod (α := Spec.Log)]
    exact Sim.abs_sub_mean_le fun y => e2 (y.parameters G)
  rw [e1]
  exact (abs_sub_le _ _ _).trans (add_le_add h1 h2)

end Setup

/-- **C95.** With parameters and keys from uniform bytes an adversary succeeds as often as in the game of C94 with the
parameters of a uniform discrete logarithm instance and uniform keys, up to negligible terms. -/
theorem C95_setup {Ω : Type} [Fintype Ω] [Nonempty Ω] (O : Oracle) (N : ℕ)
    (A : SystemParameters G → G → Ω → Spec.Spy G) (V : Set F) :
    |Spec.setupWins O N A V - Spec.spyWins O (Spec.Log.parameters G) A V| ≤
      (15 / 16) ^ N + 1 / (ell - 1) + 1 / 2 ^ 258 :=
  Setup.setup_le N (fun ω => Spec.Spy.against O (fun sp X => A sp X ω) V) fun _ _ => Setup.against01 _ _ _ _

/-- **C95.** The bound: if the forger of C94 forges with small probability and the algorithm of C94 finds the discrete
logarithm of a uniform instance with small probability, an adversary that sees everything from the generation of the
parameters on is accepted with small probability. -/
theorem C95_bound {Ω : Type} [Fintype Ω] [Nonempty Ω] (O : Oracle) (N : ℕ)
    (A : SystemParameters G → G → Ω → Spec.Spy G) (V : Set F) (q s n : ℕ)
    (hA : ∀ sp X ω, (A sp X ω).Within q s n) (hV : ∀ sp X ω, (A sp X ω).Avoids V) (m₁ : Scalar) (hm : m₁.val ∉ V)
    (T : ℕ) (hT : T = q + s + 2 * n) (t u : ℚ) (ht : 0 ≤ t) (hu : 0 ≤ u)
    (hf : Spec.forgerWins (Spec.Log.parameters G) (Spec.deputies m₁ (fun sp X ω => (A sp X ω).pack) T) V (T + 1) ≤
      t ^ 3 / (128 * (T + 3) ^ 4))
    (hl : Spec.finderWins (Spec.Log.parameters G) (fun sp X ω => (A sp X ω).pack) T ≤ u ^ 2 / (4 * (T + 2))) :
    Spec.setupWins O N A V ≤ t + u + 4 * (T + 3) ^ 2 / ell + 10 * (T + 3) / 2 ^ 252 +
      (9 * n / 2 ^ 259 + 3 * n * (2 * s + 8 * n + 3) / 2 ^ 256) + ((15 / 16) ^ N + 1 / (ell - 1) + 1 / 2 ^ 258) := by
  have h1 := (abs_sub_le_iff.1 (C95_setup O N A V)).1
  have h2 := C94_code_bound O (Spec.Log.parameters G) (fun _ => Ristretto.base_ne)
    (fun y => smul_ne_zero y.2 Ristretto.base_ne) A V q s n (fun y X ω => hA _ X ω) (fun y X ω => hV _ X ω) m₁ hm T hT t u
    ht hu hf hl
  rw [sub_le_iff_le_add'] at h1
  exact h1.trans (add_le_add_left h2 _)

set_option synthInstance.maxSize 1000 in
/-- **C95.** What the algorithm of C94 is asked for here is the exponent of a uniform instance. -/
theorem C95_finder {Ω : Type} [Fintype Ω] (A : SystemParameters G → G → Ω → Spec.Onlooker G Spec.Attempt) (T : ℕ) :
    Spec.finderWins (Spec.Log.parameters G) A T =
      Spec.mean fun x : Spec.Log × Ω × F × F =>
        Spec.mean fun s : (Fin (T + 2) → Spec.RunCell) × (Fin (T + 2) → Spec.RunCell) =>
          let sp : SystemParameters G := ⟨basepoint G, x.1.1 • basepoint G⟩
          if x.1.1 ∈ Spec.finder sp x.2.2.1 x.2.2.2 (A sp (x.2.2.2 • sp.h) x.2.1) (Spec.stretch s.1) (Spec.stretch s.2)
          then 1 else 0 := by
  unfold Spec.finderWins
  refine Sim.mean_congr fun x => Sim.mean_congr fun s => ?_
  dsimp only
  have h : ∀ y : F, (x.1.parameters G).h = y • (x.1.parameters G).g ↔ x.1.1 = y := fun y =>
    ⟨fun h => (smul_left_injective F (Ristretto.base_ne (G := G))) h, fun h => by rw [← h]; rfl⟩
  simp only [h, exists_eq_right']
  rfl

/-- An adversary for any parameters, as in the example of C94, and the numbers of the bound: after `2^80` hash queries,
`2^60` reads, `2^30` issuances and presentations, and 2000 draws for the parameters, what is added to `t + u` is less
than `2^-80`. -/
example : (∀ (sp : SystemParameters F) (X : F) (ω : Bool),
      let A : Spec.Spy F := .ask [.init "AEONFLUX SHOW"] fun _ => .issue ⟨7, by decide +kernel⟩ fun _ =>
        .watch ⟨⟨8, by decide +kernel⟩, ⟨3, by decide +kernel⟩, 1, one_ne_zero⟩ fun _ =>
        .out ⟨8, 0, if ω then enc X else enc sp.h⟩
      A.Within 1 0 2 ∧ A.Avoids {8}) ∧
    ∀ q s n T N : ℕ, q = 2 ^ 80 → s = 2 ^ 60 → n = 2 ^ 30 → N = 2000 → T = q + s + 2 * n →
      (4 * (T + 3) ^ 2 / ell + 10 * (T + 3) / 2 ^ 252 +
        (9 * n / 2 ^ 259 + 3 * n * (2 * s + 8 * n + 3) / 2 ^ 256) + ((15 / 16) ^ N + 1 / (ell - 1) + 1 / 2 ^ 258) : ℚ) <
        1 / 2 ^ 80 := by
  refine ⟨fun sp X ω => ⟨⟨0, rfl, fun _ => ⟨1, rfl, fun _ => ⟨0, rfl, fun _ => trivial⟩⟩⟩,
    fun _ => ⟨by rw [Set.mem_singleton_iff]; decide +kernel, fun _ _ => trivial⟩⟩, ?_⟩
  rintro q s n T N rfl rfl rfl rfl rfl
  have h : ((15 / 16 : ℚ)) ^ 2000 ≤ 1 / 2 ^ 180 := by
    rw [div_pow, div_le_div_iff₀ (by positivity) (by positivity)]
    exact_mod_cast (by decide +kernel : 15 ^ 2000 * 2 ^ 180 ≤ 1 * 16 ^ 2000)
  generalize ((15 / 16 : ℚ)) ^ 2000 = c at *
  norm_num [ell] at *
  linarith

end Verif
