import Verif.Props.Params
import Mathlib.SetTheory.Cardinal.Finite
import Mathlib.Logic.Equiv.Fin.Basic
import Mathlib.Data.Set.Card

/-!
# How long parameter generation takes and what it yields (C73)

`hunt_and_peck` draws blocks of 32 bytes until one is an encoding. The blocks are taken to be uniform
and independent, which is made precise by counting: all sequences of `n` blocks are equally likely.
-/

set_option maxRecDepth 100000

namespace Verif

variable {G : Type} [AddCommGroup G] [Module F G] [Ristretto G]

namespace Hunt

/-- 32 random bytes. -/
abbrev Block := Fin 32 → UInt8

/-- `n` draws of 32 random bytes. -/
abbrev Tape (n : ℕ) := Fin n → Block

/-- The generator whose first draws of 32 bytes are `t`, and zeros after that. -/
structure TapeRng (n : ℕ) where
  tape : Tape n
  pos : ℕ

/-- Draws of other sizes are zeros, they do not occur here. -/
instance (n : ℕ) : RngCore (TapeRng n) where
  fill r m :=
    (if h : r.pos < n ∧ m = 32 then List.ofFn (r.tape ⟨r.pos, h.1⟩) else List.replicate m 0,
      ⟨r.tape, r.pos + 1⟩)
  fill_length r m := by
    split
    · rename_i h
      simp [h.2]
    · simp

/-- What `hunt_and_peck` returns as `h` on a sequence of blocks, if it returns within these blocks. -/
def run (G : Type) [AddCommGroup G] [Module F G] [Ristretto G] {n : ℕ} (t : Tape n) : Option G :=
  (SystemParameters.huntAndPeck (G := G) n (⟨t, 0⟩ : TapeRng n)).map fun x => x.1.h

theorem rngAfter_eq {n : ℕ} (t : Tape n) : ∀ k p, Spec.rngAfter (⟨t, p⟩ : TapeRng n) k = ⟨t, p + k⟩
  | 0, _ => rfl
  | k + 1, p => by
    rw [Spec.rngAfter]
    show Spec.rngAfter (⟨t, p + 1⟩ : TapeRng n) k = _
    rw [rngAfter_eq t k]
    congr 1
    omega

theorem block_eq {n : ℕ} (t : Tape n) (k : Fin n) :
    Spec.block (⟨t, 0⟩ : TapeRng n) k = List.ofFn (t k) := by
  rw [Spec.block, rngAfter_eq]
  show (if h : 0 + (k : ℕ) < n ∧ 32 = 32 then List.ofFn (t ⟨0 + k, h.1⟩) else _) = _
  rw [dif_pos ⟨by omega, rfl⟩]
  congr 2
  exact Fin.ext (by simp)

theorem run_iff {n : ℕ} (t : Tape n) (P : G) :
    run G t = some P ↔ ∃ k, (∀ j < k, ¬ Spec.Acceptable G (List.ofFn (t j))) ∧
      P ≠ basepoint G ∧ List.ofFn (t k) = enc P := by
  rw [run, Option.map_eq_some_iff]
  constructor
  · rintro ⟨⟨p, r'⟩, h, rfl⟩
    obtain ⟨k, hk, h1, h2, h3, -⟩ := (C48_result_iff _ _ _ _).1 h
    refine ⟨⟨k, hk⟩, fun j hj => ?_, h2, ?_⟩
    · rw [← block_eq]; exact h1 j hj
    · rw [← block_eq]; exact h3
  · rintro ⟨k, h1, h2, h3⟩
    refine ⟨(⟨basepoint G, P⟩, _), (C48_result_iff _ _ _ _).2 ⟨k, k.2, fun j hj => ?_, h2, ?_, rfl,
      rfl⟩, rfl⟩
    · have := h1 ⟨j, by omega⟩ hj
      rwa [← block_eq] at this
    · rw [block_eq]; exact h3

theorem run_none_iff {n : ℕ} (t : Tape n) :
    run G t = none ↔ ∀ k, ¬ Spec.Acceptable G (List.ofFn (t k)) := by
  constructor
  · intro h
    by_contra hc
    push Not at hc
    classical
    have hex : ∃ m : ℕ, ∃ hm : m < n, Spec.Acceptable G (List.ofFn (t ⟨m, hm⟩)) := by
      obtain ⟨k, hk⟩ := hc
      exact ⟨k, k.2, hk⟩
    obtain ⟨hm, P, h1, h2⟩ := Nat.find_spec hex
    have := (run_iff t P).2 ⟨⟨Nat.find hex, hm⟩, fun j hj ha => Nat.find_min hex hj ⟨j.2, ha⟩, h1, h2⟩
    rw [h] at this
    cases this
  · intro h
    by_contra hc
    obtain ⟨P, hP⟩ := Option.ne_none_iff_exists'.1 hc
    obtain ⟨k, -, h1, h2⟩ := (run_iff t P).1 hP
    exact h k ⟨P, h1, h2⟩

/-- The block that encodes an element. -/
def encBlock (P : G) : Block := fun i => (enc P)[i]'(by rw [enc_length]; exact i.2)

theorem ofFn_encBlock (P : G) : List.ofFn (encBlock P) = enc P := by
  apply List.ext_getElem
  · simp
  · intro i h1 h2
    rw [List.getElem_ofFn]
    rfl

theorem ofFn_eq_enc {b : Block} {P : G} : List.ofFn b = enc P ↔ b = encBlock P := by
  rw [← ofFn_encBlock, List.ofFn_inj]

theorem encBlock_inj : Function.Injective (encBlock (G := G)) := fun P Q h => by
  have := ofFn_encBlock P
  rw [h, ofFn_encBlock] at this
  exact (enc_inj this).symm

/-! ## Uniformity -/

theorem accept_swap {P Q : G} (hP : P ≠ basepoint G) (hQ : Q ≠ basepoint G) (b : Block)
    [DecidableEq Block] :
    Spec.Acceptable G (List.ofFn (Equiv.swap (encBlock P) (encBlock Q) b)) ↔
      Spec.Acceptable G (List.ofFn b) := by
  rcases eq_or_ne b (encBlock P) with rfl | h1
  · rw [Equiv.swap_apply_left]
    exact ⟨fun _ => ⟨P, hP, ofFn_encBlock P⟩, fun _ => ⟨Q, hQ, ofFn_encBlock Q⟩⟩
  · rcases eq_or_ne b (encBlock Q) with rfl | h2
    · rw [Equiv.swap_apply_right]
      exact ⟨fun _ => ⟨Q, hQ, ofFn_encBlock Q⟩, fun _ => ⟨P, hP, ofFn_encBlock P⟩⟩
    · rw [Equiv.swap_apply_of_ne_of_ne h1 h2]

theorem run_swap {n : ℕ} {P Q : G} (hP : P ≠ basepoint G) (hQ : Q ≠ basepoint G) (t : Tape n)
    [DecidableEq Block] (h : run G t = some P) :
    run G (fun k => Equiv.swap (encBlock P) (encBlock Q) (t k)) = some Q := by
  obtain ⟨k, h1, -, h3⟩ := (run_iff t P).1 h
  refine (run_iff _ _).2 ⟨k, fun j hj => ?_, hQ, ?_⟩
  · rw [accept_swap hP hQ]; exact h1 j hj
  · rw [ofFn_eq_enc.1 h3, Equiv.swap_apply_left, ofFn_encBlock]

/-- **C73.** All elements other than the base point are equally likely to become `h`; the base point
never does. -/
theorem C73_uniform (n : ℕ) {P Q : G} (hP : P ≠ basepoint G) (hQ : Q ≠ basepoint G) :
    Nat.card {t : Tape n // run G t = some P} = Nat.card {t : Tape n // run G t = some Q} ∧
      Nat.card {t : Tape n // run G t = some (basepoint G)} = 0 := by
  classical
  constructor
  · refine Nat.card_congr ⟨fun t => ⟨_, run_swap hP hQ t.1 t.2⟩, fun t => ⟨_, run_swap hQ hP t.1 t.2⟩,
      fun t => Subtype.ext (funext fun k => ?_), fun t => Subtype.ext (funext fun k => ?_)⟩
    · show Equiv.swap (encBlock Q) (encBlock P) (Equiv.swap (encBlock P) (encBlock Q) (t.1 k)) = _
      rw [Equiv.swap_comm, Equiv.swap_apply_self]
    · show Equiv.swap (encBlock P) (encBlock Q) (Equiv.swap (encBlock Q) (encBlock P) (t.1 k)) = _
      rw [Equiv.swap_comm, Equiv.swap_apply_self]
  · rw [Nat.card_eq_zero]
    left
    refine ⟨fun t => ?_⟩
    obtain ⟨-, -, h, -⟩ := (run_iff _ _).1 t.2
    exact h rfl

/-! ## Time -/

theorem card_byte : Nat.card UInt8 = 256 := by
  rw [Nat.card_congr (⟨UInt8.toFin, UInt8.ofFin, fun _ => rfl, fun _ => rfl⟩ : UInt8 ≃ Fin 256),
    Nat.card_eq_fintype_card, Fintype.card_fin]

instance : Finite UInt8 := Nat.finite_of_card_ne_zero (by rw [card_byte]; norm_num)

theorem card_block : Nat.card Block = 2 ^ 256 := by
  rw [Nat.card_fun, card_byte, Nat.card_eq_fintype_card, Fintype.card_fin]
  norm_num

theorem card_G : Nat.card G = ell := by
  rw [← Nat.card_zmod ell]
  symm
  apply Nat.card_congr
  refine Equiv.ofBijective (fun s : F => s • basepoint G) ⟨fun s t h => ?_, fun P => ?_⟩
  · exact (smul_right_inj' (Ristretto.base_ne (G := G))).1 h
  · obtain ⟨s, hs⟩ := Ristretto.gen P
    exact ⟨s, hs.symm⟩

instance finite_G : Finite G := Nat.finite_of_card_ne_zero (by rw [card_G]; exact ell_pos.ne')

theorem card_accept :
    {b : Block | Spec.Acceptable G (List.ofFn b)}.ncard = ell - 1 := by
  have : {b : Block | Spec.Acceptable G (List.ofFn b)} = encBlock '' {P : G | P ≠ basepoint G} := by
    ext b
    constructor
    · rintro ⟨P, h1, h2⟩
      exact ⟨P, h1, (ofFn_eq_enc.1 h2).symm⟩
    · rintro ⟨P, h1, rfl⟩
      exact ⟨P, h1, ofFn_encBlock P⟩
  rw [this, Set.ncard_image_of_injective _ encBlock_inj]
  have h := Set.ncard_add_ncard_compl {basepoint G}
  rw [Set.ncard_singleton, card_G] at h
  have e : {P : G | P ≠ basepoint G} = {basepoint G}ᶜ := rfl
  rw [e]
  omega

/-- **C73.** More than `n` draws are needed with probability exactly
`(1 - (ell - 1) / 2^256) ^ n`. -/
theorem C73_draws (n : ℕ) :
    Nat.card {t : Tape n // run G t = none} =
      (2 ^ 256 - (2 ^ 252 + 27742317777372353535851937790883648492)) ^ n := by
  have e : Nat.card {t : Tape n // run G t = none} =
      Nat.card (Fin n → {b : Block // ¬ Spec.Acceptable G (List.ofFn b)}) := by
    apply Nat.card_congr
    refine (Equiv.subtypeEquivRight fun t => run_none_iff t).trans ?_
    exact Equiv.subtypePiEquivPi (p := fun _ b => ¬ Spec.Acceptable G (List.ofFn b))
  rw [e, Nat.card_fun, Nat.card_eq_fintype_card (α := Fin n), Fintype.card_fin]
  congr 1
  have h := Set.ncard_add_ncard_compl {b : Block | Spec.Acceptable G (List.ofFn b)}
  rw [card_accept, card_block] at h
  have h2 : Nat.card {b : Block // ¬ Spec.Acceptable G (List.ofFn b)} =
      {b : Block | Spec.Acceptable G (List.ofFn b)}ᶜ.ncard := rfl
  have h3 : ell - 1 = 2 ^ 252 + 27742317777372353535851937790883648492 := rfl
  rw [h2, ← h3]
  omega

/-- **C73.** Each draw succeeds with probability at least 1/16: `n` draws are not enough with
probability at most `(15/16)^n`. -/
theorem C73_bound (n : ℕ) :
    Nat.card {t : Tape n // run G t = none} * 16 ^ n ≤ 15 ^ n * Nat.card (Tape n) := by
  rw [C73_draws, Nat.card_fun, card_block, Nat.card_eq_fintype_card, Fintype.card_fin, ← mul_pow,
    ← mul_pow]
  exact Nat.pow_le_pow_left (by norm_num) n

/-- **C73.** 1500 draws are not enough with probability less than `2^-128`. -/
theorem C73_fast :
    Nat.card {t : Tape 1500 // run G t = none} * 2 ^ 128 < Nat.card (Tape 1500) := by
  have h := C73_bound (G := G) 1500
  have h0 : 0 < Nat.card (Tape 1500) := Nat.card_pos
  have h1 : 15 ^ 1500 * 2 ^ 128 < 16 ^ 1500 := by decide +kernel
  generalize Nat.card (Tape 1500) = T at *
  generalize Nat.card {t : Tape 1500 // run G t = none} = N at *
  generalize 15 ^ 1500 = a at *
  generalize 16 ^ 1500 = b at *
  have h2 : N * 2 ^ 128 * b < T * b := by
    calc N * 2 ^ 128 * b = N * b * 2 ^ 128 := by ring
      _ ≤ a * T * 2 ^ 128 := Nat.mul_le_mul_right _ h
      _ = T * (a * 2 ^ 128) := by ring
      _ < T * b := Nat.mul_lt_mul_of_pos_left h1 h0
  exact Nat.lt_of_mul_lt_mul_right h2

/-- **C73.** The probability of each value: the runs that end are divided evenly among the elements
other than the base point. -/
theorem C73_exact (n : ℕ) {P : G} (hP : P ≠ basepoint G) :
    (2 ^ 252 + 27742317777372353535851937790883648492) * Nat.card {t : Tape n // run G t = some P} +
      Nat.card {t : Tape n // run G t = none} = Nat.card (Tape n) := by
  classical
  have : Fintype G := Fintype.ofFinite G
  have : Fintype (Tape n) := Fintype.ofFinite _
  have h := Finset.card_eq_sum_card_fiberwise (s := (Finset.univ : Finset (Tape n)))
    (t := (Finset.univ : Finset (Option G))) (f := run G) (by intro; simp)
  have hc : ∀ o : Option G, (Finset.univ.filter fun t : Tape n => run G t = o).card =
      Nat.card {t : Tape n // run G t = o} := fun o => by
    rw [Nat.card_eq_fintype_card, Fintype.card_subtype]
  simp only [hc] at h
  rw [Fintype.sum_option, ← Finset.add_sum_erase _ _ (Finset.mem_univ (basepoint G)),
    (C73_uniform n hP hP).2, zero_add, Finset.sum_congr rfl (g := fun _ =>
      Nat.card {t : Tape n // run G t = some P}) (fun Q hQ =>
        (C73_uniform n (Finset.ne_of_mem_erase hQ) hP).1), Finset.sum_const,
    Finset.card_erase_of_mem (Finset.mem_univ _), Finset.card_univ, Finset.card_univ,
    ← Nat.card_eq_fintype_card, ← Nat.card_eq_fintype_card, card_G (G := G), smul_eq_mul] at h
  have h3 : ell - 1 = 2 ^ 252 + 27742317777372353535851937790883648492 := rfl
  rw [← h3, h, add_comm]

/-- The identity is an element other than the base point, and one block suffices to get it. -/
example : (0 : F) ≠ basepoint F ∧ run F (fun _ : Fin 1 => encBlock (0 : F)) = some 0 :=
  ⟨Ristretto.base_ne.symm, (run_iff _ _).2 ⟨0, fun j hj => absurd hj (Fin.not_lt_zero j),
    Ristretto.base_ne.symm, ofFn_encBlock _⟩⟩

/-- A run that does not end within its blocks. -/
example : run F (fun _ : Fin 3 => encBlock (basepoint F)) = none :=
  (run_none_iff _).2 fun k => by
    rintro ⟨P, h1, h2⟩
    rw [ofFn_encBlock, enc_inj_iff] at h2
    exact h1 h2.symm

end Hunt

end Verif
