import Mathlib.Probability.Distributions.Uniform
import Verif.Group

/-!
# Uniform distributions
-/

namespace Verif

theorem uniform_map_equiv {α β : Type} [Fintype α] [Nonempty α] [Fintype β] [Nonempty β] (e : α ≃ β) :
    (PMF.uniformOfFintype α).map e = PMF.uniformOfFintype β := by
  ext b
  rw [PMF.map_apply, tsum_eq_single (e.symm b)]
  · simp [Fintype.card_congr e]
  · intro a ha
    rw [if_neg]
    rintro rfl
    simp at ha

/-- Two functions that agree after a permutation of the randomness have the same distribution. -/
theorem uniform_map_eq {α β γ : Type} [Fintype α] [Nonempty α] [Fintype β] [Nonempty β]
    (e : α ≃ β) (f : α → γ) (g : β → γ)
    (h : ∀ a, f a = g (e a)) : (PMF.uniformOfFintype α).map f = (PMF.uniformOfFintype β).map g := by
  rw [← uniform_map_equiv e, PMF.map_comp]
  congr 1
  funext a
  exact h a

end Verif
