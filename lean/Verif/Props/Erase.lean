import Verif.Model.Memory

/-!
# Erasure of secrets (C59)
-/

namespace Verif

/-- The address lies in a region of `n` bytes at `p`. -/
def Spec.In (a p n : ℕ) : Prop := p ≤ a ∧ a < p + n

instance (a p n : ℕ) : Decidable (Spec.In a p n) := inferInstanceAs (Decidable (_ ∧ _))

theorem clearScalar_cell (m : Mem) (p a : ℕ) :
    m.clearScalar p a = if Spec.In a p 32 then some 0 else m a := by
  simp only [Mem.clearScalar, Mem.write, List.length_replicate]
  by_cases h : Spec.In a p 32
  · rw [if_pos h, if_pos (show p ≤ a ∧ a < p + 32 from h), List.getElem?_replicate, if_pos (by have := h.2; omega)]
  · rw [if_neg h, if_neg (show ¬ (p ≤ a ∧ a < p + 32) from h)]

theorem clearScalars_cell : ∀ (n : ℕ) (m : Mem) (p a : ℕ),
    m.clearScalars p n a = if Spec.In a p (32 * n) then some 0 else m a
  | 0, m, p, a => by
    rw [if_neg (by simp only [Spec.In]; omega)]
    rfl
  | n + 1, m, p, a => by
    rw [Mem.clearScalars, clearScalars_cell n, clearScalar_cell]
    have hI : Spec.In a p (32 * (n + 1)) ↔ Spec.In a (p + 32) (32 * n) ∨ Spec.In a p 32 := by
      simp only [Spec.In]
      omega
    by_cases h1 : Spec.In a (p + 32) (32 * n)
    · rw [if_pos h1, if_pos (hI.2 (.inl h1))]
    · rw [if_neg h1]
      by_cases h2 : Spec.In a p 32
      · rw [if_pos h2, if_pos (hI.2 (.inr h2))]
      · rw [if_neg h2, if_neg fun h => (hI.1 h).elim h1 h2]

/-- Dropping an amacs `SecretKey`, wherever it is stored and however many scalars it has: every byte
of every secret scalar is zero afterwards, and no other byte of memory changes. -/
theorem C59_mac_key (m : Mem) (px0 pxn n a : ℕ) :
    (Spec.In a px0 32 ∨ Spec.In a pxn (32 * n) → m.dropMacSecretKey px0 pxn n a = some 0) ∧
    (¬ Spec.In a px0 32 ∧ ¬ Spec.In a pxn (32 * n) → m.dropMacSecretKey px0 pxn n a = m a) := by
  rw [Mem.dropMacSecretKey, clearScalars_cell, clearScalar_cell]
  constructor
  · rintro (h | h)
    · rw [if_pos h]
      split <;> rfl
    · rw [if_pos h]
  · rintro ⟨h1, h2⟩
    rw [if_neg h2, if_neg h1]

/-- The same for the single-scalar secrets: elgamal `SecretKey`, `Ephemeral`, `Rerandomization`. -/
theorem C59_scalar (m : Mem) (p a : ℕ) :
    (Spec.In a p 32 → m.dropScalar p a = some 0) ∧ (¬ Spec.In a p 32 → m.dropScalar p a = m a) := by
  rw [Mem.dropScalar, clearScalar_cell]
  exact ⟨fun h => if_pos h, fun h => if_neg h⟩

/-- The same for `Nonces` of any size. -/
theorem C59_nonces (m : Mem) (p n a : ℕ) :
    (Spec.In a p (32 * n) → m.dropNonces p n a = some 0) ∧
    (¬ Spec.In a p (32 * n) → m.dropNonces p n a = m a) := by
  rw [Mem.dropNonces, clearScalars_cell, clearScalars_cell]
  constructor
  · intro h
    rw [if_pos h]
  · intro h
    rw [if_neg h, if_neg h]

/-- What a reader of the region sees. -/
theorem read_of_cells : ∀ {n : ℕ} {m : Mem} {p : ℕ} (_ : ∀ a, Spec.In a p n → m a = some 0),
    m.read p n = some (List.replicate n 0)
  | 0, _, _, _ => rfl
  | n + 1, m, p, h => by
    rw [Mem.read, h p ⟨by omega, by omega⟩,
      read_of_cells (n := n) (p := p + 1) fun a ha => h a ⟨by have := ha.1; omega, by
        have := ha.2; omega⟩]
    rfl

/-- So every scalar of a dropped key reads as the number zero. -/
theorem C59_reads_zero (m : Mem) (px0 pxn n i : ℕ) (hi : i < n) :
    (m.dropMacSecretKey px0 pxn n).read px0 32 = some (Scalar.toBytes 0) ∧
    (m.dropMacSecretKey px0 pxn n).read (pxn + 32 * i) 32 = some (Scalar.toBytes 0) := by
  have h0 : Scalar.toBytes 0 = List.replicate 32 0 := by decide +kernel
  rw [h0]
  constructor
  · exact read_of_cells fun a ha => (C59_mac_key m px0 pxn n a).1 (.inl ha)
  · refine read_of_cells fun a ha => (C59_mac_key m px0 pxn n a).1 (.inr ?_)
    obtain ⟨h1, h2⟩ := ha
    exact ⟨by omega, by omega⟩

/-- A key `(x0, x1) = (7, 9)` stored at 100 and 200: the secret bytes are there before the drop and
gone after it, while the byte at 300 is untouched. -/
example :
    let m : Mem := Mem.write (Mem.write (Mem.write (fun _ => none) 100
      (Scalar.toBytes ⟨7, by norm_num⟩)) 200 (Scalar.toBytes ⟨9, by norm_num⟩)) 300 [42]
    m 100 = some 7 ∧ m 200 = some 9 ∧ m.dropMacSecretKey 100 200 1 100 = some 0 ∧
      m.dropMacSecretKey 100 200 1 200 = some 0 ∧ m.dropMacSecretKey 100 200 1 300 = some 42 := by
  decide +kernel

end Verif
