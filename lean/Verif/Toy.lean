import Verif.Merlin

/-!
# A concrete instance of the external assumptions

The additive group of `ZMod ell` with the little-endian encoding satisfies every field of
`Ristretto`; `toyOracle` and the counter RNG are concrete transcripts and randomness. They are used
only by `example`s that show hypotheses can be met, and by counterexample theorems.
-/

namespace Verif

instance : Ristretto F where
  base := 1
  base_ne := one_ne_zero
  gen P := ⟨P, by simp⟩
  enc P := leBytes 32 P.val
  dec b := if b.length = 32 ∧ leVal b < ell then some (leVal b : F) else none
  enc_length P := leBytes_length _ _
  dec_enc P := by
    have h1 : P.val < ell := ZMod.val_lt P
    have h2 : P.val < 256 ^ 32 := lt_trans h1 (by norm_num [ell])
    rw [leVal_leBytes_of_lt h2, if_pos ⟨leBytes_length _ _, h1⟩, ZMod.natCast_zmod_val]
  enc_of_dec b P h := by
    split at h
    · rename_i hb
      cases h
      rw [ZMod.val_natCast, Nat.mod_eq_of_lt hb.2]
      conv_lhs => rw [← hb.1]
      exact leBytes_leVal b
    · cases h
  enc_zero := by
    rw [ZMod.val_zero, leBytes_zero]

/-- A hash that counts operations. -/
def toyOracle : Oracle where
  chal t _ n := leBytes n (t.length + 1)
  chal_length _ _ _ := leBytes_length _ _
  rng t w e d n := leBytes n (leVal e + 3 * t.length + 5 * w.length + 7 * d.length + 1)
  rng_length _ _ _ _ _ := leBytes_length _ _

/-- A counter. -/
structure ToyRng where
  ctr : ℕ
  deriving DecidableEq

instance : RngCore ToyRng where
  fill r n := (leBytes n (r.ctr + 1), ⟨r.ctr + 1⟩)
  fill_length _ _ := leBytes_length _ _

end Verif
