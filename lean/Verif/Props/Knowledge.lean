import Verif.Lemmas.Forking
import Verif.Props.NizkQuery
import Verif.Props.Params
import Verif.Props.Reveal
import Verif.Props.Soundness

/-!
# Proofs of knowledge, by rewinding (C78)

The hash is a random oracle: an answer to a new query is 64 fresh uniform bytes. A prover is any function
from its coins and the answers so far to the next query, and at the end to an output. If the output is
accepted with probability `ε`, then running the prover again with new answers from the deciding query on
gives two proofs from which the declared secrets are computed, with probability at least
`ε²/(q+1) - ε/2^252`, where `q` is the number of hash queries of the prover.
-/

set_option maxRecDepth 100000

namespace Verif

variable {G : Type} [AddCommGroup G] [Module F G] [Ristretto G]

/-! ## The experiment -/

/-- An answer of the hash to `challenge_bytes("chal", 64)`. -/
abbrev Spec.Answer := {b : Bytes // b.length = 64}

/-- What has been asked so far, with the answers, oldest first. -/
abbrev Spec.HashLog := List (Transcript × Spec.Answer)

/-- A prover with coins `Ω`. What it asks and what it returns may depend on the coins and on the answers so
far in any way. It may stand for several parties: their queries are then counted together. -/
structure Spec.Prover (Ω Out : Type) where
  ask : Ω → List Spec.Answer → Transcript
  out : Ω → List Spec.Answer → Out

/-- The random oracle is asked `t`: an old query gets the old answer, a new one gets the fresh answer `a`. -/
def Spec.HashLog.asked (l : Spec.HashLog) (t : Transcript) (a : Spec.Answer) : Spec.HashLog :=
  l ++ [(t, (l.lookup t).getD a)]

/-- The `n`-th fresh answer. -/
def Spec.fresh {Q : ℕ} (h : Fin Q → Spec.Answer) (n : ℕ) : Spec.Answer :=
  if hn : n < Q then h ⟨n, hn⟩ else ⟨List.replicate 64 0, rfl⟩

/-- The first `n` queries. -/
def Spec.queries (ask : List Spec.Answer → Transcript) {Q : ℕ} (h : Fin Q → Spec.Answer) :
    ℕ → Spec.HashLog
  | 0 => []
  | n + 1 =>
    let l := Spec.queries ask h n
    l.asked (ask (l.map Prod.snd)) (Spec.fresh h n)

/-- The hash that gives the logged answers, and is `O` elsewhere. -/
def Spec.HashLog.oracle (O : Oracle) (l : Spec.HashLog) : Oracle where
  chal t lbl n := match l.lookup t with
    | some b => if lbl = "chal" ∧ n = 64 then b.1 else O.chal t lbl n
    | none => O.chal t lbl n
  chal_length t lbl n := by
    split
    · split
      · rename_i b _ h
        rw [b.2, h.2]
      · exact O.chal_length _ _ _
    · exact O.chal_length _ _ _
  rng := O.rng
  rng_length := O.rng_length

namespace Spec.Prover

variable {Ω Out : Type} (A : Spec.Prover Ω Out) (q k : ℕ) (query : ℕ → Out → Transcript)

/-- What is asked: first the `q` queries of the prover, then the queries `query 0`, `query 1`, … that the
verification of its output makes. -/
def asks (ω : Ω) (as : List Spec.Answer) : Transcript :=
  if as.length < q then A.ask ω as else query (as.length - q) (A.out ω (as.take q))

/-- All queries of a run in which the verification makes `k` queries. -/
def log (ω : Ω) (h : Fin (q + k) → Spec.Answer) : Spec.HashLog :=
  Spec.queries (A.asks q query ω) h (q + k)

/-- What the prover returns. -/
def output (ω : Ω) (h : Fin (q + k) → Spec.Answer) : Out :=
  A.out ω ((Spec.queries (A.ask ω) h q).map Prod.snd)

/-- The hash of this run. -/
def world (O : Oracle) (ω : Ω) (h : Fin (q + k) → Spec.Answer) : Oracle :=
  (A.log q k query ω h).oracle O

/-- When the `i`-th query of the verification was asked first. -/
def forkAt (i : ℕ) (ω : Ω) (h : Fin (q + k) → Spec.Answer) : ℕ :=
  (A.log q k query ω h).findIdx fun e => e.1 = query i (A.output q k ω h)

/-- The second tape: new answers from that query on. -/
def retape (i : ℕ) (ω : Ω) (h h' : Fin (q + k) → Spec.Answer) : Fin (q + k) → Spec.Answer :=
  Spec.splice (A.forkAt q k query i ω h) h h'

end Spec.Prover

/-! ## Facts about logs -/

namespace Knowledge

instance : Finite Spec.Answer := Finite.of_equiv _ (bytesEquiv 64).symm
instance : Nonempty Spec.Answer := ⟨⟨List.replicate 64 0, rfl⟩⟩

theorem card_answer : Nat.card Spec.Answer = 2 ^ 512 := by
  rw [Nat.card_congr (bytesEquiv 64), show (2 : ℕ) ^ 512 = 256 ^ 64 by
    rw [show (256 : ℕ) = 2 ^ 8 from rfl, ← pow_mul]]
  rw [Nat.card_congr (Fin.equivSubtype (n := 256 ^ 64)).symm, Nat.card_eq_fintype_card, Fintype.card_fin]

theorem card_hits (d : F) :
    Nat.card {c : Spec.Answer // (leVal c.1 : F) = d} = Spec.hits (Scalar.ofF d) := by
  rw [Spec.hits]
  refine Nat.card_congr ((Equiv.subtypeSubtypeEquivSubtypeInter (fun b : Bytes => b.length = 64)
    (fun b => (leVal b : F) = d)).trans (Equiv.subtypeEquivRight fun b => and_congr_right fun _ => ?_))
  constructor
  · intro h
    rw [Scalar.fromWide, h]
  · intro h
    have := congrArg Scalar.val h
    rwa [Scalar.fromWide, Scalar.val_ofF, Scalar.val_ofF] at this

/-- Two answers give the same challenge with probability at most `2^-252`. -/
theorem collision (d : F) : Spec.prob (fun c : Spec.Answer => (leVal c.1 : F) = d) ≤ 1 / 2 ^ 252 := by
  have h1 := card_hits d
  have h2 : Spec.hits (Scalar.ofF d) ≤ 2 ^ 512 / ell + 1 := by
    rw [C50_count (Scalar.reduced_ofF d)]
    split <;> omega
  have h3 : 2 ^ 512 / ell + 1 ≤ 2 ^ 260 := by decide +kernel
  unfold Spec.prob
  rw [h1, card_answer]
  have h4 : ((Spec.hits (Scalar.ofF d) : ℕ) : ℚ) ≤ 2 ^ 260 := by exact_mod_cast h2.trans h3
  rw [show ((2 ^ 512 : ℕ) : ℚ) = 2 ^ 512 from Nat.cast_pow 2 512]
  rw [div_le_div_iff₀ (by positivity) (by positivity), one_mul]
  calc _ ≤ (2 : ℚ) ^ 260 * 2 ^ 252 := by gcongr
    _ = 2 ^ 512 := by rw [← pow_add]

section
variable {Q : ℕ} (ask : List Spec.Answer → Transcript) (h h' : Fin Q → Spec.Answer)

theorem queries_length : ∀ n, (Spec.queries ask h n).length = n
  | 0 => rfl
  | n + 1 => by simp [Spec.queries, Spec.HashLog.asked, queries_length n]

theorem queries_agree : ∀ n, (∀ i < n, Spec.fresh h i = Spec.fresh h' i) →
    Spec.queries ask h n = Spec.queries ask h' n
  | 0, _ => rfl
  | n + 1, e => by
    simp only [Spec.queries, queries_agree n fun i hi => e i (by omega), e n (by omega)]

theorem queries_getElem? (n m : ℕ) (hm : n < m) : (Spec.queries ask h m)[n]? =
    some (ask ((Spec.queries ask h n).map Prod.snd),
      ((Spec.queries ask h n).lookup (ask ((Spec.queries ask h n).map Prod.snd))).getD
        (Spec.fresh h n)) := by
  induction m with
  | zero => omega
  | succ m ih =>
    rw [Spec.queries]
    simp only [Spec.HashLog.asked]
    rcases Nat.lt_or_ge n m with h1 | h1
    · rw [List.getElem?_append_left (by rw [queries_length]; exact h1), ih h1]
    · obtain rfl : n = m := by omega
      rw [List.getElem?_append_right (by rw [queries_length])]
      simp [queries_length]

theorem queries_take (n m : ℕ) (hm : n ≤ m) : (Spec.queries ask h m).take n = Spec.queries ask h n := by
  induction m with
  | zero => simp [Nat.le_zero.1 hm, Spec.queries]
  | succ m ih =>
    rcases Nat.lt_or_ge n (m + 1) with h1 | h1
    · rw [Spec.queries]
      simp only [Spec.HashLog.asked]
      rw [List.take_append_of_le_length (by rw [queries_length]; omega), ih (by omega)]
    · obtain rfl : n = m + 1 := by omega
      rw [List.take_of_length_le (by rw [queries_length])]

/-- Only the first `q` questions matter for the first `q` questions. -/
theorem queries_congr {ask' : List Spec.Answer → Transcript} {q : ℕ}
    (e : ∀ as : List Spec.Answer, as.length < q → ask as = ask' as) :
    ∀ n ≤ q, Spec.queries ask h n = Spec.queries ask' h n
  | 0, _ => rfl
  | n + 1, hn => by
    simp only [Spec.queries, queries_congr e n (by omega)]
    rw [e]
    simp only [List.length_map, queries_length]
    omega

end

theorem lookup_none {l : Spec.HashLog} {t : Transcript} (h : ∀ e ∈ l, e.1 ≠ t) : l.lookup t = none := by
  induction l with
  | nil => rfl
  | cons e l ih =>
    obtain ⟨t', a⟩ := e
    rw [List.lookup_cons, show (t == t') = false from beq_eq_false_iff_ne.2
      (Ne.symm (h _ List.mem_cons_self))]
    exact ih fun e he => h e (List.mem_cons_of_mem _ he)

theorem lookup_findIdx {l : Spec.HashLog} {t : Transcript} {j : ℕ} {a : Spec.Answer}
    (hj : l.findIdx (fun e => decide (e.1 = t)) = j) (ha : l[j]? = some (t, a)) : l.lookup t = some a := by
  subst hj
  induction l with
  | nil => simp at ha
  | cons e l ih =>
    obtain ⟨t', a'⟩ := e
    rw [List.findIdx_cons] at ha
    rw [List.lookup_cons]
    by_cases h : t' = t
    · subst h
      simpa using ha
    · rw [show (t == t') = false from beq_eq_false_iff_ne.2 (Ne.symm h)]
      refine ih ?_
      simpa [h] using ha

variable {Ω Out : Type} (A : Spec.Prover Ω Out) (q k : ℕ) (query : ℕ → Out → Transcript)

theorem queries_eq {Q : ℕ} (ω : Ω) (h : Fin Q → Spec.Answer) :
    Spec.queries (A.ask ω) h q = Spec.queries (A.asks q query ω) h q :=
  queries_congr _ _ (fun as has => by rw [Spec.Prover.asks, if_pos has]) q le_rfl

theorem log_length (ω : Ω) (h : Fin (q + k) → Spec.Answer) : (A.log q k query ω h).length = q + k :=
  queries_length _ _ _

/-- The verification queries are asked. -/
theorem log_check {i : ℕ} (hi : i < k) (ω : Ω) (h : Fin (q + k) → Spec.Answer) :
    ∃ a, (A.log q k query ω h)[q + i]? = some (query i (A.output q k ω h), a) := by
  rw [Spec.Prover.log, queries_getElem? _ _ (q + i) (q + k) (by omega)]
  refine ⟨_, congrArg some (Prod.ext ?_ rfl)⟩
  dsimp only
  rw [Spec.Prover.asks, if_neg (by simp [queries_length])]
  rw [← List.map_take, queries_take _ _ q (q + i) (by omega), ← queries_eq]
  simp only [List.length_map, queries_length, Nat.add_sub_cancel_left]
  rfl

theorem forkAt_lt {i : ℕ} (hi : i < k) (ω : Ω) (h : Fin (q + k) → Spec.Answer) :
    A.forkAt q k query i ω h < q + k := by
  obtain ⟨a, ha⟩ := log_check A q k query hi ω h
  have hl := log_length A q k query ω h
  rw [Spec.Prover.forkAt]
  conv_rhs => rw [← hl]
  rw [List.findIdx_lt_length]
  exact ⟨_, List.mem_of_getElem? ha, by simp⟩

/-- The deciding query was asked after the answers before it, and answered with the tape. -/
theorem forkAt_spec {i : ℕ} (hi : i < k) (ω : Ω) (h : Fin (q + k) → Spec.Answer) (O : Oracle) :
    query i (A.output q k ω h) = A.asks q query ω
      ((Spec.queries (A.asks q query ω) h (A.forkAt q k query i ω h)).map Prod.snd) ∧
    (A.world q k query O ω h).chal (query i (A.output q k ω h)) "chal" 64 =
      (h ⟨A.forkAt q k query i ω h, forkAt_lt A q k query hi ω h⟩).1 := by
  have hlt := forkAt_lt A q k query hi ω h
  have hget : (A.log q k query ω h)[_]? = _ :=
    queries_getElem? (A.asks q query ω) h (A.forkAt q k query i ω h) (q + k) hlt
  have hidx : A.forkAt q k query i ω h < (A.log q k query ω h).length := by rw [log_length]; exact hlt
  obtain ⟨_, hg⟩ := List.getElem?_eq_some_iff.1 hget
  have hkey := List.findIdx_getElem (xs := A.log q k query ω h)
    (p := fun e : Transcript × Spec.Answer => decide (e.1 = query i (A.output q k ω h))) (w := hidx)
  have hkey' : ((A.log q k query ω h)[A.forkAt q k query i ω h]).1 = query i (A.output q k ω h) :=
    of_decide_eq_true hkey
  rw [hg] at hkey'
  simp only at hkey'
  refine ⟨hkey'.symm, ?_⟩
  have hnone : (Spec.queries (A.asks q query ω) h (A.forkAt q k query i ω h)).lookup
      (query i (A.output q k ω h)) = none := by
    apply lookup_none
    intro e he
    rw [← queries_take (A.asks q query ω) h _ (q + k) hlt.le] at he
    obtain ⟨n, hn, rfl⟩ := List.mem_iff_getElem.1 he
    rw [List.length_take] at hn
    rw [List.getElem_take]
    have hn' : n < A.forkAt q k query i ω h := by omega
    have := List.not_of_lt_findIdx (xs := A.log q k query ω h)
      (p := fun e : Transcript × Spec.Answer => decide (e.1 = query i (A.output q k ω h))) (i := n) hn'
    have h5 : ¬ ((A.log q k query ω h)[n].1 = query i (A.output q k ω h)) := by simpa using this
    exact h5
  rw [hkey', hnone] at hget
  have := lookup_findIdx (l := A.log q k query ω h) rfl hget
  simp only [Spec.Prover.world, Spec.HashLog.oracle, this, and_self, if_true, Option.getD_none,
    Spec.fresh, dif_pos hlt]

theorem fresh_splice {Q : ℕ} (j : ℕ) (h h' : Fin Q → Spec.Answer) (i : ℕ) (hi : i < j) :
    Spec.fresh (Spec.splice j h h') i = Spec.fresh h i := by
  unfold Spec.fresh Spec.splice
  simp only [hi, if_true]

/-- A run that forks at the same place makes the same deciding query, and gets the new answer. -/
theorem same_query {i : ℕ} (hi : i < k) (ω : Ω) (h h' : Fin (q + k) → Spec.Answer) (O : Oracle)
    (e : A.forkAt q k query i ω (A.retape q k query i ω h h') = A.forkAt q k query i ω h)
    (hr : (leVal (h ⟨A.forkAt q k query i ω h, forkAt_lt A q k query hi ω h⟩).1 : F) ≠
      leVal (h' ⟨A.forkAt q k query i ω h, forkAt_lt A q k query hi ω h⟩).1) :
    query i (A.output q k ω (A.retape q k query i ω h h')) = query i (A.output q k ω h) ∧
    (leVal ((A.world q k query O ω h).chal (query i (A.output q k ω h)) "chal" 64) : F) ≠
      leVal ((A.world q k query O ω (A.retape q k query i ω h h')).chal
        (query i (A.output q k ω h)) "chal" 64) := by
  obtain ⟨a1, a2⟩ := forkAt_spec A q k query hi ω h O
  obtain ⟨b1, b2⟩ := forkAt_spec A q k query hi ω (A.retape q k query i ω h h') O
  have hq : query i (A.output q k ω (A.retape q k query i ω h h')) = query i (A.output q k ω h) := by
    rw [b1, a1, e]
    congr 2
    exact queries_agree _ _ _ _ fun i hi => fresh_splice _ _ _ _ hi
  refine ⟨hq, ?_⟩
  rw [a2, ← hq, b2]
  have e5 : A.retape q k query i ω h h'
      ⟨A.forkAt q k query i ω (A.retape q k query i ω h h'), forkAt_lt A q k query hi ω _⟩ =
      h' ⟨A.forkAt q k query i ω h, forkAt_lt A q k query hi ω h⟩ := by
    have : (⟨A.forkAt q k query i ω (A.retape q k query i ω h h'), forkAt_lt A q k query hi ω _⟩ :
      Fin (q + k)) = ⟨A.forkAt q k query i ω h, forkAt_lt A q k query hi ω h⟩ := Fin.ext e
    rw [this]
    simp [Spec.Prover.retape, Spec.splice]
  rw [e5]
  exact hr

/-- What a second run must give: accepted, the same `i`-th query and another challenge. -/
def Again (O : Oracle) (good : Oracle → Out → Prop) (i : ℕ) (ω : Ω)
    (h h' : Fin (q + k) → Spec.Answer) : Prop :=
  good (A.world q k query O ω (A.retape q k query i ω h h'))
    (A.output q k ω (A.retape q k query i ω h h')) ∧
  query i (A.output q k ω (A.retape q k query i ω h h')) = query i (A.output q k ω h) ∧
  (leVal ((A.world q k query O ω h).chal (query i (A.output q k ω h)) "chal" 64) : F) ≠
    leVal ((A.world q k query O ω (A.retape q k query i ω h h')).chal
      (query i (A.output q k ω h)) "chal" 64)

open Classical in
/-- Position of the deciding query of an accepted run. -/
noncomputable def position (O : Oracle) (good : Oracle → Out → Prop) {i : ℕ} (hi : i < k) (ω : Ω)
    (h : Fin (q + k) → Spec.Answer) : Option (Fin (q + k)) :=
  if good (A.world q k query O ω h) (A.output q k ω h) then
    some ⟨A.forkAt q k query i ω h, forkAt_lt A q k query hi ω h⟩ else none

theorem position_isSome (O : Oracle) (good : Oracle → Out → Prop) {i : ℕ} (hi : i < k) (ω : Ω)
    (h : Fin (q + k) → Spec.Answer) : (position A q k query O good hi ω h).isSome ↔
      good (A.world q k query O ω h) (A.output q k ω h) := by
  unfold position
  split <;> simp [*]

theorem position_again {O : Oracle} {good : Oracle → Out → Prop} {i : ℕ} {hi : i < k} {ω : Ω}
    {h h' : Fin (q + k) → Spec.Answer} {j : Fin (q + k)}
    (h1 : position A q k query O good hi ω h = some j)
    (h2 : position A q k query O good hi ω (Spec.splice j h h') = some j)
    (h3 : (leVal (h j).1 : F) ≠ leVal (h' j).1) :
    good (A.world q k query O ω h) (A.output q k ω h) ∧ Again A q k query O good i ω h h' := by
  simp only [position, Option.ite_none_right_eq_some, Option.some.injEq] at h1 h2
  obtain ⟨g1, rfl⟩ := h1
  obtain ⟨g2, e3⟩ := h2
  exact ⟨g1, g2, same_query A q k query hi ω h h' O (congrArg Fin.val e3) h3⟩

/-- Rewinding once: with the stated probability the second run is accepted too, with the same query and
another challenge. -/
theorem rewind [Finite Ω] [Nonempty Ω] (O : Oracle) (good : Oracle → Out → Prop) {i : ℕ} (hi : i < k)
    (ε : ℚ) (hε : ε = Spec.prob fun x : Ω × (Fin (q + k) → Spec.Answer) =>
      good (A.world q k query O x.1 x.2) (A.output q k x.1 x.2)) :
    ε ^ 2 / (q + k) - ε / 2 ^ 252 ≤
      Spec.prob fun x : Ω × (Fin (q + k) → Spec.Answer) × (Fin (q + k) → Spec.Answer) =>
        good (A.world q k query O x.1 x.2.1) (A.output q k x.1 x.2.1) ∧
          Again A q k query O good i x.1 x.2.1 x.2.2 := by
  have key := Fork.forking (position A q k query O good hi) (fun c => (leVal c.1 : F)) (1 / 2 ^ 252)
    collision
  simp only [position_isSome] at key
  rw [← hε] at key
  have e2 : ε ^ 2 / (q + k) - ε / 2 ^ 252 = ε ^ 2 / ((q + k : ℕ) : ℚ) - ε * (1 / 2 ^ 252) := by
    push_cast
    ring
  rw [e2]
  refine key.trans (Spec.prob_mono ?_)
  rintro ⟨ω, h, h'⟩ ⟨j, h1, h2, h3⟩
  exact position_again A q k query h1 h2 h3

/-- Rewinding the same run twice, to two of its verification queries. -/
theorem rewind_twice [Finite Ω] [Nonempty Ω] (O : Oracle) (good : Oracle → Out → Prop) {i j : ℕ}
    (hi : i < k) (hj : j < k)
    (ε : ℚ) (hε : ε = Spec.prob fun x : Ω × (Fin (q + k) → Spec.Answer) =>
      good (A.world q k query O x.1 x.2) (A.output q k x.1 x.2))
    (hbig : 4 * (q + k) / 2 ^ 252 ≤ ε) :
    ε / 2 * (ε / (4 * (q + k)) - 1 / 2 ^ 252) ^ 2 ≤
      Spec.prob fun x : Ω × (Fin (q + k) → Spec.Answer) × (Fin (q + k) → Spec.Answer) ×
          (Fin (q + k) → Spec.Answer) =>
        good (A.world q k query O x.1 x.2.1) (A.output q k x.1 x.2.1) ∧
          Again A q k query O good i x.1 x.2.1 x.2.2.1 ∧ Again A q k query O good j x.1 x.2.1 x.2.2.2 := by
  have hQ : 0 < q + k := by omega
  have hQ' : (0 : ℚ) < ((q + k : ℕ) : ℚ) := by exact_mod_cast hQ
  have key := Fork.double hQ (position A q k query O good hi) (position A q k query O good hj)
    (fun ω h => by rw [position_isSome, position_isSome]) (fun c => (leVal c.1 : F)) (1 / 2 ^ 252)
    collision ε (by simp only [position_isSome]; exact hε) (by
      rw [le_div_iff₀ (by positivity)]
      refine le_trans (le_of_eq ?_) hbig
      push_cast
      ring)
  push_cast at key
  refine key.trans (Spec.prob_mono ?_)
  rintro ⟨ω, h, h', h''⟩ ⟨j, k, h1, h2, ⟨h3, h4⟩, h5, h6⟩
  obtain ⟨g, a⟩ := position_again A q _ query h1 h3 h4
  exact ⟨g, a, (position_again A q _ query h2 h5 h6).2⟩

/-- A query at a place where it is new is answered with the tape. -/
theorem lookup_first {l : Spec.HashLog} {t : Transcript} {j : ℕ} {a : Spec.Answer}
    (ha : l[j]? = some (t, a)) (hn : ∀ e ∈ l.take j, e.1 ≠ t) : l.lookup t = some a := by
  induction l generalizing j with
  | nil => simp at ha
  | cons e l ih =>
    obtain ⟨t', a'⟩ := e
    rw [List.lookup_cons]
    cases j with
    | zero =>
      simp only [List.getElem?_cons_zero, Option.some.injEq, Prod.mk.injEq] at ha
      obtain ⟨rfl, rfl⟩ := ha
      simp
    | succ j =>
      rw [show (t == t') = false from beq_eq_false_iff_ne.2
        (Ne.symm (hn (t', a') (by simp)))]
      exact ih (by simpa using ha) fun e he => hn e (by simp [he])

variable {Ω Out : Type} (A : Spec.Prover Ω Out) (q k : ℕ) (query : ℕ → Out → Transcript)

/-- The answer to a new query of the prover. -/
theorem world_chal {j : ℕ} (hj : j < q) (O : Oracle) (ω : Ω) (h : Fin (q + k) → Spec.Answer)
    {t : Transcript} (ht : A.ask ω ((Spec.queries (A.ask ω) h j).map Prod.snd) = t)
    (hn : ∀ e ∈ Spec.queries (A.ask ω) h j, e.1 ≠ t) :
    (A.world q k query O ω h).chal t "chal" 64 = (h ⟨j, by omega⟩).1 := by
  have e : ∀ n ≤ q, Spec.queries (A.asks q query ω) h n = Spec.queries (A.ask ω) h n := fun n hn =>
    (queries_congr _ _ (fun as has => by rw [Spec.Prover.asks, if_pos has]) n hn).symm
  have hget := queries_getElem? (A.asks q query ω) h j (q + k) (by omega)
  have hask : A.asks q query ω ((Spec.queries (A.ask ω) h j).map Prod.snd) = t := by
    rw [Spec.Prover.asks, if_pos (by simpa [queries_length] using hj), ht]
  rw [e j hj.le, hask, lookup_none hn] at hget
  have := lookup_first hget (by rw [queries_take _ _ _ _ (by omega), e j hj.le]; exact hn)
  simp only [Spec.Prover.world, Spec.HashLog.oracle, Spec.Prover.log, this, and_self, if_true,
    Option.getD_none, Spec.fresh, dif_pos (show j < q + k by omega)]

theorem prob_one {α : Type} [Finite α] [Nonempty α] {E : α → Prop} (h : ∀ a, E a) : Spec.prob E = 1 := by
  have : Nat.card {a // E a} = Nat.card α :=
    Nat.card_congr (Equiv.subtypeUnivEquiv h)
  unfold Spec.prob
  rw [this, div_self]
  have := Nat.card_pos (α := α)
  positivity

end Knowledge

/-! ## The five proof systems -/

namespace IssuanceRevealed

/-- The hash query made when a proof is verified. -/
def hashed (label : String) (y : Publics G × Proof) : Transcript :=
  (Spec.Query.issuanceRevealed label y.1 (recommit y.1 y.2)).ops

/-- C78: who makes accepted proofs knows the secrets. -/
theorem C78_knowledge {Ω : Type} [Finite Ω] [Nonempty Ω] (O : Oracle) (label : String)
    (A : Spec.Prover Ω (Publics G × Proof)) (q : ℕ) (ε : ℚ)
    (hε : ε = Spec.prob fun x : Ω × (Fin (q + 1) → Spec.Answer) =>
      verify (A.world q 1 (fun _ => hashed label) O x.1 x.2) [.init label] (A.output q 1 x.1 x.2).2
        (A.output q 1 x.1 x.2).1 = true) :
    ε ^ 2 / (q + 1) - ε / 2 ^ 252 ≤
      Spec.prob fun x : Ω × (Fin (q + 1) → Spec.Answer) × (Fin (q + 1) → Spec.Answer) =>
        let y₁ := A.output q 1 x.1 x.2.1
        let y₂ := A.output q 1 x.1 (A.retape q 1 (fun _ => hashed label) 0 x.1 x.2.1 x.2.2)
        Spec.IssuanceRevealed y₁.1 (extract y₁.2 y₂.2) := by
  have key := Knowledge.rewind A q 1 (fun _ => hashed label) O
    (fun O y => verify O [.init label] y.2 y.1 = true) Nat.one_pos ε hε
  rw [Nat.cast_one] at key
  refine key.trans (Spec.prob_mono ?_)
  rintro ⟨ω, h, h'⟩ ⟨h1, h2, h3, h4⟩
  dsimp only at h1 h2 h3 h4 ⊢
  generalize A.output q 1 ω (A.retape q 1 (fun _ => hashed label) 0 ω h h') = y₂ at h2 h3 h4 ⊢
  generalize A.output q 1 ω h = y₁ at h1 h3 h4 ⊢
  obtain ⟨p₁, r₁⟩ := y₁
  obtain ⟨p₂, r₂⟩ := y₂
  have e := C32_injective h3
  simp only [Spec.Query.issuanceRevealed.injEq, true_and] at e
  obtain ⟨rfl, -⟩ := e
  exact C30_special_sound h1 h2 h3.symm h4

/-- The honest prover makes one query. -/
def honest (label : String) (p : Publics G) (s : Secrets) (rand : Randomnesses) :
    Spec.Prover Unit (Publics G × Proof) where
  ask _ _ := verifyTranscript [.init label] p (commitmentsOf p rand)
  out _ as := match as with
    | a :: _ => (p, ⟨Scalar.fromWide a.1, respond (Scalar.fromWide a.1) s rand⟩)
    | [] => (p, ⟨0, respond 0 s rand⟩)

/-- C78 is not empty: the honest prover is accepted with probability one, so that the bound is
`1/2 - 1/2^252`. -/
theorem C78_honest (O : Oracle) (label : String) {p : Publics G} {s : Secrets}
    (hs : Spec.IssuanceRevealed p s) (rand : Randomnesses) :
    (Spec.prob fun x : Unit × (Fin (1 + 1) → Spec.Answer) =>
      verify ((honest label p s rand).world 1 1 (fun _ => hashed label) O x.1 x.2) [.init label]
        ((honest label p s rand).output 1 1 x.1 x.2).2
        ((honest label p s rand).output 1 1 x.1 x.2).1 = true) = 1 := by
  apply Knowledge.prob_one
  rintro ⟨ω, h⟩
  have hw := Knowledge.world_chal (honest label p s rand) 1 1 (fun _ => hashed label) Nat.one_pos O ω h rfl
    (by simp [Spec.queries])
  have ho : (honest label p s rand).output 1 1 ω h =
      (p, ⟨Scalar.fromWide (h 0).1, respond (Scalar.fromWide (h 0).1) s rand⟩) := rfl
  dsimp only
  rw [ho]
  dsimp only
  rw [verify, recommit_respond hs, decide_eq_true_iff, getChallenge]
  exact congrArg Scalar.fromWide hw

end IssuanceRevealed

namespace AttributesBlinded

/-- The hash query made when a proof is verified. -/
def hashed (label : String) (y : Publics G × Proof) : Transcript :=
  (Spec.Query.attributesBlinded label y.1 (recommit y.1 y.2)).ops

/-- C78: who makes accepted proofs knows the secrets. -/
theorem C78_knowledge {Ω : Type} [Finite Ω] [Nonempty Ω] (O : Oracle) (label : String)
    (A : Spec.Prover Ω (Publics G × Proof)) (q : ℕ) (ε : ℚ)
    (hε : ε = Spec.prob fun x : Ω × (Fin (q + 1) → Spec.Answer) =>
      verify (A.world q 1 (fun _ => hashed label) O x.1 x.2) [.init label] (A.output q 1 x.1 x.2).2
        (A.output q 1 x.1 x.2).1 = true) :
    ε ^ 2 / (q + 1) - ε / 2 ^ 252 ≤
      Spec.prob fun x : Ω × (Fin (q + 1) → Spec.Answer) × (Fin (q + 1) → Spec.Answer) =>
        let y₁ := A.output q 1 x.1 x.2.1
        let y₂ := A.output q 1 x.1 (A.retape q 1 (fun _ => hashed label) 0 x.1 x.2.1 x.2.2)
        Spec.AttributesBlinded y₁.1 (extract y₁.2 y₂.2) := by
  have key := Knowledge.rewind A q 1 (fun _ => hashed label) O
    (fun O y => verify O [.init label] y.2 y.1 = true) Nat.one_pos ε hε
  rw [Nat.cast_one] at key
  refine key.trans (Spec.prob_mono ?_)
  rintro ⟨ω, h, h'⟩ ⟨h1, h2, h3, h4⟩
  dsimp only at h1 h2 h3 h4 ⊢
  generalize A.output q 1 ω (A.retape q 1 (fun _ => hashed label) 0 ω h h') = y₂ at h2 h3 h4 ⊢
  generalize A.output q 1 ω h = y₁ at h1 h3 h4 ⊢
  obtain ⟨p₁, r₁⟩ := y₁
  obtain ⟨p₂, r₂⟩ := y₂
  have e := C32_injective h3
  simp only [Spec.Query.attributesBlinded.injEq, true_and] at e
  obtain ⟨rfl, -⟩ := e
  exact C30_special_sound h1 h2 h3.symm h4

/-- The honest prover makes one query. -/
def honest (label : String) (p : Publics G) (s : Secrets) (rand : Randomnesses) :
    Spec.Prover Unit (Publics G × Proof) where
  ask _ _ := verifyTranscript [.init label] p (commitmentsOf p rand)
  out _ as := match as with
    | a :: _ => (p, ⟨Scalar.fromWide a.1, respond (Scalar.fromWide a.1) s rand⟩)
    | [] => (p, ⟨0, respond 0 s rand⟩)

/-- C78 is not empty: the honest prover is accepted with probability one, so that the bound is
`1/2 - 1/2^252`. -/
theorem C78_honest (O : Oracle) (label : String) {p : Publics G} {s : Secrets}
    (hs : Spec.AttributesBlinded p s) (rand : Randomnesses) :
    (Spec.prob fun x : Unit × (Fin (1 + 1) → Spec.Answer) =>
      verify ((honest label p s rand).world 1 1 (fun _ => hashed label) O x.1 x.2) [.init label]
        ((honest label p s rand).output 1 1 x.1 x.2).2
        ((honest label p s rand).output 1 1 x.1 x.2).1 = true) = 1 := by
  apply Knowledge.prob_one
  rintro ⟨ω, h⟩
  have hw := Knowledge.world_chal (honest label p s rand) 1 1 (fun _ => hashed label) Nat.one_pos O ω h rfl
    (by simp [Spec.queries])
  have ho : (honest label p s rand).output 1 1 ω h =
      (p, ⟨Scalar.fromWide (h 0).1, respond (Scalar.fromWide (h 0).1) s rand⟩) := rfl
  dsimp only
  rw [ho]
  dsimp only
  rw [verify, recommit_respond hs, decide_eq_true_iff, getChallenge]
  exact congrArg Scalar.fromWide hw

end AttributesBlinded

namespace IssuanceBlinded

/-- The hash query made when a proof is verified. -/
def hashed (label : String) (y : Publics G × Proof) : Transcript :=
  (Spec.Query.issuanceBlinded label y.1 (recommit y.1 y.2)).ops

/-- C78: who makes accepted proofs knows the secrets. -/
theorem C78_knowledge {Ω : Type} [Finite Ω] [Nonempty Ω] (O : Oracle) (label : String)
    (A : Spec.Prover Ω (Publics G × Proof)) (q : ℕ) (ε : ℚ)
    (hε : ε = Spec.prob fun x : Ω × (Fin (q + 1) → Spec.Answer) =>
      verify (A.world q 1 (fun _ => hashed label) O x.1 x.2) [.init label] (A.output q 1 x.1 x.2).2
        (A.output q 1 x.1 x.2).1 = true) :
    ε ^ 2 / (q + 1) - ε / 2 ^ 252 ≤
      Spec.prob fun x : Ω × (Fin (q + 1) → Spec.Answer) × (Fin (q + 1) → Spec.Answer) =>
        let y₁ := A.output q 1 x.1 x.2.1
        let y₂ := A.output q 1 x.1 (A.retape q 1 (fun _ => hashed label) 0 x.1 x.2.1 x.2.2)
        Spec.IssuanceBlinded y₁.1 (extract y₁.2 y₂.2) := by
  have key := Knowledge.rewind A q 1 (fun _ => hashed label) O
    (fun O y => verify O [.init label] y.2 y.1 = true) Nat.one_pos ε hε
  rw [Nat.cast_one] at key
  refine key.trans (Spec.prob_mono ?_)
  rintro ⟨ω, h, h'⟩ ⟨h1, h2, h3, h4⟩
  dsimp only at h1 h2 h3 h4 ⊢
  generalize A.output q 1 ω (A.retape q 1 (fun _ => hashed label) 0 ω h h') = y₂ at h2 h3 h4 ⊢
  generalize A.output q 1 ω h = y₁ at h1 h3 h4 ⊢
  obtain ⟨p₁, r₁⟩ := y₁
  obtain ⟨p₂, r₂⟩ := y₂
  have e := C32_injective h3
  simp only [Spec.Query.issuanceBlinded.injEq, true_and] at e
  obtain ⟨rfl, -⟩ := e
  exact C30_special_sound h1 h2 h3.symm h4

/-- The honest prover makes one query. -/
def honest (label : String) (p : Publics G) (s : Secrets) (rand : Randomnesses) :
    Spec.Prover Unit (Publics G × Proof) where
  ask _ _ := verifyTranscript [.init label] p (commitmentsOf p rand)
  out _ as := match as with
    | a :: _ => (p, ⟨Scalar.fromWide a.1, respond (Scalar.fromWide a.1) s rand⟩)
    | [] => (p, ⟨0, respond 0 s rand⟩)

/-- C78 is not empty: the honest prover is accepted with probability one, so that the bound is
`1/2 - 1/2^252`. -/
theorem C78_honest (O : Oracle) (label : String) {p : Publics G} {s : Secrets}
    (hs : Spec.IssuanceBlinded p s) (rand : Randomnesses) :
    (Spec.prob fun x : Unit × (Fin (1 + 1) → Spec.Answer) =>
      verify ((honest label p s rand).world 1 1 (fun _ => hashed label) O x.1 x.2) [.init label]
        ((honest label p s rand).output 1 1 x.1 x.2).2
        ((honest label p s rand).output 1 1 x.1 x.2).1 = true) = 1 := by
  apply Knowledge.prob_one
  rintro ⟨ω, h⟩
  have hw := Knowledge.world_chal (honest label p s rand) 1 1 (fun _ => hashed label) Nat.one_pos O ω h rfl
    (by simp [Spec.queries])
  have ho : (honest label p s rand).output 1 1 ω h =
      (p, ⟨Scalar.fromWide (h 0).1, respond (Scalar.fromWide (h 0).1) s rand⟩) := rfl
  dsimp only
  rw [ho]
  dsimp only
  rw [verify, recommit_respond hs, decide_eq_true_iff, getChallenge]
  exact congrArg Scalar.fromWide hw

end IssuanceBlinded

namespace ValidCredential

/-- The hash query made when a proof is verified. -/
def hashed (label : String) (y : Publics G × Proof) : Transcript :=
  (Spec.Query.validCredential label y.1 (recommit y.1 y.2)).ops

/-- C78: who makes accepted proofs knows the secrets. -/
theorem C78_knowledge {Ω : Type} [Finite Ω] [Nonempty Ω] (O : Oracle) (label : String)
    (A : Spec.Prover Ω (Publics G × Proof)) (q : ℕ) (ε : ℚ)
    (hε : ε = Spec.prob fun x : Ω × (Fin (q + 1) → Spec.Answer) =>
      verify (A.world q 1 (fun _ => hashed label) O x.1 x.2) [.init label] (A.output q 1 x.1 x.2).2
        (A.output q 1 x.1 x.2).1 = true) :
    ε ^ 2 / (q + 1) - ε / 2 ^ 252 ≤
      Spec.prob fun x : Ω × (Fin (q + 1) → Spec.Answer) × (Fin (q + 1) → Spec.Answer) =>
        let y₁ := A.output q 1 x.1 x.2.1
        let y₂ := A.output q 1 x.1 (A.retape q 1 (fun _ => hashed label) 0 x.1 x.2.1 x.2.2)
        Spec.ValidCredential y₁.1 (extract y₁.2 y₂.2) := by
  have key := Knowledge.rewind A q 1 (fun _ => hashed label) O
    (fun O y => verify O [.init label] y.2 y.1 = true) Nat.one_pos ε hε
  rw [Nat.cast_one] at key
  refine key.trans (Spec.prob_mono ?_)
  rintro ⟨ω, h, h'⟩ ⟨h1, h2, h3, h4⟩
  dsimp only at h1 h2 h3 h4 ⊢
  generalize A.output q 1 ω (A.retape q 1 (fun _ => hashed label) 0 ω h h') = y₂ at h2 h3 h4 ⊢
  generalize A.output q 1 ω h = y₁ at h1 h3 h4 ⊢
  obtain ⟨p₁, r₁⟩ := y₁
  obtain ⟨p₂, r₂⟩ := y₂
  have e := C32_injective h3
  simp only [Spec.Query.validCredential.injEq, true_and] at e
  obtain ⟨rfl, -⟩ := e
  exact C30_special_sound h1 h2 h3.symm h4

/-- The honest prover makes one query. -/
def honest (label : String) (p : Publics G) (s : Secrets) (rand : Randomnesses) :
    Spec.Prover Unit (Publics G × Proof) where
  ask _ _ := verifyTranscript [.init label] p (commitmentsOf p rand)
  out _ as := match as with
    | a :: _ => (p, ⟨Scalar.fromWide a.1, respond (Scalar.fromWide a.1) s rand⟩)
    | [] => (p, ⟨0, respond 0 s rand⟩)

/-- C78 is not empty: the honest prover is accepted with probability one, so that the bound is
`1/2 - 1/2^252`. -/
theorem C78_honest (O : Oracle) (label : String) {p : Publics G} {s : Secrets}
    (hs : Spec.ValidCredential p s) (rand : Randomnesses) :
    (Spec.prob fun x : Unit × (Fin (1 + 1) → Spec.Answer) =>
      verify ((honest label p s rand).world 1 1 (fun _ => hashed label) O x.1 x.2) [.init label]
        ((honest label p s rand).output 1 1 x.1 x.2).2
        ((honest label p s rand).output 1 1 x.1 x.2).1 = true) = 1 := by
  apply Knowledge.prob_one
  rintro ⟨ω, h⟩
  have hw := Knowledge.world_chal (honest label p s rand) 1 1 (fun _ => hashed label) Nat.one_pos O ω h rfl
    (by simp [Spec.queries])
  have ho : (honest label p s rand).output 1 1 ω h =
      (p, ⟨Scalar.fromWide (h 0).1, respond (Scalar.fromWide (h 0).1) s rand⟩) := rfl
  dsimp only
  rw [ho]
  dsimp only
  rw [verify, recommit_respond hs, decide_eq_true_iff, getChallenge]
  exact congrArg Scalar.fromWide hw

end ValidCredential

namespace CommittedValuesEqual

/-- The hash query made when a proof is verified. -/
def hashed (label : String) (y : Publics G × Proof) : Transcript :=
  (Spec.Query.committedValuesEqual label y.1 (recommit y.1 y.2)).ops

/-- C78: who makes accepted proofs knows the secrets. -/
theorem C78_knowledge {Ω : Type} [Finite Ω] [Nonempty Ω] (O : Oracle) (label : String)
    (A : Spec.Prover Ω (Publics G × Proof)) (q : ℕ) (ε : ℚ)
    (hε : ε = Spec.prob fun x : Ω × (Fin (q + 1) → Spec.Answer) =>
      verify (A.world q 1 (fun _ => hashed label) O x.1 x.2) [.init label] (A.output q 1 x.1 x.2).2
        (A.output q 1 x.1 x.2).1 = true) :
    ε ^ 2 / (q + 1) - ε / 2 ^ 252 ≤
      Spec.prob fun x : Ω × (Fin (q + 1) → Spec.Answer) × (Fin (q + 1) → Spec.Answer) =>
        let y₁ := A.output q 1 x.1 x.2.1
        let y₂ := A.output q 1 x.1 (A.retape q 1 (fun _ => hashed label) 0 x.1 x.2.1 x.2.2)
        Spec.CommittedValuesEqual y₁.1 (extract y₁.2 y₂.2) := by
  have key := Knowledge.rewind A q 1 (fun _ => hashed label) O
    (fun O y => verify O [.init label] y.2 y.1 = true) Nat.one_pos ε hε
  rw [Nat.cast_one] at key
  refine key.trans (Spec.prob_mono ?_)
  rintro ⟨ω, h, h'⟩ ⟨h1, h2, h3, h4⟩
  dsimp only at h1 h2 h3 h4 ⊢
  generalize A.output q 1 ω (A.retape q 1 (fun _ => hashed label) 0 ω h h') = y₂ at h2 h3 h4 ⊢
  generalize A.output q 1 ω h = y₁ at h1 h3 h4 ⊢
  obtain ⟨p₁, r₁⟩ := y₁
  obtain ⟨p₂, r₂⟩ := y₂
  have e := C32_injective h3
  simp only [Spec.Query.committedValuesEqual.injEq, true_and] at e
  obtain ⟨rfl, -⟩ := e
  exact C30_special_sound h1 h2 h3.symm h4

/-- The honest prover makes one query. -/
def honest (label : String) (p : Publics G) (s : Secrets) (rand : Randomnesses) :
    Spec.Prover Unit (Publics G × Proof) where
  ask _ _ := verifyTranscript [.init label] p (commitmentsOf p rand)
  out _ as := match as with
    | a :: _ => (p, ⟨Scalar.fromWide a.1, respond (Scalar.fromWide a.1) s rand⟩)
    | [] => (p, ⟨0, respond 0 s rand⟩)

/-- C78 is not empty: the honest prover is accepted with probability one, so that the bound is
`1/2 - 1/2^252`. -/
theorem C78_honest (O : Oracle) (label : String) {p : Publics G} {s : Secrets}
    (hs : Spec.CommittedValuesEqual p s) (rand : Randomnesses) :
    (Spec.prob fun x : Unit × (Fin (1 + 1) → Spec.Answer) =>
      verify ((honest label p s rand).world 1 1 (fun _ => hashed label) O x.1 x.2) [.init label]
        ((honest label p s rand).output 1 1 x.1 x.2).2
        ((honest label p s rand).output 1 1 x.1 x.2).1 = true) = 1 := by
  apply Knowledge.prob_one
  rintro ⟨ω, h⟩
  have hw := Knowledge.world_chal (honest label p s rand) 1 1 (fun _ => hashed label) Nat.one_pos O ω h rfl
    (by simp [Spec.queries])
  have ho : (honest label p s rand).output 1 1 ω h =
      (p, ⟨Scalar.fromWide (h 0).1, respond (Scalar.fromWide (h 0).1) s rand⟩) := rfl
  dsimp only
  rw [ho]
  dsimp only
  rw [verify, recommit_respond hs, decide_eq_true_iff, getChallenge]
  exact congrArg Scalar.fromWide hw

end CommittedValuesEqual

/-! ## The protocols -/

/-- The hash query made when the issuer `i` verifies a presentation. -/
def Spec.showQuery (i : Issuer G) (p : CredentialPresentation G) : Transcript :=
  let publics := Spec.presentationPublics i p (i.keypair.publicKey.Xn.headD 0) (p.attributesBlinded.headD 0)
  (Spec.Query.validCredential "AEONFLUX SHOW" publics (ValidCredential.recommit publics p.proof)).ops

/-- The hash query made when the roster membership is verified. -/
def Spec.rosterQuery (sp : SystemParameters G) (p : SignalCredentialPresentation G) : Transcript :=
  let publics : CommittedValuesEqual.Publics G := ⟨sp.g, sp.h, p.presentation.rerandomizedNonce,
    p.presentation.attributesBlinded.headD 0, p.rosterEntryCommitment⟩
  (Spec.Query.committedValuesEqual "SIGNAL GROUP MEMBERSHIP" publics
    (CommittedValuesEqual.recommit publics p.rosterMembershipProof)).ops

/-- The hash query made when a user with the given parameters checks an issuance. -/
def Spec.issuanceQuery (u : User G) (c : CredentialIssuance G) : Transcript :=
  let publics : IssuanceRevealed.Publics G := ⟨c.credential.mac.nonce, c.credential.mac.mac,
    c.secretKeyCommitment, u.systemParameters.g, u.systemParameters.h, u.issuerParameters.Xn.headD 0⟩
  (Spec.Query.issuanceRevealed "AEONFLUX ISSUANCE" publics
    (IssuanceRevealed.recommit publics c.proof)).ops

/-- The value is a decoded one, or there is nothing to verify. -/
def Spec.onDecoded {ε α : Type} (r : Res ε α) (f : α → Transcript) : Transcript :=
  match r with
  | .ok a => f a
  | _ => []

/-- From the two proofs one gets a MAC: the blinded attribute is `m0·P + z0·h`, and `(P, CQ + minus_zQ·h)` is
a tag for `m0` under the issuer's key. -/
def Spec.YieldsMac (i : Issuer G) (p : CredentialPresentation G) (s : ValidCredential.Secrets) : Prop :=
  p.attributesBlinded = [s.m0.val • p.rerandomizedNonce + s.z0.val • i.systemParameters.h] ∧
  Spec.MacValid i.keypair.secretKey
    ⟨p.rerandomizedNonce, p.rerandomizedMacCommitment + s.minus_zQ.val • i.systemParameters.h⟩ [s.m0]

namespace Knowledge

theorem show_extract {O₁ O₂ : Oracle} {i : Issuer G} (hi : Spec.KeypairMatches i)
    {p₁ p₂ : CredentialPresentation G} {v₁ v₂ : VerifiedCredential G}
    (d₁ : p₁.attributesRevealed = [] ∧ p₁.attributesBlinded.length = 1)
    (d₂ : p₂.attributesRevealed = [] ∧ p₂.attributesBlinded.length = 1)
    (h₁ : i.verify O₁ p₁ = .ok v₁) (h₂ : i.verify O₂ p₂ = .ok v₂)
    (hq : Spec.showQuery i p₂ = Spec.showQuery i p₁)
    (hc : (leVal (O₁.chal (Spec.showQuery i p₁) "chal" 64) : F) ≠
      leVal (O₂.chal (Spec.showQuery i p₁) "chal" 64)) :
    Spec.YieldsMac i p₁ (ValidCredential.extract p₁.proof p₂.proof) := by
  obtain ⟨x0, x1, hi'⟩ := matches_form hi
  obtain ⟨sp, kp⟩ := i
  have hk := congrArg Issuer.keypair hi'
  dsimp only at hk
  subst hk
  obtain ⟨CQ, P, as, Cs, r₁⟩ := p₁
  obtain ⟨CQ', P', as', Cs', r₂⟩ := p₂
  dsimp only at d₁ d₂
  obtain ⟨rfl, d₁⟩ := d₁
  obtain ⟨rfl, d₂⟩ := d₂
  obtain ⟨C, rfl⟩ := List.length_eq_one_iff.1 d₁
  obtain ⟨C', rfl⟩ := List.length_eq_one_iff.1 d₂
  have hpub : ∀ (P CQ C : G) (r : ValidCredential.Proof), Spec.presentationPublics
      ⟨sp, ⟨⟨[x1.val • sp.h]⟩, ⟨x0, [x1]⟩⟩⟩ ⟨CQ, P, [], [C], r⟩ (x1.val • sp.h) C =
      ⟨sp.g, sp.h, x1.val • sp.h, P, x0 • P + x1 • C - CQ, C⟩ := by
    intro P CQ C r
    simp [Spec.presentationPublics, Spec.dot, Scalar.smul_def]
  simp only [Spec.showQuery, List.headD_cons, hpub] at hq hc
  rw [verify_one] at h₁ h₂
  split at h₁
  swap; · cases h₁
  rename_i v₁
  split at h₂
  swap; · cases h₂
  rename_i v₂
  have e := C32_injective hq
  simp only [Spec.Query.validCredential.injEq, ValidCredential.Publics.mk.injEq, true_and] at e
  obtain ⟨⟨rfl, e2, rfl⟩, -⟩ := e
  rw [e2] at hq v₂
  obtain ⟨s1, s2⟩ := ValidCredential.C30_special_sound v₁ v₂ hq.symm hc
  generalize ValidCredential.extract r₁ r₂ = s at s1 s2
  dsimp only at s1 s2
  refine ⟨by rw [← s1], ?_⟩
  simp only [Spec.MacValid, Spec.macFactor, List.map_cons, List.map_nil]
  simp only [Scalar.smul_def] at s1 s2
  rw [s1] at s2
  linear_combination (norm := module) -s2

theorem roster_extract {O₁ O₂ : Oracle} {i : SignalIssuer G} {p₁ p₂ : SignalCredentialPresentation G}
    {R₁ R₂ : G} (d₁ : p₁.presentation.attributesBlinded.length = 1)
    (d₂ : p₂.presentation.attributesBlinded.length = 1)
    (h₁ : i.verifyRosterMembership O₁ ⟨p₁⟩ = .ok R₁) (h₂ : i.verifyRosterMembership O₂ ⟨p₂⟩ = .ok R₂)
    (hq : Spec.rosterQuery i.issuer.systemParameters p₂ = Spec.rosterQuery i.issuer.systemParameters p₁)
    (hc : (leVal (O₁.chal (Spec.rosterQuery i.issuer.systemParameters p₁) "chal" 64) : F) ≠
      leVal (O₂.chal (Spec.rosterQuery i.issuer.systemParameters p₁) "chal" 64)) :
    let s := CommittedValuesEqual.extract p₁.rosterMembershipProof p₂.rosterMembershipProof
    p₁.presentation.attributesBlinded = [s.m0.val • p₁.presentation.rerandomizedNonce +
      s.z0.val • i.issuer.systemParameters.h] ∧
    R₁ = p₁.rosterEntryCommitment ∧
    p₁.rosterEntryCommitment = s.m0.val • i.issuer.systemParameters.h +
      s.z1.val • i.issuer.systemParameters.g := by
  obtain ⟨R, ⟨CQ, P, as, Cs, r₁⟩, t₁⟩ := p₁
  obtain ⟨R', ⟨CQ', P', as', Cs', r₂⟩, t₂⟩ := p₂
  dsimp only at d₁ d₂
  obtain ⟨C, rfl⟩ := List.length_eq_one_iff.1 d₁
  obtain ⟨C', rfl⟩ := List.length_eq_one_iff.1 d₂
  rw [verifyRoster_one] at h₁ h₂
  split at h₁
  swap; · cases h₁
  rename_i v₁
  cases h₁
  split at h₂
  swap; · cases h₂
  rename_i v₂
  cases h₂
  simp only [Spec.rosterQuery, List.headD_cons] at hq hc
  have e := C32_injective hq
  simp only [Spec.Query.committedValuesEqual.injEq, CommittedValuesEqual.Publics.mk.injEq, true_and] at e
  obtain ⟨⟨rfl, rfl, rfl⟩, -⟩ := e
  obtain ⟨s1, s2⟩ := CommittedValuesEqual.C30_special_sound v₁ v₂ hq.symm hc
  dsimp only at s1 s2 ⊢
  exact ⟨by rw [← s1], rfl, s2⟩

end Knowledge

/-- **C78** for presentations: if an issuer accepts what a prover sends, with a non-identity nonce, then
rewinding gives a tag on the attribute under the issuer's key, with the stated probability. -/
theorem C78_presentation {Ω : Type} [Finite Ω] [Nonempty Ω] (O : Oracle) {i : Issuer G}
    (hi : Spec.KeypairMatches i) (A : Spec.Prover Ω Bytes) (q : ℕ)
    (query : ℕ → Bytes → Transcript)
    (hquery : query = fun _ b => Spec.onDecoded (CredentialPresentation.fromBytes b) (Spec.showQuery i))
    (ε : ℚ)
    (hε : ε = Spec.prob fun x : Ω × (Fin (q + 1) → Spec.Answer) =>
      ∃ p v, CredentialPresentation.fromBytes (A.output q 1 x.1 x.2) = .ok p ∧
        i.verify (A.world q 1 query O x.1 x.2) p = .ok v ∧ p.rerandomizedNonce ≠ 0) :
    ε ^ 2 / (q + 1) - ε / 2 ^ 252 ≤
      Spec.prob fun x : Ω × (Fin (q + 1) → Spec.Answer) × (Fin (q + 1) → Spec.Answer) =>
        ∃ p₁ p₂ : CredentialPresentation G,
          CredentialPresentation.fromBytes (A.output q 1 x.1 x.2.1) = .ok p₁ ∧
          CredentialPresentation.fromBytes
            (A.output q 1 x.1 (A.retape q 1 query 0 x.1 x.2.1 x.2.2)) = .ok p₂ ∧
          p₁.rerandomizedNonce ≠ 0 ∧
          Spec.YieldsMac i p₁ (ValidCredential.extract p₁.proof p₂.proof) := by
  subst hquery
  have key := Knowledge.rewind A q 1 _ O (fun O b => ∃ p v, CredentialPresentation.fromBytes b = .ok p ∧
        i.verify O p = .ok v ∧ p.rerandomizedNonce ≠ 0) Nat.one_pos ε hε
  rw [Nat.cast_one] at key
  refine key.trans (Spec.prob_mono ?_)
  rintro ⟨ω, h, h'⟩ ⟨⟨p₁, v₁, a1, a2, a3⟩, ⟨p₂, v₂, b1, b2, -⟩, h3, h4⟩
  dsimp only at a1 b1 h3 h4 ⊢
  rw [a1] at h3
  rw [b1] at h3
  rw [a1] at h4
  exact ⟨p₁, p₂, a1, b1, a3, Knowledge.show_extract hi (C76_decoded_partial a1)
    (C76_decoded_partial b1) a2 b2 h3 h4⟩

/-- **C78** for the Signal issuer: if both checks pass on what a prover sends, with a non-identity nonce, then
rewinding twice gives a tag on `m`, and an opening of the roster entry to `m'`, and either `m = m'` or the
nonce is a multiple of `h` by a number computed from the runs. -/
theorem C78_signal {Ω : Type} [Finite Ω] [Nonempty Ω] (O : Oracle) {i : SignalIssuer G}
    (hi : Spec.KeypairMatches i.issuer) (A : Spec.Prover Ω Bytes) (q : ℕ)
    (query : ℕ → Bytes → Transcript)
    (hquery : query = fun n b => Spec.onDecoded (SignalCredentialPresentation.fromBytes b) fun p =>
      if n = 0 then Spec.showQuery i.issuer p.presentation
      else Spec.rosterQuery i.issuer.systemParameters p)
    (ε : ℚ)
    (hε : ε = Spec.prob fun x : Ω × (Fin (q + 2) → Spec.Answer) =>
      ∃ p v R, SignalCredentialPresentation.fromBytes (A.output q 2 x.1 x.2) = .ok p ∧
        i.verify (A.world q 2 query O x.1 x.2) p = .ok v ∧
        i.verifyRosterMembership (A.world q 2 query O x.1 x.2) v = .ok R ∧
        p.presentation.rerandomizedNonce ≠ 0)
    (hbig : 4 * (q + 2) / 2 ^ 252 ≤ ε) :
    ε / 2 * (ε / (4 * (q + 2)) - 1 / 2 ^ 252) ^ 2 ≤
      Spec.prob fun x : Ω × (Fin (q + 2) → Spec.Answer) × (Fin (q + 2) → Spec.Answer) ×
          (Fin (q + 2) → Spec.Answer) =>
        ∃ p p' p'' : SignalCredentialPresentation G,
          SignalCredentialPresentation.fromBytes (A.output q 2 x.1 x.2.1) = .ok p ∧
          SignalCredentialPresentation.fromBytes
            (A.output q 2 x.1 (A.retape q 2 query 0 x.1 x.2.1 x.2.2.1)) = .ok p' ∧
          SignalCredentialPresentation.fromBytes
            (A.output q 2 x.1 (A.retape q 2 query 1 x.1 x.2.1 x.2.2.2)) = .ok p'' ∧
          let P := p.presentation.rerandomizedNonce
          let s := ValidCredential.extract p.presentation.proof p'.presentation.proof
          let s' := CommittedValuesEqual.extract p.rosterMembershipProof p''.rosterMembershipProof
          P ≠ 0 ∧ Spec.YieldsMac i.issuer p.presentation s ∧
          p.rosterEntryCommitment = s'.m0.val • i.issuer.systemParameters.h +
            s'.z1.val • i.issuer.systemParameters.g ∧
          (s.m0.val = s'.m0.val ∨
            P = ((s'.z0.val - s.z0.val) / (s.m0.val - s'.m0.val)) • i.issuer.systemParameters.h) := by
  subst hquery
  have key := Knowledge.rewind_twice A q 2 _ O (fun O b => ∃ p v R,
    SignalCredentialPresentation.fromBytes b = .ok p ∧ i.verify O p = .ok v ∧
    i.verifyRosterMembership O v = .ok R ∧ p.presentation.rerandomizedNonce ≠ 0) (i := 0) (j := 1)
    (by omega) (by omega) ε hε (by rw [Nat.cast_two]; exact hbig)
  rw [Nat.cast_two] at key
  refine key.trans (Spec.prob_mono ?_)
  rintro ⟨ω, h, h', h''⟩ ⟨⟨p, v, R, a1, a2, a3, a4⟩, ⟨⟨p', v', R', b1, b2, b3, -⟩, h3, h4⟩,
    ⟨p'', v'', R'', c1, c2, c3, -⟩, h5, h6⟩
  dsimp only at a1 b1 c1 h3 h4 h5 h6 ⊢
  rw [a1] at h3 h5
  rw [b1] at h3
  rw [c1] at h5
  rw [a1] at h4 h6
  simp only [Spec.onDecoded, if_true, Nat.one_ne_zero, if_false] at h3 h4 h5 h6
  have hd : ∀ {b : Bytes} {p : SignalCredentialPresentation G},
      SignalCredentialPresentation.fromBytes b = .ok p →
      p.presentation.attributesRevealed = [] ∧ p.presentation.attributesBlinded.length = 1 := by
    intro b p hb
    obtain ⟨Cm, rest, ho, -⟩ := (C10_ok_iff b p).1 hb
    obtain ⟨o1, o2, -⟩ := ho.1
    exact ⟨o1, by rw [o2]; rfl⟩
  have hv : ∀ {O : Oracle} {p : SignalCredentialPresentation G} {v},
      i.verify O p = .ok v → v = ⟨p⟩ ∧ ∃ w, i.issuer.verify O p.presentation = .ok w := by
    intro O p v hv
    rw [SignalIssuer.verify] at hv
    obtain ⟨w, hw, hv⟩ := Res.bind_eq_ok.1 hv
    cases hv
    exact ⟨rfl, w, hw⟩
  obtain ⟨rfl, w, hw⟩ := hv a2
  obtain ⟨rfl, w', hw'⟩ := hv b2
  obtain ⟨rfl, w'', hw''⟩ := hv c2
  have hs := Knowledge.show_extract hi (hd a1) (hd b1) hw hw' h3 h4
  obtain ⟨t1, -, t3⟩ := Knowledge.roster_extract (hd a1).2 (hd c1).2 a3 c3 h5 h6
  refine ⟨p, p', p'', a1, b1, c1, a4, hs, t3, ?_⟩
  have e := hs.1.symm.trans t1
  simp only [List.cons.injEq, and_true] at e
  generalize (ValidCredential.extract p.presentation.proof p'.presentation.proof).m0.val = m at *
  generalize (ValidCredential.extract p.presentation.proof p'.presentation.proof).z0.val = z at *
  generalize (CommittedValuesEqual.extract p.rosterMembershipProof p''.rosterMembershipProof).m0.val = m' at *
  generalize (CommittedValuesEqual.extract p.rosterMembershipProof p''.rosterMembershipProof).z0.val = z' at *
  by_cases hm : m = m'
  · exact .inl hm
  · right
    have hne : m - m' ≠ 0 := sub_ne_zero.2 hm
    have e : (m - m') • p.presentation.rerandomizedNonce = (z' - z) • i.issuer.systemParameters.h := by
      linear_combination (norm := module) e
    rw [div_eq_inv_mul, mul_smul, ← e, smul_smul, inv_mul_cancel₀ hne, one_smul]

/-- **C78** for issuances: if a user accepts what an issuer sends, then rewinding gives a key that matches the
published parameters and the commitment, and explains the tag up to the attribute (see `C35_invalid_accepted`). -/
theorem C78_issuance {Ω : Type} [Finite Ω] [Nonempty Ω] (O : Oracle) (u : User G)
    (A : Spec.Prover Ω Bytes) (q : ℕ) (query : ℕ → Bytes → Transcript)
    (hquery : query = fun _ b => Spec.onDecoded (CredentialIssuance.fromBytes b) (Spec.issuanceQuery u))
    (ε : ℚ)
    (hε : ε = Spec.prob fun x : Ω × (Fin (q + 1) → Spec.Answer) =>
      ∃ c, CredentialIssuance.fromBytes (A.output q 1 x.1 x.2) = .ok c ∧
        (u.obtainFinish (A.world q 1 query O x.1 x.2) (some c)).1 = .ok ()) :
    ε ^ 2 / (q + 1) - ε / 2 ^ 252 ≤
      Spec.prob fun x : Ω × (Fin (q + 1) → Spec.Answer) × (Fin (q + 1) → Spec.Answer) =>
        ∃ c₁ c₂ : CredentialIssuance G,
          CredentialIssuance.fromBytes (A.output q 1 x.1 x.2.1) = .ok c₁ ∧
          CredentialIssuance.fromBytes
            (A.output q 1 x.1 (A.retape q 1 query 0 x.1 x.2.1 x.2.2)) = .ok c₂ ∧
          let s := IssuanceRevealed.extract c₁.proof c₂.proof
          u.issuerParameters.Xn[0]? = some (s.x1.val • u.systemParameters.h) ∧
          c₁.secretKeyCommitment =
            s.x0.val • u.systemParameters.g + s.x0_tilde.val • u.systemParameters.h ∧
          c₁.credential.mac.mac = (s.x0.val + s.m1x1.val) • c₁.credential.mac.nonce := by
  subst hquery
  have key := Knowledge.rewind A q 1 _ O (fun O b => ∃ c, CredentialIssuance.fromBytes b = .ok c ∧
        (u.obtainFinish O (some c)).1 = .ok ()) Nat.one_pos ε hε
  rw [Nat.cast_one] at key
  refine key.trans (Spec.prob_mono ?_)
  rintro ⟨ω, h, h'⟩ ⟨⟨c₁, a1, a2⟩, ⟨c₂, b1, b2⟩, h3, h4⟩
  dsimp only at a1 a2 b1 b2 h3 h4 ⊢
  rw [a1] at h3
  rw [b1] at h3
  rw [a1] at h4
  refine ⟨c₁, c₂, a1, b1, ?_⟩
  generalize A.world q 1 _ O ω (A.retape q 1 _ 0 ω h h') = O₂ at b2 h4
  generalize A.world q 1 _ O ω h = O₁ at a2 h4
  obtain ⟨_, X, e, hX, v₁⟩ := (C34_outcomes _ u (some c₁)).1.1 a2
  cases e
  obtain ⟨_, X', e, hX', v₂⟩ := (C34_outcomes _ u (some c₂)).1.1 b2
  cases e
  rw [hX] at hX'
  cases hX'
  have hd : u.issuerParameters.Xn.headD 0 = X := by
    cases hu : u.issuerParameters.Xn with
    | nil => rw [hu] at hX; simp at hX
    | cons Y Ys => rw [hu] at hX; simpa using hX
  simp only [Spec.onDecoded, Spec.issuanceQuery, hd] at h3 h4
  have e := C32_injective h3
  simp only [Spec.Query.issuanceRevealed.injEq, IssuanceRevealed.Publics.mk.injEq, true_and] at e
  obtain ⟨⟨e1, e2, e3, -⟩, -⟩ := e
  rw [e1, e2, e3] at h3 v₂
  obtain ⟨s1, s2, s3⟩ := IssuanceRevealed.C30_special_sound v₁ v₂ h3.symm h4
  dsimp only at s1 s2 s3
  exact ⟨by rw [hX, ← s3], s2, by rw [add_smul]; exact s1⟩

/-! ### The bounds are not empty -/

namespace Knowledge

/-- An honest owner of a tag: asks for the two challenges and sends the presentation. -/
def honestPresentation (R CQ P C : G) (s : ValidCredential.Secrets) (s' : CommittedValuesEqual.Secrets)
    (rand : ValidCredential.Randomnesses) (rand' : CommittedValuesEqual.Randomnesses) (c c' : Scalar) :
    SignalCredentialPresentation G :=
  ⟨R, ⟨CQ, P, [], [C], ⟨c, ValidCredential.respond c s rand⟩⟩,
    ⟨c', CommittedValuesEqual.respond c' s' rand'⟩⟩

/-- The corresponding prover. -/
def honestSignal (sp : SystemParameters G) (X R CQ P C V : G) (s : ValidCredential.Secrets)
    (s' : CommittedValuesEqual.Secrets) (rand : ValidCredential.Randomnesses)
    (rand' : CommittedValuesEqual.Randomnesses) : Spec.Prover Unit Bytes where
  ask _ as := match as with
    | [] => ValidCredential.verifyTranscript [.init "AEONFLUX SHOW"] ⟨sp.g, sp.h, X, P, V, C⟩
        (ValidCredential.commitmentsOf ⟨sp.g, sp.h, X, P, V, C⟩ rand)
    | _ => CommittedValuesEqual.verifyTranscript [.init "SIGNAL GROUP MEMBERSHIP"] ⟨sp.g, sp.h, P, C, R⟩
        (CommittedValuesEqual.commitmentsOf ⟨sp.g, sp.h, P, C, R⟩ rand')
  out _ as := match as with
    | [a, b] => (honestPresentation R CQ P C s s' rand rand' (Scalar.fromWide a.1)
        (Scalar.fromWide b.1)).toBytes
    | _ => []

end Knowledge

/-- Owners of a tag are accepted with probability one, so that `C78_signal` applies with `ε = 1`. -/
theorem C78_signal_honest (O : Oracle) (i : SignalIssuer G) {x0 x1 : Scalar} {X R CQ P C V : G}
    (hi : i.issuer.keypair = ⟨⟨[X]⟩, ⟨x0, [x1]⟩⟩) (hP : P ≠ 0) (hV : V = x0 • P + x1 • C - CQ)
    {s : ValidCredential.Secrets} {s' : CommittedValuesEqual.Secrets}
    (hs : Spec.ValidCredential
      ⟨i.issuer.systemParameters.g, i.issuer.systemParameters.h, X, P, V, C⟩ s)
    (hs' : Spec.CommittedValuesEqual
      ⟨i.issuer.systemParameters.g, i.issuer.systemParameters.h, P, C, R⟩ s')
    (rand : ValidCredential.Randomnesses) (rand' : CommittedValuesEqual.Randomnesses)
    (query : ℕ → Bytes → Transcript) (A : Spec.Prover Unit Bytes)
    (hA : A = Knowledge.honestSignal i.issuer.systemParameters X R CQ P C V s s' rand rand') :
    (Spec.prob fun x : Unit × (Fin (2 + 2) → Spec.Answer) =>
      ∃ p v R, SignalCredentialPresentation.fromBytes (A.output 2 2 x.1 x.2) = .ok p ∧
        i.verify (A.world 2 2 query O x.1 x.2) p = .ok v ∧
        i.verifyRosterMembership (A.world 2 2 query O x.1 x.2) v = .ok R ∧
        p.presentation.rerandomizedNonce ≠ 0) = 1 := by
  subst hA
  apply Knowledge.prob_one
  rintro ⟨ω, h⟩
  obtain ⟨⟨sp, kp⟩⟩ := i
  dsimp only at hi hs hs'
  subst hi
  dsimp only
  set A := Knowledge.honestSignal sp X R CQ P C V s s' rand rand' with hA
  have hw := Knowledge.world_chal A 2 2 query (j := 0) (by omega) O ω h rfl (by simp [Spec.queries])
  have hne : ValidCredential.verifyTranscript [.init "AEONFLUX SHOW"] ⟨sp.g, sp.h, X, P, V, C⟩
        (ValidCredential.commitmentsOf ⟨sp.g, sp.h, X, P, V, C⟩ rand) ≠
      CommittedValuesEqual.verifyTranscript [.init "SIGNAL GROUP MEMBERSHIP"] ⟨sp.g, sp.h, P, C, R⟩
        (CommittedValuesEqual.commitmentsOf ⟨sp.g, sp.h, P, C, R⟩ rand') :=
    (C32_steps_distinct (G := G) ⟨0, 0, 0, 0, 0, 0⟩ ⟨0, 0, 0⟩ _ _ _ _).2.2
  have hq1 : Spec.queries (A.ask ω) h 1 = [(ValidCredential.verifyTranscript [.init "AEONFLUX SHOW"]
      ⟨sp.g, sp.h, X, P, V, C⟩ (ValidCredential.commitmentsOf ⟨sp.g, sp.h, X, P, V, C⟩ rand), h 0)] := rfl
  have hask : A.ask ω ((Spec.queries (A.ask ω) h 1).map Prod.snd) =
      CommittedValuesEqual.verifyTranscript [.init "SIGNAL GROUP MEMBERSHIP"] ⟨sp.g, sp.h, P, C, R⟩
        (CommittedValuesEqual.commitmentsOf ⟨sp.g, sp.h, P, C, R⟩ rand') := rfl
  have hw' := Knowledge.world_chal A 2 2 query (j := 1) (by omega) O ω h hask (by
    rw [hq1]
    simpa using hne)
  have hq2 : (Spec.queries (A.ask ω) h 2).map Prod.snd = [h 0, h 1] := by
    rw [Spec.queries]
    simp only [Spec.HashLog.asked]
    rw [hask, Knowledge.lookup_none (by rw [hq1]; simpa using hne), hq1]
    rfl
  have ho : A.output 2 2 ω h = (Knowledge.honestPresentation R CQ P C s s' rand rand'
      (Scalar.fromWide (h 0).1) (Scalar.fromWide (h 1).1)).toBytes := by
    rw [Spec.Prover.output, hq2]
    rfl
  rw [ho]
  refine ⟨_, ⟨Knowledge.honestPresentation R CQ P C s s' rand rand'
      (Scalar.fromWide (h 0).1) (Scalar.fromWide (h 1).1)⟩, R, (C10_roundtrip _ C ?_).1, ?_, ?_, hP⟩
  · exact ⟨⟨rfl, rfl, Scalar.reduced_fromWide _, Scalar.reduced_add _ _, Scalar.reduced_add _ _,
      Scalar.reduced_add _ _⟩, Scalar.reduced_fromWide _, Scalar.reduced_add _ _,
      Scalar.reduced_add _ _, Scalar.reduced_add _ _⟩
  · rw [SignalIssuer.verify]
    simp only [Knowledge.honestPresentation]
    rw [verify_one, ← hV, if_pos]
    · rfl
    rw [ValidCredential.verify, ValidCredential.recommit_respond hs, decide_eq_true_iff, getChallenge]
    exact congrArg Scalar.fromWide hw
  · simp only [Knowledge.honestPresentation]
    rw [verifyRoster_one, if_pos]
    rw [CommittedValuesEqual.verify, CommittedValuesEqual.recommit_respond hs', decide_eq_true_iff,
      getChallenge]
    exact congrArg Scalar.fromWide hw'

/-- The hypotheses of `C78_signal_honest` are met in the toy group. -/
example : Spec.ValidCredential (⟨1, 4, 6, 7, 38, 41⟩ : ValidCredential.Publics F)
      ⟨⟨3, by decide⟩, ⟨5, by decide⟩, ⟨2, by decide⟩⟩ ∧
    Spec.CommittedValuesEqual (⟨1, 4, 7, 41, 21⟩ : CommittedValuesEqual.Publics F)
      ⟨⟨3, by decide⟩, ⟨5, by decide⟩, ⟨9, by decide⟩⟩ ∧
    ∃ (x0 x1 : Scalar) (CQ : F), (38 : F) = x0 • 7 + x1 • 41 - CQ :=
  ⟨by simp only [Spec.ValidCredential]; decide +kernel,
    by simp only [Spec.CommittedValuesEqual]; decide +kernel, 0, 0, -38, by decide +kernel⟩

end Verif
