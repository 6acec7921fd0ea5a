import Verif.Lemmas.Forking
import Verif.Props.Knowledge

/-!
# Games with a random oracle, and replacing proofs by simulated ones

An observer asks the hash and asks for objects that are made with the hash, adaptively. If the two
ways of making the objects differ little whatever happens afterwards, then the observer notices little.
-/

namespace Verif

open Finset

/-- Average over all outcomes. -/
noncomputable def Spec.mean {α : Type} [Fintype α] (f : α → ℚ) : ℚ := (∑ a, f a) / Fintype.card α

noncomputable instance : Fintype Spec.Answer := Fintype.ofFinite _

/-- An observer: it tosses coins, asks the hash (`challenge_bytes("chal", 64)` of a transcript), makes
requests, each of which is answered by an object, and finally says yes or no. Everything may depend on
everything seen before. -/
inductive Spec.Observer (K : Type) (Pf : K → Type) where
  | done (yes : Bool)
  | toss (next : F → Spec.Observer K Pf)
  | ask (t : Transcript) (next : Spec.Answer → Spec.Observer K Pf)
  | request (x : K) (next : Pf x → Spec.Observer K Pf)

/-- A way of answering requests: given the request, the queries so far, and the probability of an
event after each answer and new list of queries, the probability of the event. -/
def Spec.Server (K : Type) (Pf : K → Type) : Type :=
  (x : K) → Spec.HashLog → (Spec.HashLog → Pf x → ℚ) → ℚ

namespace Spec.Observer

variable {K : Type} {Pf : K → Type}

/-- The probability that the observer says yes, after the queries `l`, if `serve` answers requests. -/
noncomputable def yes (serve : Spec.Server K Pf) : Spec.Observer K Pf → Spec.HashLog → ℚ
  | done b, _ => if b then 1 else 0
  | toss next, l => Spec.mean fun c => (next c).yes serve l
  | ask t next, l => Spec.mean fun a => (next ((l.lookup t).getD a)).yes serve (l.asked t a)
  | request x next, l => serve x l fun l' π => (next π).yes serve l'

/-- At most `q` queries and `n` requests are made. -/
def Within : Spec.Observer K Pf → ℕ → ℕ → Prop
  | done _, _, _ => True
  | toss next, q, n => ∀ c, (next c).Within q n
  | ask _ next, q, n => ∃ q', q = q' + 1 ∧ ∀ a, (next a).Within q' n
  | request _ next, q, n => ∃ n', n = n' + 1 ∧ ∀ π, (next π).Within q n'

end Spec.Observer

namespace Sim

section mean
variable {α β : Type} [Fintype α] [Fintype β]

theorem mean_equiv (e : α ≃ β) (f : β → ℚ) : Spec.mean (fun a => f (e a)) = Spec.mean f := by
  unfold Spec.mean
  rw [Fintype.card_congr e, Equiv.sum_comp e f]

theorem mean_congr {f g : α → ℚ} (h : ∀ a, f a = g a) : Spec.mean f = Spec.mean g := by
  rw [funext h]

theorem mean_const [Nonempty α] (c : ℚ) : Spec.mean (fun _ : α => c) = c := by
  unfold Spec.mean
  rw [Finset.sum_const, Finset.card_univ, nsmul_eq_mul, mul_div_cancel_left₀]
  exact_mod_cast Fintype.card_ne_zero

theorem mean_mono {f g : α → ℚ} (h : ∀ a, f a ≤ g a) : Spec.mean f ≤ Spec.mean g := by
  unfold Spec.mean
  gcongr with a
  exact h a

theorem mean_add (f g : α → ℚ) : Spec.mean (fun a => f a + g a) = Spec.mean f + Spec.mean g := by
  unfold Spec.mean
  rw [Finset.sum_add_distrib, add_div]

theorem mean_sub (f g : α → ℚ) : Spec.mean (fun a => f a - g a) = Spec.mean f - Spec.mean g := by
  unfold Spec.mean
  rw [Finset.sum_sub_distrib, sub_div]

theorem abs_mean_le (f : α → ℚ) : |Spec.mean f| ≤ Spec.mean fun a => |f a| := by
  unfold Spec.mean
  rw [abs_div, Nat.abs_cast]
  gcongr
  exact Finset.abs_sum_le_sum_abs _ _

theorem abs_sub_mean_le [Nonempty α] {f g : α → ℚ} {ε : ℚ} (h : ∀ a, |f a - g a| ≤ ε) :
    |Spec.mean f - Spec.mean g| ≤ ε := by
  rw [← mean_sub]
  refine (abs_mean_le _).trans ((mean_mono h).trans (mean_const ε).le)

theorem mean_comm (f : α → β → ℚ) :
    (Spec.mean fun a => Spec.mean fun b => f a b) = Spec.mean fun b => Spec.mean fun a => f a b := by
  unfold Spec.mean
  rw [← Finset.sum_div, ← Finset.sum_div, Finset.sum_comm, div_div, div_div, mul_comm]

/-- The average of an indicator is the probability. -/
theorem mean_indicator (E : α → Prop) [DecidablePred E] :
    (Spec.mean fun a => if E a then (1 : ℚ) else 0) = Spec.prob E := by
  unfold Spec.mean Spec.prob
  rw [Finset.sum_boole, Nat.card_eq_fintype_card, Nat.card_eq_fintype_card, Fintype.card_subtype]

end mean

variable {K : Type} {Pf : K → Type}

/-- A probability. -/
def Unit01 (f : Spec.HashLog → α → ℚ) : Prop := ∀ l a, 0 ≤ f l a ∧ f l a ≤ 1

/-- Two servers that add `c` queries per request and differ by little. -/
structure Close (c : ℕ) (serve serve' : Spec.Server K Pf) : Prop where
  range : ∀ x l f, Unit01 f → 0 ≤ serve x l f ∧ serve x l f ≤ 1
  range' : ∀ x l f, Unit01 f → 0 ≤ serve' x l f ∧ serve' x l f ≤ 1
  close : ∀ x l f g ε, Unit01 f → Unit01 g →
    (∀ l' π, l'.length = l.length + c → |f l' π - g l' π| ≤ ε) →
    |serve x l f - serve' x l g| ≤ ε + c * (l.length + c) / ell

theorem mean01 {α : Type} [Fintype α] [Nonempty α] {f : α → ℚ} (h : ∀ a, 0 ≤ f a ∧ f a ≤ 1) :
    0 ≤ Spec.mean f ∧ Spec.mean f ≤ 1 :=
  ⟨(mean_const (α := α) 0).ge.trans (mean_mono fun a => (h a).1),
    (mean_mono fun a => (h a).2).trans (mean_const (α := α) 1).le⟩

theorem yes01 {serve : Spec.Server K Pf}
    (hs : ∀ x l f, Unit01 f → 0 ≤ serve x l f ∧ serve x l f ≤ 1) (A : Spec.Observer K Pf) :
    ∀ l, 0 ≤ A.yes serve l ∧ A.yes serve l ≤ 1 := by
  induction A with
  | done b => intro l; cases b <;> simp [Spec.Observer.yes]
  | toss next ih => intro l; exact mean01 fun c => ih c l
  | ask t next ih => intro l; exact mean01 fun a => ih _ _
  | request x next ih => intro l; exact hs x l _ fun l' π => ih π l'

/-- The observer's advantage. -/
theorem advantage {c : ℕ} {serve serve' : Spec.Server K Pf} (h : Close c serve serve')
    (A : Spec.Observer K Pf) : ∀ (l : Spec.HashLog) (q n : ℕ), A.Within q n →
      |A.yes serve l - A.yes serve' l| ≤ n * c * (l.length + q + c * n) / ell := by
  have hell : (0 : ℚ) < ell := by exact_mod_cast (Nat.Prime.pos Fact.out : 0 < ell)
  induction A with
  | done b =>
    intro l q n _
    simp only [Spec.Observer.yes, sub_self, abs_zero]
    positivity
  | toss next ih =>
    intro l q n hw
    exact abs_sub_mean_le fun a => ih a l q n (hw a)
  | ask t next ih =>
    intro l q n hw
    obtain ⟨q', rfl, hw⟩ := hw
    refine abs_sub_mean_le fun a => (ih _ (l.asked t a) q' n (hw _)).trans (le_of_eq ?_)
    rw [show (l.asked t a).length = l.length + 1 by simp [Spec.HashLog.asked]]
    push_cast
    ring
  | request x next ih =>
    intro l q n hw
    obtain ⟨n', rfl, hw⟩ := hw
    refine (h.close x l _ _ (n' * c * (l.length + c + q + c * n') / ell)
      (fun l' π => yes01 h.range (next π) l') (fun l' π => yes01 h.range' (next π) l')
      (fun l' π hl => ?_)).trans ?_
    · have := ih π l' q n' (hw π)
      rw [hl] at this
      push_cast at this
      exact this
    · rw [← add_div]
      gcongr
      push_cast
      have h1 : (0 : ℚ) ≤ c * q := by positivity
      have h2 : (0 : ℚ) ≤ c * (c * n') := by positivity
      nlinarith

/-! ## One proof -/

section step
variable {V P : Type} [Fintype V] [Nonempty V]

/-- An honest proof: coins `u`, one query, answered with `a`. -/
noncomputable def realStep (query : V → Transcript) (respond : Spec.Answer → V → P) (l : Spec.HashLog)
    (k : Spec.HashLog → P → ℚ) : ℚ :=
  Spec.mean fun u : V => Spec.mean fun a : Spec.Answer =>
    k (l.asked (query u) a) (respond ((l.lookup (query u)).getD a) u)

/-- A simulated proof: the answer `a` and the responses `z` are chosen, and then the query. -/
noncomputable def simStep (query : Spec.Answer → V → Transcript) (proof : Spec.Answer → V → P)
    (l : Spec.HashLog) (k : Spec.HashLog → P → ℚ) : ℚ :=
  Spec.mean fun a : Spec.Answer => Spec.mean fun z : V => k (l ++ [(query a z, a)]) (proof a z)

omit [Nonempty V] in
theorem hit_bound {query : V → Transcript} (hq : ∀ t, Spec.prob (fun u => query u = t) ≤ 1 / ell)
    (l : Spec.HashLog) :
    Spec.prob (fun u => (l.lookup (query u)).isSome) ≤ l.length / ell := by
  classical
  induction l with
  | nil => simp [Spec.prob]
  | cons e l ih =>
    have h1 : Spec.prob (fun u => (((e :: l).lookup (query u)).isSome : Prop)) ≤
        Spec.prob (fun u => query u = e.1) + Spec.prob (fun u => ((l.lookup (query u)).isSome : Prop)) := by
      rw [← mean_indicator, ← mean_indicator, ← mean_indicator, ← mean_add]
      refine mean_mono fun u => ?_
      by_cases hu : query u = e.1
      · rw [if_pos hu]
        have : (0 : ℚ) ≤ if (l.lookup (query u)).isSome = true then 1 else 0 := by split <;> simp
        split <;> linarith
      · have : (e :: l).lookup (query u) = l.lookup (query u) := by
          obtain ⟨t, a⟩ := e
          rw [List.lookup_cons]
          simp only at hu
          simp [beq_eq_false_iff_ne.2 hu]
        rw [this, if_neg hu, zero_add]
    refine h1.trans ((add_le_add (hq e.1) ih).trans (le_of_eq ?_))
    rw [← add_div, List.length_cons]
    push_cast
    ring

theorem step_close {query : V → Transcript} {respond : Spec.Answer → V → P}
    {query' : Spec.Answer → V → Transcript} {proof : Spec.Answer → V → P}
    (hq : ∀ t, Spec.prob (fun u => query u = t) ≤ 1 / ell)
    (hs : ∀ a, ∃ e : V ≃ V, ∀ u, query u = query' a (e u) ∧ respond a u = proof a (e u))
    (l : Spec.HashLog) (f g : Spec.HashLog → P → ℚ) (ε : ℚ) (hf : Unit01 f)
    (hfg : ∀ l' π, l'.length = l.length + 1 → |f l' π - g l' π| ≤ ε) :
    |realStep query respond l f - simStep query' proof l g| ≤ ε + l.length / ell := by
  classical
  -- the simulated proof in terms of the honest coins
  have h1 : simStep query' proof l g = Spec.mean fun u : V => Spec.mean fun a : Spec.Answer =>
      g (l ++ [(query u, a)]) (respond a u) := by
    rw [mean_comm]
    unfold simStep
    congr 1
    funext a
    obtain ⟨e, he⟩ := hs a
    rw [← mean_equiv e]
    congr 1
    funext u
    rw [(he u).1, (he u).2]
  -- without repeating a query the honest proof is that
  have h2 : |realStep query respond l f - Spec.mean fun u : V => Spec.mean fun a : Spec.Answer =>
      f (l ++ [(query u, a)]) (respond a u)| ≤ l.length / ell := by
    refine le_trans ?_ (hit_bound hq l)
    rw [← mean_indicator]
    unfold realStep
    rw [← mean_sub]
    refine (abs_mean_le _).trans (mean_mono fun u => ?_)
    split
    · rw [← mean_sub]
      refine (abs_mean_le _).trans ((mean_mono (g := fun _ => 1) fun a => ?_).trans (mean_const _).le)
      have ha := hf (l.asked (query u) a) (respond ((l.lookup (query u)).getD a) u)
      have hb := hf (l ++ [(query u, a)]) (respond a u)
      rw [abs_le]
      constructor <;> linarith
    · rename_i hn
      have hn : l.lookup (query u) = none := Option.not_isSome_iff_eq_none.1 hn
      simp [Spec.HashLog.asked, hn]
  rw [h1]
  have h3 : |(Spec.mean fun u : V => Spec.mean fun a : Spec.Answer => f (l ++ [(query u, a)]) (respond a u))
      - Spec.mean fun u : V => Spec.mean fun a : Spec.Answer => g (l ++ [(query u, a)]) (respond a u)|
      ≤ ε :=
    abs_sub_mean_le fun u => abs_sub_mean_le fun a => hfg _ _ (by simp)
  calc _ ≤ _ := abs_sub_le _ _ _
    _ ≤ l.length / ell + ε := add_le_add h2 h3
    _ = ε + l.length / ell := add_comm _ _

theorem realStep01 {query : V → Transcript} {respond : Spec.Answer → V → P} (l : Spec.HashLog)
    {f : Spec.HashLog → P → ℚ} (hf : Unit01 f) :
    0 ≤ realStep query respond l f ∧ realStep query respond l f ≤ 1 :=
  mean01 fun _ => mean01 fun _ => hf _ _

theorem simStep01 {query : Spec.Answer → V → Transcript} {proof : Spec.Answer → V → P}
    (l : Spec.HashLog) {f : Spec.HashLog → P → ℚ} (hf : Unit01 f) :
    0 ≤ simStep query proof l f ∧ simStep query proof l f ≤ 1 :=
  mean01 fun _ => mean01 fun _ => hf _ _

end step

/-- If moving the coins along a direction always changes the query, then no query is likely. -/
theorem unlikely {V : Type} [AddCommGroup V] [Module F V] [Finite V] {query : V → Transcript} (d : V)
    (h : ∀ u (k : F), query (u + k • d) = query u → k = 0) (t : Transcript) :
    Spec.prob (fun u => query u = t) ≤ 1 / ell := by
  have hell : (0 : ℚ) < ell := by exact_mod_cast (Nat.Prime.pos Fact.out : 0 < ell)
  have hinj : Function.Injective fun x : F × {u // query u = t} => x.2.1 + x.1 • d := by
    rintro ⟨k, u, hu⟩ ⟨k', u', hu'⟩ he
    simp only at he
    have h1 : u = u' + (k' - k) • d := by
      rw [sub_smul, ← add_sub_assoc, ← he, add_sub_cancel_right]
    have h2 := h u' (k' - k) (by rw [← h1, hu, hu'])
    obtain rfl : k' = k := sub_eq_zero.1 h2
    rw [sub_self, zero_smul, add_zero] at h1
    subst h1
    rfl
  have hc := Nat.card_le_card_of_injective _ hinj
  rw [Nat.card_prod, show Nat.card F = ell by rw [Nat.card_eq_fintype_card]; exact ZMod.card ell] at hc
  unfold Spec.prob
  have hV : (0 : ℚ) < Nat.card V := by exact_mod_cast Nat.card_pos
  rw [div_le_div_iff₀ hV hell, one_mul, mul_comm]
  exact_mod_cast hc

end Sim

end Verif
