import Verif.Lemmas.Simulation
import Verif.Props.ProofRng
import Mathlib.Data.List.GetD

/-!
# Programs that draw random bytes, read transcript generators and ask the hash

The functions of the library get their randomness from 64-byte draws, and from transcript generators
(`merlin::TranscriptRng`) that are keyed with 32 random bytes. Here the outputs of transcript generators are
a random function, like the hash, that everybody can evaluate. If each read of a program is new and keyed with
random bytes of its own, then nobody notices if the read is replaced by fresh random bytes.
-/

namespace Verif

open Finset

/-- 32 random bytes. -/
abbrev Spec.Seed := {b : Bytes // b.length = 32}

instance : Finite Spec.Seed := Finite.of_equiv _ (bytesEquiv 32).symm

noncomputable instance : Fintype Spec.Seed := Fintype.ofFinite _

instance : Nonempty Spec.Seed := ⟨⟨List.replicate 32 0, rfl⟩⟩

deriving instance DecidableEq for Spec.Read

/-- What has been read from transcript generators so far, with the bytes. -/
abbrev Spec.ReadLog := List (Spec.Read × Spec.Answer)

/-- A transcript generator is read: an old read gets the old bytes, a new one gets the fresh bytes `a`. -/
def Spec.ReadLog.asked (r : Spec.ReadLog) (q : Spec.Read) (a : Spec.Answer) : Spec.ReadLog :=
  (q, (r.lookup q).getD a) :: r

/-- The 64 bytes of a read. -/
def Spec.Read.bytes (O : Oracle) (q : Spec.Read) : Spec.Answer :=
  ⟨O.rng q.ops q.witnesses q.entropy (List.replicate q.earlier 64) 64, O.rng_length _ _ _ _ _⟩

/-- The answer of the hash to `challenge_bytes("chal", 64)`. -/
def Spec.chalBytes (O : Oracle) (t : Transcript) : Spec.Answer :=
  ⟨O.chal t "chal" 64, O.chal_length _ _ _⟩

/-- A program: it draws 64 bytes, draws 32 bytes as key of a generator, reads a generator that is keyed with the
`i`-th of these, asks the hash, and returns. Only the generators see the keys. -/
inductive Spec.Program (β : Type) where
  | ret (b : β)
  | draw (next : Spec.Answer → Spec.Program β)
  | seed (next : Spec.Program β)
  | read (i : ℕ) (ops : Transcript) (witnesses : List (String × Bytes)) (earlier : ℕ)
      (next : Spec.Answer → Spec.Program β)
  | hash (t : Transcript) (next : Spec.Answer → Spec.Program β)

namespace Spec.Program

variable {β : Type}

/-- The program returns `c` with the hash and generators `O`, if the drawn bytes are `tape`. -/
def Returns (O : Oracle) : Spec.Program β → List Bytes → List Bytes → β → Prop
  | ret b, _, tape, c => tape = [] ∧ b = c
  | draw next, env, tape, c => ∃ (z : Spec.Answer) (rest : List Bytes), tape = z.1 :: rest ∧
      (next z).Returns O env rest c
  | seed next, env, tape, c => ∃ (e : Spec.Seed) (rest : List Bytes), tape = e.1 :: rest ∧
      next.Returns O (env ++ [e.1]) rest c
  | read i ops w n next, env, tape, c => (next (Spec.Read.bytes O ⟨ops, w, env.getD i [], n⟩)).Returns O env tape c
  | hash t next, env, tape, c => (next (Spec.chalBytes O t)).Returns O env tape c

/-- The probability of an event after the program, if draws are uniform, and the hash and the generators are
random functions. -/
noncomputable def run : Spec.Program β → List Bytes → Spec.HashLog → Spec.ReadLog →
    (Spec.HashLog → Spec.ReadLog → β → ℚ) → ℚ
  | ret b, _, l, r, k => k l r b
  | draw next, env, l, r, k => Spec.mean fun z => (next z).run env l r k
  | seed next, env, l, r, k => Spec.mean fun e : Spec.Seed => next.run (env ++ [e.1]) l r k
  | read i ops w n next, env, l, r, k => Spec.mean fun a =>
      (next ((r.lookup ⟨ops, w, env.getD i [], n⟩).getD a)).run env l (r.asked ⟨ops, w, env.getD i [], n⟩ a) k
  | hash t next, env, l, r, k => Spec.mean fun a => (next ((l.lookup t).getD a)).run env (l.asked t a) r k

/-- The same if every read gives fresh uniform bytes. -/
noncomputable def ideal : Spec.Program β → Spec.HashLog → (Spec.HashLog → β → ℚ) → ℚ
  | ret b, l, k => k l b
  | draw next, l, k => Spec.mean fun z => (next z).ideal l k
  | seed next, l, k => next.ideal l k
  | read _ _ _ _ next, l, k => Spec.mean fun a => (next a).ideal l k
  | hash t next, l, k => Spec.mean fun a => (next ((l.lookup t).getD a)).ideal (l.asked t a) k

/-- Every read is keyed, and is not made twice. `N` keys were drawn and the reads `K` made before. -/
def Distinct : Spec.Program β → ℕ → List (ℕ × Transcript × List (String × Bytes) × ℕ) → Prop
  | ret _, _, _ => True
  | draw next, N, K => ∀ z, (next z).Distinct N K
  | seed next, N, K => next.Distinct (N + 1) K
  | read i ops w n next, N, K => i < N ∧ (i, ops, w, n) ∉ K ∧ ∀ a, (next a).Distinct N ((i, ops, w, n) :: K)
  | hash _ next, N, K => ∀ a, (next a).Distinct N K

/-- At most `s` keys are drawn and `m` reads made. -/
def Within : Spec.Program β → ℕ → ℕ → Prop
  | ret _, _, _ => True
  | draw next, s, m => ∀ z, (next z).Within s m
  | seed next, s, m => ∃ s', s = s' + 1 ∧ next.Within s' m
  | read _ _ _ _ next, s, m => ∃ m', m = m' + 1 ∧ ∀ a, (next a).Within s m'
  | hash _ next, s, m => ∀ a, (next a).Within s m

end Spec.Program

/-- An observer that can also read transcript generators itself, with keys of its choice. -/
inductive Spec.Watcher (K : Type) (Pf : K → Type) where
  | done (yes : Bool)
  | toss (next : F → Spec.Watcher K Pf)
  | ask (t : Transcript) (next : Spec.Answer → Spec.Watcher K Pf)
  | read (q : Spec.Read) (next : Spec.Answer → Spec.Watcher K Pf)
  | request (x : K) (next : Pf x → Spec.Watcher K Pf)

namespace Spec.Watcher

variable {K : Type} {Pf : K → Type}

/-- The probability that the watcher says yes, if requests are answered by running programs. -/
noncomputable def yesRun (code : (x : K) → Spec.Program (Pf x)) :
    Spec.Watcher K Pf → Spec.HashLog → Spec.ReadLog → ℚ
  | done b, _, _ => if b then 1 else 0
  | toss next, l, r => Spec.mean fun c => (next c).yesRun code l r
  | ask t next, l, r => Spec.mean fun a => (next ((l.lookup t).getD a)).yesRun code (l.asked t a) r
  | read q next, l, r => Spec.mean fun a => (next ((r.lookup q).getD a)).yesRun code l (r.asked q a)
  | request x next, l, r => (code x).run [] l r fun l' r' π => (next π).yesRun code l' r'

/-- The probability that the watcher says yes, if requests are answered by a server that does not use
generators. -/
noncomputable def yes (serve : Spec.Server K Pf) : Spec.Watcher K Pf → Spec.HashLog → Spec.ReadLog → ℚ
  | done b, _, _ => if b then 1 else 0
  | toss next, l, r => Spec.mean fun c => (next c).yes serve l r
  | ask t next, l, r => Spec.mean fun a => (next ((l.lookup t).getD a)).yes serve (l.asked t a) r
  | read q next, l, r => Spec.mean fun a => (next ((r.lookup q).getD a)).yes serve l (r.asked q a)
  | request x next, l, r => serve x l fun l' π => (next π).yes serve l' r

/-- At most `q` queries to the hash, `s` reads and `n` requests are made. -/
def Within : Spec.Watcher K Pf → ℕ → ℕ → ℕ → Prop
  | done _, _, _, _ => True
  | toss next, q, s, n => ∀ c, (next c).Within q s n
  | ask _ next, q, s, n => ∃ q', q = q' + 1 ∧ ∀ a, (next a).Within q' s n
  | read _ next, q, s, n => ∃ s', s = s' + 1 ∧ ∀ a, (next a).Within q s' n
  | request _ next, q, s, n => ∃ n', n = n' + 1 ∧ ∀ π, (next π).Within q s n'

end Spec.Watcher

namespace Sim

variable {K : Type} {Pf : K → Type}

theorem watcher01 {serve : Spec.Server K Pf}
    (hs : ∀ x l f, Unit01 f → 0 ≤ serve x l f ∧ serve x l f ≤ 1) (A : Spec.Watcher K Pf) :
    ∀ l r, 0 ≤ A.yes serve l r ∧ A.yes serve l r ≤ 1 := by
  induction A with
  | done b => intro l r; cases b <;> simp [Spec.Watcher.yes]
  | toss next ih => intro l r; exact mean01 fun c => ih c l r
  | ask t next ih => intro l r; exact mean01 fun a => ih _ _ r
  | read q next ih => intro l r; exact mean01 fun a => ih _ l _
  | request x next ih => intro l r; exact hs x l _ fun l' π => ih π l' r

/-- As `advantage`. -/
theorem watcher_close {c : ℕ} {serve serve' : Spec.Server K Pf} (h : Close c serve serve')
    (A : Spec.Watcher K Pf) : ∀ (l : Spec.HashLog) (r : Spec.ReadLog) (q s n : ℕ), A.Within q s n →
      |A.yes serve l r - A.yes serve' l r| ≤ n * c * (l.length + q + c * n) / ell := by
  have hell : (0 : ℚ) < ell := by exact_mod_cast (Nat.Prime.pos Fact.out : 0 < ell)
  induction A with
  | done b =>
    intro l r q s n _
    simp only [Spec.Watcher.yes, sub_self, abs_zero]
    positivity
  | toss next ih =>
    intro l r q s n hw
    exact abs_sub_mean_le fun a => ih a l r q s n (hw a)
  | ask t next ih =>
    intro l r q s n hw
    obtain ⟨q', rfl, hw⟩ := hw
    refine abs_sub_mean_le fun a => (ih _ (l.asked t a) r q' s n (hw _)).trans (le_of_eq ?_)
    rw [show (l.asked t a).length = l.length + 1 by simp [Spec.HashLog.asked]]
    push_cast
    ring
  | read v next ih =>
    intro l r q s n hw
    obtain ⟨s', rfl, hw⟩ := hw
    exact abs_sub_mean_le fun a => ih _ l (r.asked v a) q s' n (hw _)
  | request x next ih =>
    intro l r q s n hw
    obtain ⟨n', rfl, hw⟩ := hw
    refine (h.close x l _ _ (n' * c * (l.length + c + q + c * n') / ell)
      (fun l' π => watcher01 h.range (next π) l' r) (fun l' π => watcher01 h.range' (next π) l' r)
      (fun l' π hl => ?_)).trans ?_
    · have := ih π l' r q s n' (hw π)
      rw [hl] at this
      push_cast at this
      exact this
    · rw [← add_div]
      gcongr
      push_cast
      have h1 : (0 : ℚ) ≤ c * q := by positivity
      have h2 : (0 : ℚ) ≤ c * (c * n') := by positivity
      nlinarith

/-! ## Reads of programs look fresh -/

/-- The number of keys. -/
noncomputable abbrev seeds : ℚ := Fintype.card Spec.Seed

theorem seeds_eq : seeds = 2 ^ 256 := by
  have : Nat.card Spec.Seed = 2 ^ 256 := by
    rw [Nat.card_congr (bytesEquiv 32), show (2 : ℕ) ^ 256 = 256 ^ 32 by norm_num]
    rw [Nat.card_congr (Fin.equivSubtype (n := 256 ^ 32)).symm, Nat.card_eq_fintype_card, Fintype.card_fin]
  rw [seeds, ← Nat.card_eq_fintype_card, this, Nat.cast_pow, Nat.cast_ofNat]

section programs
variable {β : Type}

theorem ideal01 (p : Spec.Program β) : ∀ l {k : Spec.HashLog → β → ℚ}, (∀ l b, 0 ≤ k l b ∧ k l b ≤ 1) →
    0 ≤ p.ideal l k ∧ p.ideal l k ≤ 1 := by
  induction p with
  | ret b => exact fun l k hk => hk l b
  | draw next ih => exact fun l k hk => mean01 fun z => ih z l hk
  | seed next ih => exact fun l k hk => ih l hk
  | read i o w n next ih => exact fun l k hk => mean01 fun a => ih a l hk
  | hash t next ih => exact fun l k hk => mean01 fun a => ih _ _ hk

theorem run01 (p : Spec.Program β) : ∀ env l r {k : Spec.HashLog → Spec.ReadLog → β → ℚ},
    (∀ l r b, 0 ≤ k l r b ∧ k l r b ≤ 1) → 0 ≤ p.run env l r k ∧ p.run env l r k ≤ 1 := by
  induction p with
  | ret b => exact fun env l r k hk => hk l r b
  | draw next ih => exact fun env l r k hk => mean01 fun z => ih z env l r hk
  | seed next ih => exact fun env l r k hk => mean01 fun e => ih _ l r hk
  | read i o w n next ih => exact fun env l r k hk => mean01 fun a => ih _ env l _ hk
  | hash t next ih => exact fun env l r k hk => mean01 fun a => ih _ env _ r hk

/-- What is left to chance: the keys of earlier programs. In each of the cases `S`, of weight at least `1/W`, the
log is `R ω`, but the observer knows only `r`, unless it guesses a key. -/
structure Secret (c m : ℕ) (r : Spec.ReadLog) {Ω : Type} (S : Finset Ω) (W : ℚ) (R : Ω → Spec.ReadLog)
    (hid : Ω → List Bytes) : Prop where
  card : (S.card : ℚ) ≤ W
  length : ∀ ω ∈ S, (R ω).length ≤ c
  agree : ∀ ω ∈ S, ∀ q : Spec.Read, q.entropy ∉ hid ω → (R ω).lookup q = r.lookup q
  guess : ∀ v, (({ω ∈ S | v ∈ hid ω} : Finset Ω).card : ℚ) * seeds ≤ W * m

theorem Secret.mono {c c' m m' : ℕ} {r : Spec.ReadLog} {Ω : Type} {S : Finset Ω} {W : ℚ}
    {R : Ω → Spec.ReadLog} {hid : Ω → List Bytes} (h : Secret c m r S W R hid) (hc : c ≤ c') (hm : m ≤ m') :
    Secret c' m' r S W R hid :=
  ⟨h.card, fun ω hω => (h.length ω hω).trans hc, h.agree, fun v => (h.guess v).trans
    (mul_le_mul_of_nonneg_left (by exact_mod_cast hm) ((Nat.cast_nonneg _).trans h.card))⟩

/-- An event that hardly depends on the keys. -/
def Follows (c m : ℕ) (ε : ℚ) (r : Spec.ReadLog) (k : Spec.ReadLog → ℚ) (k' : ℚ) : Prop :=
  ∀ (Ω : Type) (S : Finset Ω) (W : ℚ) (R : Ω → Spec.ReadLog) (hid : Ω → List Bytes),
    Secret c m r S W R hid → |∑ ω ∈ S, (k (R ω) - k')| ≤ W * ε

theorem sum_mean_le {Ω α : Type} [Fintype α] [Nonempty α] {S : Finset Ω} {f : α → Ω → ℚ} {g : α → ℚ} {B : ℚ}
    (h : ∀ a, |∑ ω ∈ S, (f a ω - g a)| ≤ B) :
    |∑ ω ∈ S, ((Spec.mean fun a => f a ω) - Spec.mean g)| ≤ B := by
  have e : ∑ ω ∈ S, ((Spec.mean fun a => f a ω) - Spec.mean g) =
      Spec.mean fun a => ∑ ω ∈ S, (f a ω - g a) := by
    unfold Spec.mean
    rw [Finset.sum_comm (s := Finset.univ) (t := S),
      Finset.sum_div S (fun ω => ∑ a, (f a ω - g a)) (Fintype.card α : ℚ)]
    refine Finset.sum_congr rfl fun ω _ => ?_
    rw [Finset.sum_sub_distrib, sub_div]
  rw [e]
  exact (abs_mean_le _).trans ((mean_mono h).trans (mean_const B).le)

/-- The keys that are already in use. -/
theorem card_used (r : List Bytes) :
    ((Finset.univ.filter fun e : Spec.Seed => e.1 ∈ r).card : ℚ) ≤ r.length := by
  classical
  have : (Finset.univ.filter fun e : Spec.Seed => e.1 ∈ r).card ≤ r.toFinset.card :=
    Finset.card_le_card_of_injOn (fun e => e.1)
      (fun e he => by
        rw [Finset.coe_filter] at he
        exact List.mem_toFinset.2 he.2)
      (fun a _ b _ h => Subtype.ext h)
  exact_mod_cast this.trans (List.toFinset_card_le _)

theorem abs_sub_le_one {a b : ℚ} (ha : 0 ≤ a ∧ a ≤ 1) (hb : 0 ≤ b ∧ b ≤ 1) : |a - b| ≤ 1 := by
  rw [abs_le]
  constructor <;> linarith [ha.1, ha.2, hb.1, hb.2]

theorem lookup_entropy {r : Spec.ReadLog} {q : Spec.Read} {a : Spec.Answer} (h : r.lookup q = some a) :
    q.entropy ∈ r.map fun e => e.1.entropy := by
  induction r with
  | nil => cases h
  | cons e r ih =>
    obtain ⟨q', a'⟩ := e
    rw [List.lookup_cons] at h
    by_cases hq : q = q'
    · subst hq
      exact List.mem_cons_self
    · rw [beq_eq_false_iff_ne.2 hq] at h
      exact List.mem_cons_of_mem _ (ih h)

theorem lookup_cons_ne {r : Spec.ReadLog} {q q' : Spec.Read} {a : Spec.Answer} (h : q ≠ q') :
    List.lookup q ((q', a) :: r) = r.lookup q := by
  rw [List.lookup_cons, beq_eq_false_iff_ne.2 h]

/-- A program whose reads are keyed and new. -/
theorem program_follows (p : Spec.Program β) {r : Spec.ReadLog} {ε : ℚ}
    {k : Spec.HashLog → Spec.ReadLog → β → ℚ} {k' : Spec.HashLog → β → ℚ}
    (hk : ∀ l r b, 0 ≤ k l r b ∧ k l r b ≤ 1) (hk' : ∀ l b, 0 ≤ k' l b ∧ k' l b ≤ 1) :
    ∀ (N : ℕ) (K : List (ℕ × Transcript × List (String × Bytes) × ℕ)) (c m s b : ℕ) (l : Spec.HashLog)
      (Ω : Type) (S : Finset Ω) (W : ℚ) (R : Ω → Spec.ReadLog) (hid : Ω → List Bytes) (env : Ω → List Bytes),
      Secret c m r S W R hid → (∀ ω ∈ S, (env ω).length = N ∧ (env ω).Nodup ∧ ∀ v ∈ env ω, v ∈ hid ω) →
      (∀ ω ∈ S, ∀ i < N, ∀ o w n a, (R ω).lookup ⟨o, w, (env ω).getD i [], n⟩ = some a → (i, o, w, n) ∈ K) →
      p.Distinct N K → p.Within s b →
      (∀ l' x, Follows (c + b) (m + s) ε r (fun R => k l' R x) (k' l' x)) →
      |∑ ω ∈ S, (p.run (env ω) l (R ω) k - p.ideal l k')| ≤ W * (ε + s * (c + b + N + s) / seeds) := by
  classical
  have hD : (0 : ℚ) < seeds := by exact_mod_cast Fintype.card_pos
  induction p with
  | ret x =>
    intro N K c m s b l Ω S W R hid env hS _ _ _ _ hF
    refine (hF l x Ω S W R hid (hS.mono (by omega) (by omega))).trans ?_
    refine mul_le_mul_of_nonneg_left (le_add_of_nonneg_right (by positivity)) ((Nat.cast_nonneg _).trans hS.card)
  | draw next ih =>
    intro N K c m s b l Ω S W R hid env hS hE hK hd hw hF
    exact sum_mean_le fun z => ih z N K c m s b l Ω S W R hid env hS hE hK (hd z) (hw z) hF
  | hash t next ih =>
    intro N K c m s b l Ω S W R hid env hS hE hK hd hw hF
    exact sum_mean_le fun a => ih _ N K c m s b _ Ω S W R hid env hS hE hK (hd _) (hw _) hF
  | read i o w n next ih =>
    intro N K c m s b l Ω S W R hid env hS hE hK hd hw hF
    obtain ⟨hi, hnK, hd⟩ := hd
    obtain ⟨b', rfl, hw⟩ := hw
    have hin : ∀ ω ∈ S, (env ω).getD i [] ∈ env ω := fun ω hω => by
      rw [List.getD_eq_getElem _ _ (by rw [(hE ω hω).1]; exact hi)]
      exact List.getElem_mem _
    have hnew : ∀ ω ∈ S, (R ω).lookup ⟨o, w, (env ω).getD i [], n⟩ = none := fun ω hω => by
      cases h : (R ω).lookup ⟨o, w, (env ω).getD i [], n⟩ with
      | none => rfl
      | some a => exact absurd (hK ω hω i hi o w n a h) hnK
    have e : ∑ ω ∈ S, ((Spec.Program.read i o w n next).run (env ω) l (R ω) k -
        (Spec.Program.read i o w n next).ideal l k') =
        ∑ ω ∈ S, ((Spec.mean fun a => (next a).run (env ω) l ((⟨o, w, (env ω).getD i [], n⟩, a) :: R ω) k) -
          Spec.mean fun a => (next a).ideal l k') := by
      refine Finset.sum_congr rfl fun ω hω => ?_
      rw [Spec.Program.run, Spec.Program.ideal]
      congr 1
      refine mean_congr fun a => ?_
      rw [Spec.ReadLog.asked, hnew ω hω]
      rfl
    rw [e]
    refine sum_mean_le fun a => ?_
    refine (ih a N ((i, o, w, n) :: K) (c + 1) m s b' l Ω S W
      (fun ω => (⟨o, w, (env ω).getD i [], n⟩, a) :: R ω) hid env ⟨hS.card, ?_, ?_, hS.guess⟩ hE ?_ (hd a) (hw a)
      ?_).trans (le_of_eq ?_)
    · intro ω hω
      rw [List.length_cons]
      exact Nat.succ_le_succ (hS.length ω hω)
    · intro ω hω q hq
      rw [lookup_cons_ne, hS.agree ω hω q hq]
      rintro rfl
      exact hq ((hE ω hω).2.2 _ (hin ω hω))
    · intro ω hω j hj o' w' n' a' h
      by_cases hq : (⟨o', w', (env ω).getD j [], n'⟩ : Spec.Read) = ⟨o, w, (env ω).getD i [], n⟩
      · simp only [Spec.Read.mk.injEq] at hq
        obtain ⟨rfl, rfl, hq, rfl⟩ := hq
        have hl := (hE ω hω).1
        rw [List.getD_eq_getElem _ _ (by omega), List.getD_eq_getElem _ _ (by omega)] at hq
        have := (List.Nodup.getElem_inj_iff (hE ω hω).2.1).1 hq
        subst this
        exact List.mem_cons_self
      · rw [lookup_cons_ne hq] at h
        exact List.mem_cons_of_mem _ (hK ω hω j hj o' w' n' a' h)
    · rw [add_assoc, add_comm 1 b']
      exact hF
    · push_cast
      ring
  | seed next ih =>
    intro N K c m s b l Ω S W R hid env hS hE hK hd hw hF
    obtain ⟨s', rfl, hw⟩ := hw
    have hW : 0 ≤ W := (Nat.cast_nonneg _).trans hS.card
    let used : Ω → List Bytes := fun ω => ((R ω).map fun e => e.1.entropy) ++ env ω
    let T : Finset (Ω × Spec.Seed) := S ×ˢ Finset.univ
    let f : Ω × Spec.Seed → ℚ := fun p => next.run (env p.1 ++ [p.2.1]) l (R p.1) k - next.ideal l k'
    have e : ∑ ω ∈ S, ((Spec.Program.seed next).run (env ω) l (R ω) k - (Spec.Program.seed next).ideal l k') =
        (∑ p ∈ T, f p) / seeds := by
      rw [Finset.sum_product, Finset.sum_div]
      refine Finset.sum_congr rfl fun ω _ => ?_
      rw [Spec.Program.run, Spec.Program.ideal, Spec.mean, Finset.sum_sub_distrib, Finset.sum_const,
        Finset.card_univ, nsmul_eq_mul, sub_div, mul_div_cancel_left₀ _ hD.ne']
    have hbad : ((T.filter fun p : Ω × Spec.Seed => ¬ p.2.1 ∉ used p.1).card : ℚ) ≤ W * (c + N) := by
      have h1 : ((T.filter fun p : Ω × Spec.Seed => ¬ p.2.1 ∉ used p.1).card : ℚ) =
          ∑ ω ∈ S, ((Finset.univ.filter fun e : Spec.Seed => e.1 ∈ used ω).card : ℚ) := by
        rw [Finset.card_filter, Finset.sum_product, Nat.cast_sum]
        refine Finset.sum_congr rfl fun ω _ => ?_
        rw [Finset.card_filter]
        refine congrArg _ (Finset.sum_congr rfl fun e _ => ?_)
        simp only [not_not]
      rw [h1]
      refine (Finset.sum_le_card_nsmul S _ ((c : ℚ) + N) fun ω hω => ?_).trans ?_
      · refine (card_used _).trans ?_
        have : (used ω).length ≤ c + N := by
          simp only [used, List.length_append, List.length_map]
          exact Nat.add_le_add (hS.length ω hω) (hE ω hω).1.le
        exact_mod_cast this
      · rw [nsmul_eq_mul]
        exact mul_le_mul_of_nonneg_right hS.card (by positivity)
    have hgood : |∑ p ∈ T.filter (fun p => p.2.1 ∉ used p.1), f p| ≤
        W * seeds * (ε + s' * (c + b + (N + 1 : ℕ) + s') / seeds) := by
      refine ih (N + 1) K c (m + 1) s' b l (Ω × Spec.Seed) _ (W * seeds) (fun p => R p.1)
        (fun p => p.2.1 :: hid p.1) (fun p => env p.1 ++ [p.2.1]) ⟨?_, ?_, ?_, ?_⟩ ?_ ?_ hd hw ?_
      · have : (T.filter fun p => p.2.1 ∉ used p.1).card ≤ S.card * Fintype.card Spec.Seed :=
          (Finset.card_filter_le _ _).trans (by rw [Finset.card_product, Finset.card_univ])
        calc (_ : ℚ) ≤ ((S.card * Fintype.card Spec.Seed : ℕ) : ℚ) := by exact_mod_cast this
          _ = S.card * seeds := by push_cast; rfl
          _ ≤ W * seeds := mul_le_mul_of_nonneg_right hS.card hD.le
      · intro p hp
        exact hS.length _ (Finset.mem_product.1 (Finset.mem_filter.1 hp).1).1
      · intro p hp q hq
        exact hS.agree _ (Finset.mem_product.1 (Finset.mem_filter.1 hp).1).1 q fun h =>
          hq (List.mem_cons_of_mem _ h)
      · intro v
        have h1 : ({p ∈ T.filter (fun p => p.2.1 ∉ used p.1) | v ∈ p.2.1 :: hid p.1} : Finset _) ⊆
            (S ×ˢ Finset.univ.filter (fun e : Spec.Seed => e.1 ∈ [v])) ∪
              (S.filter (fun ω => v ∈ hid ω) ×ˢ Finset.univ) := by
          intro p hp
          obtain ⟨hp, hv⟩ := Finset.mem_filter.1 hp
          have hpS := (Finset.mem_product.1 (Finset.mem_filter.1 hp).1).1
          rcases List.mem_cons.1 hv with h | h
          · refine Finset.mem_union_left _ (Finset.mem_product.2 ⟨hpS, Finset.mem_filter.2 ⟨Finset.mem_univ _, ?_⟩⟩)
            rw [h]
            exact List.mem_singleton_self _
          · exact Finset.mem_union_right _
              (Finset.mem_product.2 ⟨Finset.mem_filter.2 ⟨hpS, h⟩, Finset.mem_univ _⟩)
        have h2 := (Finset.card_le_card h1).trans (Finset.card_union_le _ _)
        rw [Finset.card_product, Finset.card_product, Finset.card_univ] at h2
        have h3 := card_used [v]
        have h4 := hS.guess v
        rw [List.length_singleton, Nat.cast_one] at h3
        have h5 : (({p ∈ T.filter (fun p => p.2.1 ∉ used p.1) | v ∈ p.2.1 :: hid p.1} : Finset _).card : ℚ) ≤
            S.card * ((Finset.univ.filter (fun e : Spec.Seed => e.1 ∈ [v])).card : ℚ) +
              (S.filter (fun ω => v ∈ hid ω)).card * seeds := by exact_mod_cast h2
        have h6 : (S.card : ℚ) * ((Finset.univ.filter (fun e : Spec.Seed => e.1 ∈ [v])).card : ℚ) ≤ W * 1 :=
          mul_le_mul hS.card h3 (Nat.cast_nonneg _) hW
        calc _ ≤ (W * 1 + W * m) * seeds := mul_le_mul_of_nonneg_right (by linarith) hD.le
          _ = W * seeds * ((m + 1 : ℕ) : ℚ) := by push_cast; ring
      · intro p hp
        obtain ⟨hp, hu⟩ := Finset.mem_filter.1 hp
        have hpS := (Finset.mem_product.1 hp).1
        obtain ⟨h1, h2, h3⟩ := hE _ hpS
        simp only [used, List.mem_append, not_or] at hu
        refine ⟨by rw [List.length_append, h1, List.length_singleton], ?_, ?_⟩
        · rw [List.nodup_append]
          refine ⟨h2, List.nodup_singleton _, ?_⟩
          rintro a ha b hb rfl
          rw [List.mem_singleton.1 hb] at ha
          exact hu.2 ha
        · intro v hv
          rcases List.mem_append.1 hv with h | h
          · exact List.mem_cons_of_mem _ (h3 v h)
          · rw [List.mem_singleton.1 h]
            exact List.mem_cons_self
      · intro p hp i hi o w n a h
        obtain ⟨hp, hu⟩ := Finset.mem_filter.1 hp
        have hpS := (Finset.mem_product.1 hp).1
        simp only [used, List.mem_append, not_or] at hu
        have hl := (hE _ hpS).1
        rcases Nat.lt_succ_iff_lt_or_eq.1 hi with hi | rfl
        · rw [List.getD_append _ _ _ _ (by omega)] at h
          exact hK _ hpS i hi o w n a h
        · rw [List.getD_append_right _ _ _ _ (by omega), hl, Nat.sub_self] at h
          exact absurd (lookup_entropy h) hu.1
      · rw [add_assoc, add_comm 1 s']
        exact hF
    have hrest : |∑ p ∈ T.filter (fun p => ¬ p.2.1 ∉ used p.1), f p| ≤ W * (c + N) := by
      refine (Finset.abs_sum_le_sum_abs _ _).trans ((Finset.sum_le_card_nsmul _ _ 1 fun p _ => ?_).trans ?_)
      · exact abs_sub_le_one (run01 next _ _ _ hk) (ideal01 next _ hk')
      · rw [nsmul_eq_mul, mul_one]
        exact hbad
    rw [e, abs_div, abs_of_pos hD, div_le_iff₀ hD,
      ← Finset.sum_filter_add_sum_filter_not T (fun p => p.2.1 ∉ used p.1)]
    refine (abs_add_le _ _).trans ((add_le_add hgood hrest).trans ?_)
    have e2 : W * seeds * (ε + s' * (c + b + (N + 1 : ℕ) + s') / seeds) =
        W * (ε * seeds + s' * (c + b + (N + 1 : ℕ) + s')) := by
      field_simp
    have e3 : W * (ε + ((s' + 1 : ℕ) : ℚ) * (c + b + N + ((s' + 1 : ℕ) : ℚ)) / seeds) * seeds =
        W * (ε * seeds + ((s' + 1 : ℕ) : ℚ) * (c + b + N + ((s' + 1 : ℕ) : ℚ))) := by
      field_simp
    rw [e2, e3, ← mul_add]
    refine mul_le_mul_of_nonneg_left ?_ hW
    push_cast
    have hb : (0 : ℚ) ≤ b := Nat.cast_nonneg _
    have hs : (0 : ℚ) ≤ s' := Nat.cast_nonneg _
    nlinarith

end programs

/-- The programs' generators might as well be fresh randomness, for any observer that reads generators at
most `t` times and sees at most `n` runs. -/
theorem watcher_follows (code : (x : K) → Spec.Program (Pf x)) {s b : ℕ}
    (hd : ∀ x, (code x).Distinct 0 []) (hw : ∀ x, (code x).Within s b) (A : Spec.Watcher K Pf) :
    ∀ (l : Spec.HashLog) (r : Spec.ReadLog) (c m q t n : ℕ), A.Within q t n →
      Follows c m ((n * s * (c + t + b * n + s) + t * (m + s * n)) / seeds) r (fun R => A.yesRun code l R)
        (A.yes (fun x l k => (code x).ideal l k) l r) := by
  classical
  have hD : (0 : ℚ) < seeds := by exact_mod_cast Fintype.card_pos
  have h01 : ∀ (A : Spec.Watcher K Pf) l r, 0 ≤ A.yes (fun x l k => (code x).ideal l k) l r ∧
      A.yes (fun x l k => (code x).ideal l k) l r ≤ 1 := fun A =>
    watcher01 (fun x l f hf => ideal01 (code x) l hf) A
  have h01' : ∀ (A : Spec.Watcher K Pf) l r, 0 ≤ A.yesRun code l r ∧ A.yesRun code l r ≤ 1 := by
    intro A
    induction A with
    | done b => intro l r; cases b <;> simp [Spec.Watcher.yesRun]
    | toss next ih => intro l r; exact mean01 fun c => ih c l r
    | ask t next ih => intro l r; exact mean01 fun a => ih _ _ r
    | read q next ih => intro l r; exact mean01 fun a => ih _ l _
    | request x next ih => intro l r; exact run01 _ _ l r fun l' r' π => ih π l' r'
  induction A with
  | done x =>
    intro l r c m q t n _ Ω S W R hid hS
    simp only [Spec.Watcher.yesRun, Spec.Watcher.yes, sub_self, Finset.sum_const_zero, abs_zero]
    have := (Nat.cast_nonneg _).trans hS.card
    positivity
  | toss next ih =>
    intro l r c m q t n hA Ω S W R hid hS
    exact sum_mean_le fun a => ih a l r c m q t n (hA a) Ω S W R hid hS
  | ask u next ih =>
    intro l r c m q t n hA Ω S W R hid hS
    obtain ⟨q', rfl, hA⟩ := hA
    exact sum_mean_le fun a => ih _ (l.asked u a) r c m q' t n (hA _) Ω S W R hid hS
  | read v next ih =>
    intro l r c m q t n hA Ω S W R hid hS
    obtain ⟨t', rfl, hA⟩ := hA
    have hW : 0 ≤ W := (Nat.cast_nonneg _).trans hS.card
    rw [← Finset.sum_filter_not_add_sum_filter S (fun ω => v.entropy ∈ hid ω)]
    have h1 : |∑ ω ∈ S.filter (fun ω => v.entropy ∈ hid ω), ((Spec.Watcher.read v next).yesRun code l (R ω) -
        (Spec.Watcher.read v next).yes (fun x l k => (code x).ideal l k) l r)| ≤ W * (m / seeds) := by
      refine (Finset.abs_sum_le_sum_abs _ _).trans ((Finset.sum_le_card_nsmul _ _ 1 fun ω _ =>
        abs_sub_le_one (h01' _ _ _) (h01 _ _ _)).trans ?_)
      rw [nsmul_eq_mul, mul_one, ← mul_div_assoc, le_div_iff₀ hD]
      exact hS.guess _
    have h2 : |∑ ω ∈ S.filter (fun ω => ¬ v.entropy ∈ hid ω), ((Spec.Watcher.read v next).yesRun code l (R ω) -
        (Spec.Watcher.read v next).yes (fun x l k => (code x).ideal l k) l r)| ≤
        W * ((n * s * ((c + 1 : ℕ) + t' + b * n + s) + t' * (m + s * n)) / seeds) := by
      have e : ∑ ω ∈ S.filter (fun ω => ¬ v.entropy ∈ hid ω), ((Spec.Watcher.read v next).yesRun code l (R ω) -
          (Spec.Watcher.read v next).yes (fun x l k => (code x).ideal l k) l r) =
          ∑ ω ∈ S.filter (fun ω => ¬ v.entropy ∈ hid ω),
            ((Spec.mean fun a => (next ((r.lookup v).getD a)).yesRun code l ((R ω).asked v a)) -
              Spec.mean fun a => (next ((r.lookup v).getD a)).yes (fun x l k => (code x).ideal l k) l
                (r.asked v a)) := by
        refine Finset.sum_congr rfl fun ω hω => ?_
        obtain ⟨hωS, hv⟩ := Finset.mem_filter.1 hω
        simp only [Spec.Watcher.yesRun, Spec.Watcher.yes, hS.agree ω hωS v hv]
      rw [e]
      refine sum_mean_le fun a => ih _ l (r.asked v a) (c + 1) m q t' n (hA _) Ω _ W
        (fun ω => (R ω).asked v a) hid ⟨?_, ?_, ?_, ?_⟩
      · exact (by exact_mod_cast Finset.card_filter_le _ _ : (_ : ℚ) ≤ (S.card : ℚ)).trans hS.card
      · intro ω hω
        rw [Spec.ReadLog.asked, List.length_cons]
        exact Nat.succ_le_succ (hS.length ω (Finset.mem_filter.1 hω).1)
      · intro ω hω u hu
        obtain ⟨hωS, hv⟩ := Finset.mem_filter.1 hω
        rw [Spec.ReadLog.asked, Spec.ReadLog.asked, hS.agree ω hωS v hv, List.lookup_cons, List.lookup_cons,
          hS.agree ω hωS u hu]
      · intro u
        refine le_trans (mul_le_mul_of_nonneg_right ?_ hD.le) (hS.guess u)
        exact_mod_cast Finset.card_le_card (Finset.filter_subset_filter _ (Finset.filter_subset _ _))
    refine (abs_add_le _ _).trans ((add_le_add h2 h1).trans ?_)
    rw [← mul_add, ← add_div]
    refine mul_le_mul_of_nonneg_left (div_le_div_of_nonneg_right ?_ hD.le) hW
    push_cast
    have : (0 : ℚ) ≤ s * n := by positivity
    nlinarith
  | request x next ih =>
    intro l r c m q t n hA Ω S W R hid hS
    obtain ⟨n', rfl, hA⟩ := hA
    have hW : 0 ≤ W := (Nat.cast_nonneg _).trans hS.card
    refine (program_follows (code x) (r := r)
      (ε := (n' * s * ((c + b : ℕ) + t + b * n' + s) + t * ((m + s : ℕ) + s * n')) / seeds)
      (k := fun l' r' π => (next π).yesRun code l' r')
      (k' := fun l' π => (next π).yes (fun x l k => (code x).ideal l k) l' r)
      (fun l' r' π => h01' _ _ _) (fun l' π => h01 _ _ _) 0 [] c m s b l Ω S W R hid (fun _ => []) hS
      (fun ω _ => ⟨rfl, List.nodup_nil, fun v hv => absurd hv List.not_mem_nil⟩)
      (fun ω _ i hi => absurd hi (Nat.not_lt_zero _)) (hd x) (hw x)
      (fun l' π => ih π l' r (c + b) (m + s) q t n' (hA π))).trans ?_
    rw [← add_div]
    refine mul_le_mul_of_nonneg_left (div_le_div_of_nonneg_right ?_ hD.le) hW
    push_cast
    have h1 : (0 : ℚ) ≤ s * (b * n') := by positivity
    have h2 : (0 : ℚ) ≤ s * t := by positivity
    nlinarith

/-- The observer's advantage, from the start. -/
theorem watcher_advantage (code : (x : K) → Spec.Program (Pf x)) {s b : ℕ}
    (hd : ∀ x, (code x).Distinct 0 []) (hw : ∀ x, (code x).Within s b) (A : Spec.Watcher K Pf) {q t n : ℕ}
    (hA : A.Within q t n) :
    |A.yesRun code [] [] - A.yes (fun x l k => (code x).ideal l k) [] []| ≤
      n * s * (2 * t + b * n + s) / 2 ^ 256 := by
  have h := watcher_follows code hd hw A [] [] 0 0 q t n hA Unit {()} 1 (fun _ => []) (fun _ => [])
    ⟨by simp, fun _ _ => le_rfl, fun _ _ _ _ => rfl, fun v => by simp⟩
  rw [Finset.sum_singleton, one_mul] at h
  rw [← seeds_eq]
  refine h.trans (le_of_eq ?_)
  push_cast
  ring

end Sim

end Verif
