import Verif.Props.Code

/-!
# C89: forgeries against the code, with its own generators

The game of C84 for `Issuer::issue` and `SignalUser::show` as they are: run as the programs of C88, that draw some
of their scalars from transcript generators, with the hash and the generators being random functions that the
adversary can evaluate too.
-/

set_option maxRecDepth 100000
set_option exponentiation.threshold 600

namespace Verif

variable {G : Type} [AddCommGroup G] [Module F G] [Ristretto G]

/-! ## The game -/

namespace Spec.Present.Attack

variable {N : ℕ}

/-- A read of a transcript generator, with combinations of elements in any places: the transcript, the secrets and
the key the generator is made from, and the number of earlier reads. -/
structure Inspect (N : ℕ) where
  ops : Ask N
  witnesses : List (String × Datum (Lin N))
  entropy : Datum (Lin N)
  earlier : ℕ

/-- The read. -/
def Inspect.read (G : Type) [AddCommGroup G] [Module F G] [Ristretto G] (v : Hidden N) (s : View)
    (q : Inspect N) : Spec.Read :=
  ⟨q.ops.transcript G v s, q.witnesses.map fun w => (w.1, w.2.at fun L => enc (L.point v s : G)),
    q.entropy.at fun L => enc (L.point v s : G), q.earlier⟩

/-- An adversary as in C84 that can also read transcript generators. -/
inductive Reader (N : ℕ) where
  /-- have an attribute issued, and get the issuance with its proof -/
  | issue (m : F) (next : IssuanceRevealed.Proof → Reader N)
  /-- see a roster entry of another user, for the number `m` -/
  | enrol (m : F) (next : Reader N)
  /-- see a presentation of the user with the `i`-th roster entry, with both proofs -/
  | watch (i : ℕ) (next : ValidCredential.Proof → CommittedValuesEqual.Proof → Reader N)
  /-- test whether a combination is the identity -/
  | test (L : Lin N) (yes no : Reader N)
  /-- toss a coin -/
  | toss (next : F → Reader N)
  /-- ask the hash -/
  | hash (q : Ask N) (next : Spec.Answer → Reader N)
  /-- read a generator -/
  | read (q : Inspect N) (next : Spec.Answer → Reader N)
  /-- have `SignalIssuer::verify` check a presentation -/
  | present (p : Pres N) (next : Bool → Reader N)
  /-- have `SignalIssuer::verify_roster_membership` check the roster proof of a presentation -/
  | member (p : Pres N) (next : Bool → Reader N)
  /-- output a presentation -/
  | outputShow (p : Pres N)
  /-- output a presentation with a roster proof -/
  | outputMember (p : Pres N)

/-- At most `n` steps are made, and `t` reads. -/
def Reader.Within : Reader N → ℕ → ℕ → Prop
  | .issue _ next, n, t => ∃ k, n = k + 1 ∧ ∀ π, (next π).Within k t
  | .enrol _ next, n, t => ∃ k, n = k + 1 ∧ next.Within k t
  | .watch _ next, n, t => ∃ k, n = k + 1 ∧ ∀ π π', (next π π').Within k t
  | .test _ yes no, n, t => ∃ k, n = k + 1 ∧ yes.Within k t ∧ no.Within k t
  | .toss next, n, t => ∃ k, n = k + 1 ∧ ∀ c, (next c).Within k t
  | .hash _ next, n, t => ∃ k, n = k + 1 ∧ ∀ a, (next a).Within k t
  | .read _ next, n, t => ∃ u, t = u + 1 ∧ ∀ a, (next a).Within n u
  | .present _ next, n, t => ∃ k, n = k + 1 ∧ ∀ b, (next b).Within k t
  | .member _ next, n, t => ∃ k, n = k + 1 ∧ ∀ b, (next b).Within k t
  | .outputShow _, n, _ => ∃ k, n = k + 1
  | .outputMember _, n, _ => ∃ k, n = k + 1

/-- What the others do for the adversary. -/
inductive Req (N : ℕ) where
  /-- `Issuer::issue` for the attribute `m` -/
  | issue (m : F)
  /-- `SignalUser::show` by the `i`-th user, with the number `m` -/
  | watch (i : Fin N) (m : F)

/-- The scalars that are drawn, and the message. -/
def Req.Reply (G : Type) : Req N → Type
  | .issue _ => (F × F) × CredentialIssuance G
  | .watch _ _ => (F × F × F) × SignalCredentialPresentation G

/-- The code that is run, with the issuer's keys in `κ`. The nonce of the `i`-th user's credential has the
logarithm `β i`. -/
def code (β : Fin N → F) (κ : Hidden N) : (x : Req N) → Spec.Program (x.Reply G)
  | .issue m => Spec.Program.issueThen ⟨basepoint G, hPoint κ⟩ (.ofF (κ .x0)) (.ofF (κ .x1)) (.ofF m)
      fun d c => .ret (d, c)
  | .watch i m => Spec.Program.showThen ⟨basepoint G, hPoint κ⟩ (κ .x1 • hPoint κ)
      ⟨⟨β i • basepoint G, (κ .x0 + κ .x1 * m) • (β i • basepoint G)⟩, [.ofF m]⟩ (.ofF m)
      ⟨entry G κ i m, .ofF (κ (.y i))⟩ fun d p => .ret (d, p)

/-- The unknowns after an issuance: nonce and opening of the commitment to `x0`. -/
def issuedAt (v : Hidden N) (j : Fin N) (d : F × F) : Hidden N :=
  Function.update (Function.update v (.b j) d.1) (.t j) d.2

/-- The unknowns after a presentation: opening of the attribute, nonce, opening of the MAC. -/
def watchedAt (v : Hidden N) (j : Fin N) (d : F × F × F) : Hidden N :=
  Function.update (Function.update (Function.update v (.zeta j) d.1) (.rho j) d.2.1) (.xi j) d.2.2

open Classical in
/-- The game: the adversary, and how its steps are answered. `v` has the unknowns so far. -/
noncomputable def Reader.game (G : Type) [AddCommGroup G] [Module F G] [Ristretto G] (O : Oracle)
    (β : Fin N → F) : Reader N → Scene → Hidden N → Spec.Watcher (Req N) (Req.Reply G)
  | .issue m next, S, v =>
    if hN : S.view.issued.length < N then
      .request (.issue m) fun c : (F × F) × CredentialIssuance G =>
        (next c.2.proof).game G O β ⟨{ S.view with issued := S.view.issued ++ [m] }, S.sent⟩
          (issuedAt v ⟨_, hN⟩ c.1)
    else .done false
  | .enrol m next, S, v =>
    if S.view.enrolled.length < N then
      next.game G O β ⟨{ S.view with enrolled := S.view.enrolled ++ [m] }, S.sent⟩ v
    else .done false
  | .watch i next, S, v =>
    match S.view.enrolled[i]? with
    | none => .done false
    | some m =>
      if hN : S.view.watched.length < N ∧ i < N then
        .request (.watch ⟨i, hN.2⟩ m) fun c : (F × F × F) × SignalCredentialPresentation G =>
          (next c.2.presentation.proof c.2.rosterMembershipProof).game G O β
            ⟨{ S.view with watched := S.view.watched ++ [m] },
              S.sent ++ [⟨i, c.2.presentation.proof, c.2.rosterMembershipProof⟩]⟩
            (watchedAt v ⟨_, hN.1⟩ (c.1.1, c.1.2.1 * β ⟨i, hN.2⟩, c.1.2.2))
      else .done false
  | .test L yes no, S, v =>
    if (L.point v S.view : G) = 0 then yes.game G O β S v else no.game G O β S v
  | .toss next, S, v => .toss fun c => (next c).game G O β S v
  | .hash q next, S, v => .ask (q.transcript G v S.view) fun a => (next a).game G O β S v
  | .read q next, S, v => .read (q.read G v S.view) fun a => (next a).game G O β S v
  | .present p next, S, v =>
    let pt := p.points G v S.view
    .ask (showTranscript v pt) fun a =>
      (next (decide (Shows O v [(showTranscript v pt, a)] pt))).game G O β S v
  | .member p next, S, v =>
    let pt := p.points G v S.view
    .ask (memberTranscript v pt) fun a =>
      (next (decide (Belongs O v [(memberTranscript v pt, a)] pt))).game G O β S v
  | .outputShow p, S, v =>
    let pt := p.points G v S.view
    .ask (showTranscript v pt) fun a =>
      .done (decide (Shows O v [(showTranscript v pt, a)] pt ∧ (p.P.point v S.view : G) ≠ 0 ∧
        ¬ Copies v S pt ∧ ∀ m, ¬ Opens G v S.view p m))
  | .outputMember p, S, v =>
    let pt := p.points G v S.view
    .ask (showTranscript v pt) fun a => .ask (memberTranscript v pt) fun a' =>
      .done (decide (Shows O v [(showTranscript v pt, a)] pt ∧ Belongs O v [(memberTranscript v pt, a')] pt ∧
        (p.P.point v S.view : G) ≠ 0 ∧ ¬ CopiesAll v S pt ∧
        ∀ m, ¬ (Opens G v S.view p m ∧ OpensRoster G v S.view p m)))

/-- The unknowns before anything happens: the keys and the openings of roster entries are drawn as 64 bytes, and
the logarithm of `h` is uniform. The others are overwritten by what is drawn later. -/
def start (η : F) (w : Var N → Spec.Answer) : Hidden N
  | .eta => η
  | x => Spec.coin (w x).1

/-- The probability that the adversary wins against the code. -/
noncomputable def Reader.probability (G : Type) [AddCommGroup G] [Module F G] [Ristretto G] (O : Oracle)
    (β : Fin N → F) (A : Reader N) : ℚ :=
  Spec.mean fun η : F => Spec.mean fun w : Var N → Spec.Answer =>
    (A.game G O β ⟨⟨[], [], []⟩, []⟩ (start η w)).yesRun (code β (start η w)) [] []

end Spec.Present.Attack

/-! ## Proof -/

namespace Forge

open Spec.Present Spec.Present.Attack Present

variable {N : ℕ}

theorem game_within (O : Oracle) (β : Fin N → F) (A : Reader N) : ∀ n t, A.Within n t → ∀ S v q n', 2 * n ≤ q →
    n ≤ n' → (A.game G O β S v).Within q t n' := by
  classical
  have succ : ∀ {k m : ℕ}, k + 1 ≤ m → ∃ m', m = m' + 1 ∧ k ≤ m' := fun {k m} h => ⟨m - 1, by omega, by omega⟩
  induction A with
  | issue m next ih =>
    rintro _ t ⟨k, rfl, hk⟩ S v q n' hq hn
    obtain ⟨n', rfl, hn⟩ := succ hn
    rw [Reader.game]
    split
    · exact ⟨n', rfl, fun c => ih _ k t (hk _) _ _ q n' (by omega) (by omega)⟩
    · trivial
  | enrol m next ih =>
    rintro _ t ⟨k, rfl, hk⟩ S v q n' hq hn
    rw [Reader.game]
    split
    · exact ih k t hk _ _ q n' (by omega) (by omega)
    · trivial
  | watch i next ih =>
    rintro _ t ⟨k, rfl, hk⟩ S v q n' hq hn
    obtain ⟨n', rfl, hn⟩ := succ hn
    rw [Reader.game]
    split
    · trivial
    · split
      · exact ⟨n', rfl, fun c => ih _ _ k t (hk _ _) _ _ q n' (by omega) (by omega)⟩
      · trivial
  | test L yes no ih ih' =>
    rintro _ t ⟨k, rfl, hy, hn⟩ S v q n' hq hn'
    rw [Reader.game]
    split
    · exact ih k t hy _ _ q n' (by omega) (by omega)
    · exact ih' k t hn _ _ q n' (by omega) (by omega)
  | toss next ih =>
    rintro _ t ⟨k, rfl, hk⟩ S v q n' hq hn
    exact fun c => ih c k t (hk c) _ _ q n' (by omega) (by omega)
  | hash u next ih =>
    rintro _ t ⟨k, rfl, hk⟩ S v q n' hq hn
    exact ⟨q - 1, by omega, fun a => ih a k t (hk a) _ _ _ n' (by omega) (by omega)⟩
  | read u next ih =>
    rintro n _ ⟨t, rfl, hk⟩ S v q n' hq hn
    exact ⟨t, rfl, fun a => ih a n t (hk a) _ _ _ n' hq hn⟩
  | present p next ih =>
    rintro _ t ⟨k, rfl, hk⟩ S v q n' hq hn
    exact ⟨q - 1, by omega, fun a => ih _ k t (hk _) _ _ _ n' (by omega) (by omega)⟩
  | member p next ih =>
    rintro _ t ⟨k, rfl, hk⟩ S v q n' hq hn
    exact ⟨q - 1, by omega, fun a => ih _ k t (hk _) _ _ _ n' (by omega) (by omega)⟩
  | outputShow p =>
    rintro _ t ⟨k, rfl⟩ S v q n' hq hn
    exact ⟨q - 1, by omega, fun a => trivial⟩
  | outputMember p =>
    rintro _ t ⟨k, rfl⟩ S v q n' hq hn
    exact ⟨q - 1, by omega, fun a => ⟨q - 2, by omega, fun a' => trivial⟩⟩

/-! ### The programs -/

theorem code_distinct (β : Fin N → F) (κ : Hidden N) (x : Req N) :
    (code (G := G) β κ x).Distinct 0 [] ∧ (code (G := G) β κ x).Within 3 8 := by
  cases x <;> simp [code, Spec.Program.showThen, Spec.Program.issueThen, Spec.Program.validCredential,
    Spec.Program.committedValuesEqual, Spec.Program.issuanceRevealed, Spec.Program.Distinct, Spec.Program.Within]

/-- An issuance with nonce `d.1` and opening `d.2`. -/
noncomputable def issueWith (pr : Provers G) (κ : Hidden N) (m : F) (l : Spec.HashLog)
    (k : Spec.HashLog → (F × F) × CredentialIssuance G → ℚ) (d : F × F) : ℚ :=
  pr.issuance ⟨d.1 • basepoint G, (κ .x0 + κ .x1 * m) • (d.1 • basepoint G),
      κ .x0 • basepoint G + d.2 • hPoint κ, basepoint G, hPoint κ, κ .x1 • hPoint κ⟩
    ⟨.ofF (κ .x0), .ofF (κ .x1), .ofF d.2, .ofF m * .ofF (κ .x1)⟩ l fun l' π =>
  k l' (d, ⟨κ .x0 • basepoint G + d.2 • hPoint κ,
    ⟨⟨d.1 • basepoint G, (κ .x0 + κ .x1 * m) • (d.1 • basepoint G)⟩, [.ofF m]⟩, π⟩)

/-- A presentation with openings `d.1`, `d.2.2`, where the nonce is multiplied by `d.2.1`. -/
noncomputable def watchWith (pr : Provers G) (β : Fin N → F) (κ : Hidden N) (i : Fin N) (m : F) (l : Spec.HashLog)
    (k : Spec.HashLog → (F × F × F) × SignalCredentialPresentation G → ℚ) (d : F × F × F) : ℚ :=
  pr.credential ⟨basepoint G, hPoint κ, κ .x1 • hPoint κ, d.2.1 • (β i • basepoint G),
      d.1 • (κ .x1 • hPoint κ) - d.2.2 • hPoint κ,
      m • (d.2.1 • (β i • basepoint G)) + d.1 • hPoint κ⟩
    ⟨.ofF m, .ofF d.1, -.ofF d.2.2⟩ l fun l' π =>
  pr.roster ⟨basepoint G, hPoint κ, d.2.1 • (β i • basepoint G),
      m • (d.2.1 • (β i • basepoint G)) + d.1 • hPoint κ, entry G κ i m⟩
    ⟨.ofF m, .ofF d.1, .ofF (κ (.y i))⟩ l' fun l'' π' =>
  k l'' (d, ⟨entry G κ i m,
    ⟨d.2.1 • ((κ .x0 + κ .x1 * m) • (β i • basepoint G)) + d.2.2 • hPoint κ,
      d.2.1 • (β i • basepoint G), [], [m • (d.2.1 • (β i • basepoint G)) + d.1 • hPoint κ], π⟩, π'⟩)

/-- The others, with fresh uniform scalars. -/
noncomputable def fresh (pr : Provers G) (β : Fin N → F) (κ : Hidden N) : Spec.Server (Req N) (Req.Reply G)
  | .issue m, l, k => Spec.mean (issueWith pr κ m l k)
  | .watch i m, l, k => Spec.mean (watchWith pr β κ i m l k)

theorem issueThen_ideal (O : Oracle) (κ : Hidden N) (m : F) (l : Spec.HashLog)
    (k : Spec.HashLog → (F × F) × CredentialIssuance G → ℚ) :
    (Spec.Program.issueThen ⟨basepoint G, hPoint κ⟩ (.ofF (κ .x0)) (.ofF (κ .x1)) (.ofF m)
      fun d c => .ret (d, c)).ideal l k = Spec.mean fun a : Spec.Answer × Spec.Answer =>
        issueWith (Spec.Present.Attack.drawn O) κ m l k (Spec.coin a.1.1, Spec.coin a.2.1) := by
  simp only [Spec.Program.issueThen, Spec.Program.ideal, Code.issuanceRevealed_ideal O, Scalar.val_ofF,
    Sim.mean_pair]
  rfl

theorem showThen_ideal (O : Oracle) (β : Fin N → F) (κ : Hidden N) (i : Fin N) (m : F) (l : Spec.HashLog)
    (k : Spec.HashLog → (F × F × F) × SignalCredentialPresentation G → ℚ) :
    (Spec.Program.showThen ⟨basepoint G, hPoint κ⟩ (κ .x1 • hPoint κ)
      ⟨⟨β i • basepoint G, (κ .x0 + κ .x1 * m) • (β i • basepoint G)⟩, [.ofF m]⟩ (.ofF m)
      ⟨entry G κ i m, .ofF (κ (.y i))⟩ fun d p => .ret (d, p)).ideal l k =
      Spec.mean fun a : Spec.Answer × Spec.Answer × Spec.Answer =>
        watchWith (Spec.Present.Attack.drawn O) β κ i m l k (Spec.drawn3 a) := by
  simp only [Spec.Program.showThen, Spec.Program.ideal, Code.validCredential_ideal O,
    Code.committedValuesEqual_ideal O, Scalar.val_ofF, Sim.mean_pair]
  rfl

theorem issueWith_alike {pr pr' : Provers G} (hr : Attack.Fair pr) {δ : ℚ}
    (hp : ∀ p s l f g ε, (∀ l' π, 0 ≤ f l' π ∧ f l' π ≤ 1) → (∀ l' π, |f l' π - g l' π| ≤ ε) →
      |pr.issuance p s l f - pr'.issuance p s l g| ≤ ε + δ) (κ : Hidden N) (m : F) (l : Spec.HashLog)
    {f g : Spec.HashLog → (F × F) × CredentialIssuance G → ℚ} {ε : ℚ} (hf : ∀ l' x, 0 ≤ f l' x ∧ f l' x ≤ 1)
    (h : ∀ l' x, |f l' x - g l' x| ≤ ε) :
    |(Spec.mean fun a : Spec.Answer × Spec.Answer => issueWith pr κ m l f (Spec.coin a.1.1, Spec.coin a.2.1)) -
      Spec.mean (issueWith pr' κ m l g)| ≤ ε + δ + (Coins.bias + Coins.bias) := by
  refine (Coins.near1.prod Coins.near1).mean (f := issueWith pr κ m l f) (g := issueWith pr' κ m l g)
    (fun d => ?_) fun d => ?_
  · exact hr.issuance _ _ _ _ fun _ _ => hf _ _
  · exact hp _ _ _ _ _ _ (fun _ _ => hf _ _) fun _ _ => h _ _

theorem watchWith_alike {pr pr' : Provers G} (hr : Attack.Fair pr) (hp : Coins.AlikeProvers pr pr') (β : Fin N → F)
    (κ : Hidden N) (i : Fin N) (m : F) (l : Spec.HashLog)
    {f g : Spec.HashLog → (F × F × F) × SignalCredentialPresentation G → ℚ} {ε : ℚ}
    (hf : ∀ l' x, 0 ≤ f l' x ∧ f l' x ≤ 1) (h : ∀ l' x, |f l' x - g l' x| ≤ ε) :
    |(Spec.mean fun a : Spec.Answer × Spec.Answer × Spec.Answer => watchWith pr β κ i m l f (Spec.drawn3 a)) -
      Spec.mean (watchWith pr' β κ i m l g)| ≤ ε + 3 * Coins.bias + 3 * Coins.bias + 3 * Coins.bias := by
  refine Coins.near3.mean (f := watchWith pr β κ i m l f) (g := watchWith pr' β κ i m l g)
    (fun d => ?_) fun d => ?_
  · exact hr.credential _ _ _ _ fun _ _ => hr.roster _ _ _ _ fun _ _ => hf _ _
  · exact hp.credential _ _ l _ _ _ (fun _ _ => hr.roster _ _ _ _ fun _ _ => hf _ _) fun l' π =>
      hp.roster _ _ l' _ _ _ (fun _ _ => hf _ _) fun _ _ => h _ _

theorem fresh_alike (O : Oracle) (β : Fin N → F) (κ : Hidden N) :
    Coins.Alike (9 * Coins.bias) (fun x l k => (code (G := G) β κ x).ideal l k) (fresh (honest O) β κ) where
  range x l f hf := Sim.ideal01 _ l hf
  alike x l f g ε hf h := by
    have hb := Coins.bias_nonneg
    cases x with
    | issue m =>
      have e := issueThen_ideal O κ m l f
      have h1 := issueWith_alike (Coins.fair_drawn (G := G) O) (pr' := honest O) (δ := 4 * Coins.bias)
        (fun p s l f g ε hf h => Coins.IssuanceRevealed.alike O _ _ _ l hf h) κ m l (g := g) hf h
      rw [← e] at h1
      refine h1.trans ?_
      linarith
    | watch i m =>
      have e := showThen_ideal O β κ i m l f
      have h1 := watchWith_alike (Coins.fair_drawn (G := G) O) (Coins.provers_alike O) β κ i m l (g := g) hf h
      rw [← e] at h1
      refine h1.trans ?_
      linarith

/-! ### Scalars drawn early or late -/

/-- The unknowns that are drawn at the start, or with the messages so far. -/
def known (s : View) : Var N → Bool
  | .b j => decide (j.1 < s.issued.length)
  | .t j => decide (j.1 < s.issued.length)
  | .rho j => decide (j.1 < s.watched.length)
  | .zeta j => decide (j.1 < s.watched.length)
  | .xi j => decide (j.1 < s.watched.length)
  | _ => true

/-- The unknowns `v` as far as they are drawn, and then `w`. -/
def merge (s : View) (v w : Hidden N) : Hidden N := fun x => if known s x then v x else w x

/-- The unknowns that are drawn at the start are the same. -/
structure Same (v κ : Hidden N) : Prop where
  x0 : v .x0 = κ .x0
  x1 : v .x1 = κ .x1
  eta : v .eta = κ .eta
  y : ∀ i, v (.y i) = κ (.y i)

theorem same_merge (s : View) (v w : Hidden N) : Same (merge s v w) v :=
  ⟨rfl, rfl, rfl, fun _ => rfl⟩

theorem Same.trans {u v w : Hidden N} (h : Same u v) (h' : Same v w) : Same u w :=
  ⟨h.x0.trans h'.x0, h.x1.trans h'.x1, h.eta.trans h'.eta, fun i => (h.y i).trans (h'.y i)⟩

theorem Same.hPoint {v κ : Hidden N} (h : Same v κ) : (hPoint v : G) = hPoint κ := by
  rw [Spec.Present.hPoint, Spec.Present.hPoint, h.eta]

theorem same_issuedAt (v : Hidden N) (j : Fin N) (d : F × F) : Same (issuedAt v j d) v :=
  ⟨rfl, rfl, rfl, fun _ => rfl⟩

theorem same_watchedAt (v : Hidden N) (j : Fin N) (d : F × F × F) : Same (watchedAt v j d) v :=
  ⟨rfl, rfl, rfl, fun _ => rfl⟩

theorem merge_issued (S : View) (v w : Hidden N) (hN : S.issued.length < N) (m : F) (d : F × F) :
    merge S v (issuedAt w ⟨_, hN⟩ d) = merge { S with issued := S.issued ++ [m] } (issuedAt v ⟨_, hN⟩ d) w := by
  funext x
  cases x with
  | b k =>
    by_cases hk : k.1 = S.issued.length
    · obtain rfl : k = ⟨_, hN⟩ := Fin.ext hk
      simp [merge, known, issuedAt]
    · have : k ≠ ⟨_, hN⟩ := fun h => hk (congrArg Fin.val h)
      have e : k.1 < S.issued.length + 1 ↔ k.1 < S.issued.length := by omega
      simp [merge, known, issuedAt, this, e]
  | t k =>
    by_cases hk : k.1 = S.issued.length
    · obtain rfl : k = ⟨_, hN⟩ := Fin.ext hk
      simp [merge, known, issuedAt]
    · have : k ≠ ⟨_, hN⟩ := fun h => hk (congrArg Fin.val h)
      have e : k.1 < S.issued.length + 1 ↔ k.1 < S.issued.length := by omega
      simp [merge, known, issuedAt, this, e]
  | _ => simp [merge, known, issuedAt]

theorem issued_merge (S : View) (v w : Hidden N) (hN : S.issued.length < N) (m : F) (d : F × F) :
    issuedAt (merge S v w) ⟨_, hN⟩ d = merge { S with issued := S.issued ++ [m] } (issuedAt v ⟨_, hN⟩ d) w := by
  funext x
  cases x with
  | b k =>
    by_cases hk : k.1 = S.issued.length
    · obtain rfl : k = ⟨_, hN⟩ := Fin.ext hk
      simp [merge, known, issuedAt]
    · have : k ≠ ⟨_, hN⟩ := fun h => hk (congrArg Fin.val h)
      have e : k.1 < S.issued.length + 1 ↔ k.1 < S.issued.length := by omega
      simp [merge, known, issuedAt, this, e]
  | t k =>
    by_cases hk : k.1 = S.issued.length
    · obtain rfl : k = ⟨_, hN⟩ := Fin.ext hk
      simp [merge, known, issuedAt]
    · have : k ≠ ⟨_, hN⟩ := fun h => hk (congrArg Fin.val h)
      have e : k.1 < S.issued.length + 1 ↔ k.1 < S.issued.length := by omega
      simp [merge, known, issuedAt, this, e]
  | _ => simp [merge, known, issuedAt]

theorem merge_watched (S : View) (v w : Hidden N) (hN : S.watched.length < N) (m : F) (d : F × F × F) :
    merge S v (watchedAt w ⟨_, hN⟩ d) = merge { S with watched := S.watched ++ [m] } (watchedAt v ⟨_, hN⟩ d) w := by
  have key : ∀ k : Fin N, k.1 ≠ S.watched.length → k ≠ ⟨_, hN⟩ ∧
      (k.1 < S.watched.length + 1 ↔ k.1 < S.watched.length) := fun k hk =>
    ⟨fun h => hk (congrArg Fin.val h), by omega⟩
  funext x
  cases x with
  | rho k =>
    by_cases hk : k.1 = S.watched.length
    · obtain rfl : k = ⟨_, hN⟩ := Fin.ext hk
      simp [merge, known, watchedAt]
    · simp [merge, known, watchedAt, key k hk]
  | zeta k =>
    by_cases hk : k.1 = S.watched.length
    · obtain rfl : k = ⟨_, hN⟩ := Fin.ext hk
      simp [merge, known, watchedAt]
    · simp [merge, known, watchedAt, key k hk]
  | xi k =>
    by_cases hk : k.1 = S.watched.length
    · obtain rfl : k = ⟨_, hN⟩ := Fin.ext hk
      simp [merge, known, watchedAt]
    · simp [merge, known, watchedAt, key k hk]
  | _ => simp [merge, known, watchedAt]

theorem watched_merge (S : View) (v w : Hidden N) (hN : S.watched.length < N) (m : F) (d : F × F × F) :
    watchedAt (merge S v w) ⟨_, hN⟩ d = merge { S with watched := S.watched ++ [m] } (watchedAt v ⟨_, hN⟩ d) w := by
  have key : ∀ k : Fin N, k.1 ≠ S.watched.length → k ≠ ⟨_, hN⟩ ∧
      (k.1 < S.watched.length + 1 ↔ k.1 < S.watched.length) := fun k hk =>
    ⟨fun h => hk (congrArg Fin.val h), by omega⟩
  funext x
  cases x with
  | rho k =>
    by_cases hk : k.1 = S.watched.length
    · obtain rfl : k = ⟨_, hN⟩ := Fin.ext hk
      simp [merge, known, watchedAt]
    · simp [merge, known, watchedAt, key k hk]
  | zeta k =>
    by_cases hk : k.1 = S.watched.length
    · obtain rfl : k = ⟨_, hN⟩ := Fin.ext hk
      simp [merge, known, watchedAt]
    · simp [merge, known, watchedAt, key k hk]
  | xi k =>
    by_cases hk : k.1 = S.watched.length
    · obtain rfl : k = ⟨_, hN⟩ := Fin.ext hk
      simp [merge, known, watchedAt]
    · simp [merge, known, watchedAt, key k hk]
  | _ => simp [merge, known, watchedAt]

theorem mean_update (x : Var N) (f : Hidden N → ℚ) :
    Spec.mean f = Spec.mean fun a : F => Spec.mean fun w => f (Function.update w x a) := by
  let e : F × Hidden N ≃ F × Hidden N :=
    { toFun := fun p => (p.2 x, Function.update p.2 x p.1)
      invFun := fun p => (p.2 x, Function.update p.2 x p.1)
      left_inv := fun p => by simp
      right_inv := fun p => by simp }
  rw [← Sim.mean_pair fun p : F × Hidden N => f (Function.update p.2 x p.1)]
  have h := Sim.mean_equiv e fun p : F × Hidden N => f p.2
  refine Eq.trans ?_ h.symm
  rw [Sim.mean_pair]
  exact (Sim.mean_const (α := F) (Spec.mean f)).symm

theorem mean_issuedAt (j : Fin N) (f : Hidden N → ℚ) :
    Spec.mean f = Spec.mean fun d : F × F => Spec.mean fun w => f (issuedAt w j d) := by
  have h : ∀ z : F, (Spec.mean fun w : Hidden N => f (Function.update w (.t j) z)) =
      Spec.mean fun b : F => Spec.mean fun w : Hidden N => f (issuedAt w j (b, z)) := fun z =>
    mean_update (.b j) fun w => f (Function.update w (.t j) z)
  rw [Sim.mean_pair, Sim.mean_comm]
  exact (mean_update (.t j) f).trans (Sim.mean_congr h)

theorem mean_watchedAt (j : Fin N) (f : Hidden N → ℚ) :
    Spec.mean f = Spec.mean fun d : F × F × F => Spec.mean fun w => f (watchedAt w j d) := by
  have h : ∀ ξ : F, (Spec.mean fun w : Hidden N => f (Function.update w (.xi j) ξ)) =
      Spec.mean fun ρ : F => Spec.mean fun w : Hidden N =>
        f (Function.update (Function.update w (.rho j) ρ) (.xi j) ξ) := fun ξ =>
    mean_update (.rho j) fun w => f (Function.update w (.xi j) ξ)
  have h' : ∀ ρ ξ : F, (Spec.mean fun w : Hidden N => f (Function.update (Function.update w (.rho j) ρ) (.xi j) ξ)) =
      Spec.mean fun ζ : F => Spec.mean fun w : Hidden N => f (watchedAt w j (ζ, ρ, ξ)) := fun ρ ξ =>
    mean_update (.zeta j) fun w => f (Function.update (Function.update w (.rho j) ρ) (.xi j) ξ)
  have e : (Spec.mean fun d : F × F × F => Spec.mean fun w => f (watchedAt w j d)) =
      Spec.mean fun ξ : F => Spec.mean fun ρ : F => Spec.mean fun ζ : F => Spec.mean fun w : Hidden N =>
        f (watchedAt w j (ζ, ρ, ξ)) := by
    rw [Sim.mean_pair, Sim.mean_comm, Sim.mean_pair, Sim.mean_comm]
  rw [e]
  exact (mean_update (.xi j) f).trans (Sim.mean_congr fun ξ => (h ξ).trans (Sim.mean_congr fun ρ => h' ρ ξ))

/-! ### Elements depend on what is drawn only -/

theorem point_merge (L : Lin N) (s : View) (v w : Hidden N) : (L.point (merge s v w) s : G) = L.point v s := by
  unfold Lin.point
  rw [(same_merge s v w).hPoint, (same_merge s v w).x0, (same_merge s v w).x1]
  congr 1
  · congr 1
    · congr 1
      refine Finset.sum_congr rfl fun j _ => ?_
      cases h : s.issued[j.1]? with
      | none => rfl
      | some m =>
        have hj : j.1 < s.issued.length := (List.getElem?_eq_some_iff.1 h).1
        simp only [merge, known, hj, decide_true, if_true]
    · refine Finset.sum_congr rfl fun j _ => ?_
      cases h : s.watched[j.1]? with
      | none => rfl
      | some m =>
        have hj : j.1 < s.watched.length := (List.getElem?_eq_some_iff.1 h).1
        simp only [merge, known, hj, decide_true, if_true]

theorem transcript_merge (q : Ask N) (s : View) (v w : Hidden N) :
    q.transcript G (merge s v w) s = q.transcript G v s := by
  unfold Ask.transcript
  simp only [point_merge]

theorem read_merge (q : Inspect N) (s : View) (v w : Hidden N) :
    q.read G (merge s v w) s = q.read G v s := by
  simp only [Inspect.read, transcript_merge, point_merge]

theorem points_merge (p : Pres N) (s : View) (v w : Hidden N) :
    p.points G (merge s v w) s = p.points G v s := by
  simp only [Pres.points, point_merge]

theorem showTranscript_merge (p : SignalCredentialPresentation G) (s : View) (v w : Hidden N) :
    showTranscript (merge s v w) p = showTranscript v p := by
  simp only [showTranscript, (same_merge s v w).hPoint, (same_merge s v w).x0, (same_merge s v w).x1]

theorem memberTranscript_merge (p : SignalCredentialPresentation G) (s : View) (v w : Hidden N) :
    memberTranscript (merge s v w) p = memberTranscript v p := by
  simp only [memberTranscript, (same_merge s v w).hPoint]

/-! ### The game of C84 -/

end Forge

/-- A transcript that starts with this is not one of a proof. -/
abbrev Forge.mark {A : Type} : Spec.Present.Attack.Act A := .challenge "" 0

/-- Questions to the hash, apart from reads. -/
def Forge.asked {A : Type} : List (Spec.Present.Attack.Act A) → List (Spec.Present.Attack.Act A)
  | .challenge "" 0 :: q => mark :: mark :: q
  | q => q

/-- Reads, apart from questions to the hash. -/
def Forge.packed {A : Type} (ops : List (Spec.Present.Attack.Act A))
    (witnesses : List (String × Spec.Present.Attack.Datum A)) (entropy : Spec.Present.Attack.Datum A) (earlier : ℕ) :
    List (Spec.Present.Attack.Act A) :=
  mark :: .commit "" entropy :: .challenge "" earlier :: (witnesses.map fun w => .commit w.1 w.2) ++ .init "" :: ops

/-- The adversary of C84 that asks the hash instead of reading generators. -/
def Spec.Present.Attack.Reader.ask {N : ℕ} : Reader N → Attacker N
  | .issue m next => .issue m fun π => (next π).ask
  | .enrol m next => .enrol m next.ask
  | .watch i next => .watch i fun π π' => (next π π').ask
  | .test L yes no => .test L yes.ask no.ask
  | .toss next => .toss fun c => (next c).ask
  | .hash q next => .hash (Forge.asked q) fun a => (next a).ask
  | .read q next => .hash (Forge.packed q.ops q.witnesses q.entropy q.earlier) fun a => (next a).ask
  | .present p next => .present p fun b => (next b).ask
  | .member p next => .member p fun b => (next b).ask
  | .outputShow p => .outputShow p
  | .outputMember p => .outputMember p

namespace Forge

open Spec.Present Spec.Present.Attack Present

variable {N : ℕ}

theorem ask_within (A : Reader N) : ∀ n t, A.Within n t → (A.ask).Within (n + t) := by
  have e : ∀ k t : ℕ, k + 1 + t = k + t + 1 := fun k t => by omega
  induction A with
  | issue m next ih => rintro _ t ⟨k, rfl, hk⟩; exact ⟨k + t, e k t, fun π => ih π k t (hk π)⟩
  | enrol m next ih => rintro _ t ⟨k, rfl, hk⟩; exact ⟨k + t, e k t, ih k t hk⟩
  | watch i next ih => rintro _ t ⟨k, rfl, hk⟩; exact ⟨k + t, e k t, fun π π' => ih π π' k t (hk π π')⟩
  | test L yes no ih ih' => rintro _ t ⟨k, rfl, hy, hn⟩; exact ⟨k + t, e k t, ih k t hy, ih' k t hn⟩
  | toss next ih => rintro _ t ⟨k, rfl, hk⟩; exact ⟨k + t, e k t, fun c => ih c k t (hk c)⟩
  | hash q next ih => rintro _ t ⟨k, rfl, hk⟩; exact ⟨k + t, e k t, fun a => ih a k t (hk a)⟩
  | read q next ih => rintro n _ ⟨t, rfl, hk⟩; exact ⟨n + t, rfl, fun a => ih a n t (hk a)⟩
  | present p next ih => rintro _ t ⟨k, rfl, hk⟩; exact ⟨k + t, e k t, fun b => ih b k t (hk b)⟩
  | member p next ih => rintro _ t ⟨k, rfl, hk⟩; exact ⟨k + t, e k t, fun b => ih b k t (hk b)⟩
  | outputShow p => rintro _ t ⟨k, rfl⟩; exact ⟨k + t, e k t⟩
  | outputMember p => rintro _ t ⟨k, rfl⟩; exact ⟨k + t, e k t⟩

/-! ### One function for the hash and the generators -/

/-- `asked` on transcripts. -/
def askedT : Transcript → Transcript
  | .challenge "" 0 :: q => .challenge "" 0 :: .challenge "" 0 :: q
  | q => q

/-- `packed` on reads. -/
def packedT (q : Spec.Read) : Transcript :=
  .challenge "" 0 :: .commit "" q.entropy :: .challenge "" q.earlier ::
    (q.witnesses.map fun w => .commit w.1 w.2) ++ .init "" :: q.ops

theorem asked_transcript (q : Ask N) (v : Hidden N) (s : View) :
    Ask.transcript G v s (asked q) = askedT (q.transcript G v s) := by
  unfold asked
  split
  · rfl
  · rename_i h
    unfold askedT
    split
    · rename_i t ht
      cases q with
      | nil => cases ht
      | cons a q =>
        obtain ⟨h1, -⟩ := List.cons.inj ht
        cases a with
        | init l => cases h1
        | commit l d => cases h1
        | challenge l n =>
          obtain ⟨rfl, rfl⟩ := Op.challenge.inj h1
          exact (h q rfl).elim
    · rfl

theorem packed_transcript (q : Inspect N) (v : Hidden N) (s : View) :
    Ask.transcript G v s (packed q.ops q.witnesses q.entropy q.earlier) = packedT (q.read G v s) := by
  simp only [Ask.transcript, packed, packedT, Inspect.read, List.map_append, List.map_cons, List.map_map, Act.at,
    Function.comp_def]

theorem askedT_inj {t t' : Transcript} (h : askedT t = askedT t') : t = t' := by
  unfold askedT at h
  split at h <;> split at h
  · exact (List.cons.inj h).2
  · rename_i h' 
    exact (h' _ h.symm).elim
  · rename_i h' _ _
    exact (h' _ h).elim
  · exact h

theorem packedT_inj {q q' : Spec.Read} (h : packedT q = packedT q') : q = q' := by
  have key : ∀ (ws ws' : List (String × Bytes)) (t t' : Transcript),
      (ws.map fun w => Op.commit w.1 w.2) ++ .init "" :: t = (ws'.map fun w => Op.commit w.1 w.2) ++ .init "" :: t' →
      ws = ws' ∧ t = t' := by
    intro ws
    induction ws with
    | nil =>
      intro ws' t t' h
      cases ws' with
      | nil => exact ⟨rfl, (List.cons.inj h).2⟩
      | cons w ws' => cases (List.cons.inj h).1
    | cons w ws ih =>
      intro ws' t t' h
      cases ws' with
      | nil => cases (List.cons.inj h).1
      | cons w' ws' =>
        obtain ⟨h1, h2⟩ := List.cons.inj h
        obtain ⟨h3, h4⟩ := ih ws' t t' h2
        obtain ⟨h5, h6⟩ := Op.commit.inj h1
        exact ⟨by rw [h3, Prod.ext h5 h6], h4⟩
  simp only [packedT, List.cons_append, List.cons.injEq, Op.commit.injEq, Op.challenge.injEq, true_and] at h
  obtain ⟨h1, h2, h3⟩ := h
  obtain ⟨h4, h5⟩ := key _ _ _ _ h3
  exact Spec.Read.ext h5 h4 h1 h2

theorem askedT_ne_packedT (t : Transcript) (q : Spec.Read) : askedT t ≠ packedT q := by
  intro h
  unfold askedT at h
  split at h
  · cases (List.cons.inj (List.cons.inj h).2).1
  · rename_i h'
    exact h' _ h

theorem askedT_init (l : String) (t : Transcript) : askedT (.init l :: t) = .init l :: t := rfl

/-- The answers in `l` are those of the hash in `h`, and those of the generators in `r`. -/
def Rel (l h : Spec.HashLog) (r : Spec.ReadLog) : Prop :=
  (∀ t, l.lookup (askedT t) = h.lookup t) ∧ ∀ q, l.lookup (packedT q) = r.lookup q

theorem lookup_asked_eq (l : Spec.HashLog) (t u : Transcript) (a : Spec.Answer) :
    (l.asked t a).lookup u = if u = t then some ((l.lookup t).getD a) else l.lookup u := by
  split
  · rename_i h
    rw [h, Sim.lookup_asked]
  · rename_i h
    rw [Spec.HashLog.asked, List.lookup_append]
    have : List.lookup u [(t, (List.lookup t l).getD a)] = none := by
      simp [List.lookup_cons, beq_eq_false_iff_ne.2 h]
    rw [this, Option.or_none]

theorem Rel.hash {l h : Spec.HashLog} {r : Spec.ReadLog} (hr : Rel l h r) (t : Transcript) (a : Spec.Answer) :
    Rel (l.asked (askedT t) a) (h.asked t a) r := by
  refine ⟨fun u => ?_, fun q => ?_⟩
  · rw [lookup_asked_eq, lookup_asked_eq, hr.1, hr.1]
    exact if_congr ⟨askedT_inj, fun h => h ▸ rfl⟩ rfl rfl
  · rw [lookup_asked_eq, if_neg (askedT_ne_packedT t q).symm, hr.2]

theorem Rel.read {l h : Spec.HashLog} {r : Spec.ReadLog} (hr : Rel l h r) (q : Spec.Read) (a : Spec.Answer) :
    Rel (l.asked (packedT q) a) h (r.asked q a) := by
  refine ⟨fun u => ?_, fun q' => ?_⟩
  · rw [lookup_asked_eq, if_neg (askedT_ne_packedT u q), hr.1]
  · rw [lookup_asked_eq, hr.2, hr.2, Spec.ReadLog.asked, List.lookup_cons]
    by_cases hq : q' = q
    · rw [hq, if_pos rfl]
      simp
    · rw [if_neg fun h => hq (packedT_inj h), beq_eq_false_iff_ne.2 hq]

/-- Proofs are made with the hash only. -/
structure Respects (pr : Provers G) : Prop where
  issuance : ∀ p s l h r f g, Rel l h r → (∀ l' h' π, Rel l' h' r → f h' π = g l' π) →
    pr.issuance p s h f = pr.issuance p s l g
  credential : ∀ p s l h r f g, Rel l h r → (∀ l' h' π, Rel l' h' r → f h' π = g l' π) →
    pr.credential p s h f = pr.credential p s l g
  roster : ∀ p s l h r f g, Rel l h r → (∀ l' h' π, Rel l' h' r → f h' π = g l' π) →
    pr.roster p s h f = pr.roster p s l g

theorem Rel.challenge {O : Oracle} {l h : Spec.HashLog} {r : Spec.ReadLog} (hr : Rel l h r) (c : String)
    (t : Transcript) (a : Spec.Answer) :
    getChallenge ((h.asked (.init c :: t) a).oracle O) (.init c :: t) =
      getChallenge ((l.asked (.init c :: t) a).oracle O) (.init c :: t) := by
  rw [Sim.getChallenge_oracle (Sim.lookup_asked _ _ _), Sim.getChallenge_oracle (Sim.lookup_asked _ _ _),
    ← hr.1 (.init c :: t), askedT_init]

theorem respects_honest (O : Oracle) : Respects (honest (G := G) O) where
  issuance p s l h r f g hr hf := by
    refine Sim.mean_congr fun u => Sim.mean_congr fun a => ?_
    have h1 := hr.hash (IssuanceRevealed.commitCommitments (IssuanceRevealed.commitPublics
      [.init "AEONFLUX ISSUANCE"] p) (IssuanceRevealed.commitmentsOf p (IssuanceRevealed.randOf u))) a
    have h2 := hr.challenge (O := O) "AEONFLUX ISSUANCE" (IssuanceRevealed.commitCommitments
      (IssuanceRevealed.commitPublics [.init "AEONFLUX ISSUANCE"] p)
      (IssuanceRevealed.commitmentsOf p (IssuanceRevealed.randOf u))).tail a
    refine (hf _ _ _ h1).trans ?_
    simp only [IssuanceRevealed.createWith]
    exact congrArg (fun c => g _ ⟨c, IssuanceRevealed.respond c s (IssuanceRevealed.randOf u)⟩) h2
  credential p s l h r f g hr hf := by
    refine Sim.mean_congr fun u => Sim.mean_congr fun a => ?_
    have h1 := hr.hash (ValidCredential.commitCommitments (ValidCredential.commitPublics
      [.init "AEONFLUX SHOW"] p) (ValidCredential.commitmentsOf p (ValidCredential.randOf u))) a
    have h2 := hr.challenge (O := O) "AEONFLUX SHOW" (ValidCredential.commitCommitments
      (ValidCredential.commitPublics [.init "AEONFLUX SHOW"] p)
      (ValidCredential.commitmentsOf p (ValidCredential.randOf u))).tail a
    refine (hf _ _ _ h1).trans ?_
    simp only [ValidCredential.createWith]
    exact congrArg (fun c => g _ ⟨c, ValidCredential.respond c s (ValidCredential.randOf u)⟩) h2
  roster p s l h r f g hr hf := by
    refine Sim.mean_congr fun u => Sim.mean_congr fun a => ?_
    have h1 := hr.hash (CommittedValuesEqual.commitCommitments (CommittedValuesEqual.commitPublics
      [.init "SIGNAL GROUP MEMBERSHIP"] p) (CommittedValuesEqual.commitmentsOf p (CommittedValuesEqual.randOf u))) a
    have h2 := hr.challenge (O := O) "SIGNAL GROUP MEMBERSHIP" (CommittedValuesEqual.commitCommitments
      (CommittedValuesEqual.commitPublics [.init "SIGNAL GROUP MEMBERSHIP"] p)
      (CommittedValuesEqual.commitmentsOf p (CommittedValuesEqual.randOf u))).tail a
    refine (hf _ _ _ h1).trans ?_
    simp only [CommittedValuesEqual.createWith]
    exact congrArg (fun c => g _ ⟨c, CommittedValuesEqual.respond c s (CommittedValuesEqual.randOf u)⟩) h2

/-- Averages can be taken before or after a proof. -/
structure Linear (pr : Provers G) : Prop where
  issuance : ∀ {α : Type} [Fintype α] (p s l) (f : α → Spec.HashLog → IssuanceRevealed.Proof → ℚ),
    (Spec.mean fun a => pr.issuance p s l (f a)) = pr.issuance p s l fun l' π => Spec.mean fun a => f a l' π
  credential : ∀ {α : Type} [Fintype α] (p s l) (f : α → Spec.HashLog → ValidCredential.Proof → ℚ),
    (Spec.mean fun a => pr.credential p s l (f a)) = pr.credential p s l fun l' π => Spec.mean fun a => f a l' π
  roster : ∀ {α : Type} [Fintype α] (p s l) (f : α → Spec.HashLog → CommittedValuesEqual.Proof → ℚ),
    (Spec.mean fun a => pr.roster p s l (f a)) = pr.roster p s l fun l' π => Spec.mean fun a => f a l' π

theorem linear_honest (O : Oracle) : Linear (honest (G := G) O) where
  issuance p s l f := by
    change (Spec.mean fun a => Spec.mean fun ρ => Spec.mean fun b => _) = _
    rw [Sim.mean_comm]
    refine Sim.mean_congr fun ρ => ?_
    rw [Sim.mean_comm]
  credential p s l f := by
    change (Spec.mean fun a => Spec.mean fun ρ => Spec.mean fun b => _) = _
    rw [Sim.mean_comm]
    refine Sim.mean_congr fun ρ => ?_
    rw [Sim.mean_comm]
  roster p s l f := by
    change (Spec.mean fun a => Spec.mean fun ρ => Spec.mean fun b => _) = _
    rw [Sim.mean_comm]
    refine Sim.mean_congr fun ρ => ?_
    rw [Sim.mean_comm]

theorem mean_scale {c : F} (hc : c ≠ 0) (f : F × F × F → ℚ) :
    (Spec.mean fun d : F × F × F => f (d.1, d.2.1 * c, d.2.2)) = Spec.mean f := by
  let e : F × F × F ≃ F × F × F :=
    { toFun := fun d => (d.1, d.2.1 * c, d.2.2)
      invFun := fun d => (d.1, d.2.1 / c, d.2.2)
      left_inv := fun d => by simp [hc]
      right_inv := fun d => by simp [hc] }
  exact Sim.mean_equiv e f

/-- A step that does not depend on unknowns that were not drawn. -/
theorem eager_step {α : Type} [Fintype α] {X Y : α → Hidden N → ℚ} (h : ∀ a, Spec.mean (X a) = Spec.mean (Y a)) :
    (Spec.mean fun w => Spec.mean fun a => X a w) = Spec.mean fun w => Spec.mean fun a => Y a w := by
  rw [Sim.mean_comm, Sim.mean_congr h, Sim.mean_comm]

theorem lookup_one (t : Transcript) (a : Spec.Answer) : List.lookup t [(t, a)] = some a := by
  simp [List.lookup]

section
attribute [local irreducible] Spec.mean

variable (O : Oracle) (β : Fin N → F) (serve : Spec.Server (Req N) (Req.Reply G)) (pr : Provers G) (S : Scene)
  (v : Hidden N) (l : Spec.HashLog) (r : Spec.ReadLog)

theorem yes_issue (κ : Hidden N) (m : F) (next : IssuanceRevealed.Proof → Reader N)
    (hN : S.view.issued.length < N) : ((Reader.issue m next).game G O β S v).yes (fresh pr β κ) l r =
      Spec.mean (issueWith pr κ m l fun l' c => ((next c.2.proof).game G O β
        ⟨{ S.view with issued := S.view.issued ++ [m] }, S.sent⟩ (issuedAt v ⟨_, hN⟩ c.1)).yes (fresh pr β κ) l' r) := by
  rw [Reader.game, dif_pos hN]
  rfl

theorem yes_watch (κ : Hidden N) (i : ℕ) (next : ValidCredential.Proof → CommittedValuesEqual.Proof → Reader N) (m : F)
    (he : S.view.enrolled[i]? = some m) (hN : S.view.watched.length < N ∧ i < N) :
    ((Reader.watch i next).game G O β S v).yes (fresh pr β κ) l r =
      Spec.mean (watchWith pr β κ ⟨i, hN.2⟩ m l fun l' c =>
        ((next c.2.presentation.proof c.2.rosterMembershipProof).game G O β
          ⟨{ S.view with watched := S.view.watched ++ [m] },
            S.sent ++ [⟨i, c.2.presentation.proof, c.2.rosterMembershipProof⟩]⟩
          (watchedAt v ⟨_, hN.1⟩ (c.1.1, c.1.2.1 * β ⟨i, hN.2⟩, c.1.2.2))).yes (fresh pr β κ) l' r) := by
  rw [Reader.game, he]
  simp only [dif_pos hN]
  rfl

theorem yes_toss (next : F → Reader N) : ((Reader.toss next).game G O β S v).yes serve l r =
    Spec.mean fun c => ((next c).game G O β S v).yes serve l r := by
  rw [Reader.game, Spec.Watcher.yes]

theorem yes_hash (q : Ask N) (next : Spec.Answer → Reader N) :
    ((Reader.hash q next).game G O β S v).yes serve l r = Spec.mean fun a =>
      ((next ((l.lookup (q.transcript G v S.view)).getD a)).game G O β S v).yes serve
        (l.asked (q.transcript G v S.view) a) r := by
  rw [Reader.game, Spec.Watcher.yes]

theorem yes_read (q : Inspect N) (next : Spec.Answer → Reader N) :
    ((Reader.read q next).game G O β S v).yes serve l r = Spec.mean fun a =>
      ((next ((r.lookup (q.read G v S.view)).getD a)).game G O β S v).yes serve l (r.asked (q.read G v S.view) a) := by
  rw [Reader.game, Spec.Watcher.yes]

theorem yes_present (p : Pres N) (next : Bool → Reader N) :
    ((Reader.present p next).game G O β S v).yes serve l r = Spec.mean fun a =>
      ((next (decide (Scalar.fromWide ((l.lookup (showTranscript v (p.points G v S.view))).getD a).1 =
        p.proof.challenge))).game G O β S v).yes serve (l.asked (showTranscript v (p.points G v S.view)) a) r := by
  rw [Reader.game, Spec.Watcher.yes]
  refine Sim.mean_congr fun a => ?_
  rw [decide_eq_decide.2 (Attack.shows_iff (G := G) O (lookup_one _ _))]

theorem wins_present (p : Pres N) (next : Bool → Attacker N) :
    (Attacker.present p next).wins O pr v S l = Spec.mean fun a =>
      (next (decide (Scalar.fromWide ((l.lookup (showTranscript v (p.points G v S.view))).getD a).1 =
        p.proof.challenge))).wins O pr v S (l.asked (showTranscript v (p.points G v S.view)) a) := by
  rw [Attacker.wins]
  refine Sim.mean_congr fun a => ?_
  dsimp only
  rw [decide_eq_decide.2 (Attack.shows_iff (G := G) O (Sim.lookup_asked _ _ _))]

theorem yes_member (p : Pres N) (next : Bool → Reader N) :
    ((Reader.member p next).game G O β S v).yes serve l r = Spec.mean fun a =>
      ((next (decide (Scalar.fromWide ((l.lookup (memberTranscript v (p.points G v S.view))).getD a).1 =
        p.roster.challenge))).game G O β S v).yes serve (l.asked (memberTranscript v (p.points G v S.view)) a) r := by
  rw [Reader.game, Spec.Watcher.yes]
  refine Sim.mean_congr fun a => ?_
  rw [decide_eq_decide.2 (Attack.belongs_iff (G := G) O (lookup_one _ _))]

theorem wins_member (p : Pres N) (next : Bool → Attacker N) :
    (Attacker.member p next).wins O pr v S l = Spec.mean fun a =>
      (next (decide (Scalar.fromWide ((l.lookup (memberTranscript v (p.points G v S.view))).getD a).1 =
        p.roster.challenge))).wins O pr v S (l.asked (memberTranscript v (p.points G v S.view)) a) := by
  rw [Attacker.wins]
  refine Sim.mean_congr fun a => ?_
  dsimp only
  rw [decide_eq_decide.2 (Attack.belongs_iff (G := G) O (Sim.lookup_asked _ _ _))]

theorem Rel.show {l h : Spec.HashLog} {r : Spec.ReadLog} (hr : Rel l h r) (v : Hidden N)
    (p : SignalCredentialPresentation G) :
    h.lookup (showTranscript v p) = l.lookup (showTranscript v p) ∧
      ∀ a, Rel (l.asked (showTranscript v p) a) (h.asked (showTranscript v p) a) r :=
  ⟨(hr.1 (showTranscript v p)).symm, fun a => hr.hash (showTranscript v p) a⟩

theorem Rel.member {l h : Spec.HashLog} {r : Spec.ReadLog} (hr : Rel l h r) (v : Hidden N)
    (p : SignalCredentialPresentation G) :
    h.lookup (memberTranscript v p) = l.lookup (memberTranscript v p) ∧
      ∀ a, Rel (l.asked (memberTranscript v p) a) (h.asked (memberTranscript v p) a) r :=
  ⟨(hr.1 (memberTranscript v p)).symm, fun a => hr.hash (memberTranscript v p) a⟩

theorem yes_outputShow {h : Spec.HashLog} (hr : Rel l h r) (p : Pres N) :
    ((Reader.outputShow p).game G O β S v).yes serve h r = (Attacker.outputShow p).wins O pr v S l := by
  classical
  rw [Reader.game, Spec.Watcher.yes, Attacker.wins]
  refine Sim.mean_congr fun a => ?_
  dsimp only
  rw [Spec.Watcher.yes, (hr.show v (p.points G v S.view)).1]
  exact if_congr (decide_eq_true_iff.trans (and_congr_left' ((Attack.shows_iff (G := G) O (lookup_one _ _)).trans
    (Attack.shows_iff (G := G) O (Sim.lookup_asked _ _ _)).symm))) rfl rfl

theorem yes_outputMember {h : Spec.HashLog} (hr : Rel l h r) (p : Pres N) :
    ((Reader.outputMember p).game G O β S v).yes serve h r = (Attacker.outputMember p).wins O pr v S l := by
  classical
  rw [Reader.game, Spec.Watcher.yes, Attacker.wins]
  refine Sim.mean_congr fun a => ?_
  dsimp only
  rw [Spec.Watcher.yes]
  refine Sim.mean_congr fun a' => ?_
  have hs := hr.show v (p.points G v S.view)
  rw [Spec.Watcher.yes, ((hs.2 a).member v (p.points G v S.view)).1, hs.1]
  exact if_congr (decide_eq_true_iff.trans (and_congr ((Attack.shows_iff (G := G) O (lookup_one _ _)).trans
    (Attack.shows_iff (G := G) O (Sim.lookup_asked_of_some (Sim.lookup_asked _ _ _) _ _)).symm)
    (and_congr_left' ((Attack.belongs_iff (G := G) O (lookup_one _ _)).trans
      (Attack.belongs_iff (G := G) O (Sim.lookup_asked _ _ _)).symm)))) rfl rfl

end

section
attribute [local irreducible] Spec.mean Attacker.wins Reader.game Spec.Watcher.yes

/-- It makes no difference whether unknowns are drawn at the start or with the messages, and whether generators are
read or the hash is asked instead. -/
theorem eager (O : Oracle) {pr : Provers G} (hpr : Linear pr) (hpr' : Respects pr) {β : Fin N → F}
    (hβ : ∀ i, β i ≠ 0) (κ : Hidden N) (A : Reader N) : ∀ S v l h r, Same v κ → Rel l h r →
      (Spec.mean fun w => (A.game G O β S (merge S.view v w)).yes (fresh pr β κ) h r) =
        Spec.mean fun w => A.ask.wins O pr (merge S.view v w) S l := by
  induction A with
  | issue m next ih =>
    intro S v l h r hv hr
    by_cases hN : S.view.issued.length < N
    · set S' : Scene := ⟨{ S.view with issued := S.view.issued ++ [m] }, S.sent⟩ with hS'
      have h1 : ∀ w, ((Reader.issue m next).game G O β S (merge S.view v w)).yes (fresh pr β κ) h r =
          Spec.mean fun d : F × F => pr.issuance
            ⟨d.1 • basepoint G, (κ .x0 + κ .x1 * m) • (d.1 • basepoint G),
              κ .x0 • basepoint G + d.2 • hPoint κ, basepoint G, hPoint κ, κ .x1 • hPoint κ⟩
            ⟨.ofF (κ .x0), .ofF (κ .x1), .ofF d.2, .ofF m * .ofF (κ .x1)⟩ h fun l' π =>
              ((next π).game G O β S' (merge S'.view (issuedAt v ⟨_, hN⟩ d) w)).yes (fresh pr β κ) l' r := by
        intro w
        rw [yes_issue (hN := hN)]
        refine Sim.mean_congr fun d => ?_
        unfold issueWith
        simp only [issued_merge _ _ _ hN m]
        rfl
      have h2 : ∀ (w : Hidden N) (d : F × F),
          (Reader.issue m next).ask.wins O pr (merge S.view v (issuedAt w ⟨_, hN⟩ d)) S l =
            pr.issuance ⟨d.1 • basepoint G, (κ .x0 + κ .x1 * m) • (d.1 • basepoint G),
                κ .x0 • basepoint G + d.2 • hPoint κ, basepoint G, hPoint κ, κ .x1 • hPoint κ⟩
              ⟨.ofF (κ .x0), .ofF (κ .x1), .ofF d.2, .ofF m * .ofF (κ .x1)⟩ l fun l' π =>
                (next π).ask.wins O pr (merge S'.view (issuedAt v ⟨_, hN⟩ d) w) S' l' := by
        intro w d
        rw [merge_issued _ _ _ hN m, Reader.ask, Attacker.wins, dif_pos hN]
        have hs := (same_merge S'.view (issuedAt v ⟨_, hN⟩ d) w).trans ((same_issuedAt v ⟨_, hN⟩ d).trans hv)
        have hb : merge S'.view (issuedAt v ⟨_, hN⟩ d) w (.b ⟨_, hN⟩) = d.1 := by
          simp [merge, known, issuedAt, hS']
        have ht : merge S'.view (issuedAt v ⟨_, hN⟩ d) w (.t ⟨_, hN⟩) = d.2 := by
          simp [merge, known, issuedAt, hS']
        simp only [hS'] at hs hb ht ⊢
        simp only [hs.x0, hs.x1, hs.hPoint, hb, ht]
      rw [Sim.mean_congr h1, Sim.mean_comm, mean_issuedAt ⟨_, hN⟩]
      refine Sim.mean_congr fun d => ?_
      simp only [h2, hpr.issuance]
      exact hpr'.issuance _ _ l h r _ _ hr fun l' h' π hr' =>
        ih π S' (issuedAt v ⟨_, hN⟩ d) l' h' r ((same_issuedAt _ _ _).trans hv) hr'
    · simp only [Reader.game, Reader.ask, Attacker.wins, dif_neg hN, Spec.Watcher.yes, Bool.false_eq_true, if_false]
  | enrol m next ih =>
    intro S v l h r hv hr
    by_cases hN : S.view.enrolled.length < N
    · simp only [Reader.game, Reader.ask, Attacker.wins, if_pos hN]
      exact ih ⟨{ S.view with enrolled := S.view.enrolled ++ [m] }, S.sent⟩ v l h r hv hr
    · simp only [Reader.game, Reader.ask, Attacker.wins, if_neg hN, Spec.Watcher.yes, Bool.false_eq_true, if_false]
  | watch i next ih =>
    intro S v l h r hv hr
    cases he : S.view.enrolled[i]? with
    | none =>
      simp only [Reader.game, Reader.ask, Attacker.wins, he, Spec.Watcher.yes, Bool.false_eq_true, if_false]
    | some m =>
      by_cases hN : S.view.watched.length < N ∧ i < N
      · set s' : View := { S.view with watched := S.view.watched ++ [m] } with hS'
        set j : Fin N := ⟨_, hN.1⟩ with hj
        let send : F × F × F → Spec.HashLog →
            (Spec.HashLog → ValidCredential.Proof → CommittedValuesEqual.Proof → ℚ) → ℚ :=
          fun d l f => pr.credential ⟨basepoint G, hPoint κ, κ .x1 • hPoint κ, d.2.1 • basepoint G,
              d.1 • (κ .x1 • hPoint κ) - d.2.2 • hPoint κ, m • (d.2.1 • basepoint G) + d.1 • hPoint κ⟩
            ⟨.ofF m, .ofF d.1, -.ofF d.2.2⟩ l fun l' π =>
          pr.roster ⟨basepoint G, hPoint κ, d.2.1 • basepoint G, m • (d.2.1 • basepoint G) + d.1 • hPoint κ,
              entry G κ ⟨i, hN.2⟩ m⟩ ⟨.ofF m, .ofF d.1, .ofF (κ (.y ⟨i, hN.2⟩))⟩ l' fun l'' π' => f l'' π π'
        have send_mean : ∀ {α : Type} [Fintype α] (d : F × F × F) (l : Spec.HashLog)
            (f : α → Spec.HashLog → ValidCredential.Proof → CommittedValuesEqual.Proof → ℚ),
            (Spec.mean fun a => send d l (f a)) = send d l fun l' π π' => Spec.mean fun a => f a l' π π' := by
          intro α _ d l f
          simp only [send, hpr.credential, hpr.roster]
        have h1 : ∀ w, ((Reader.watch i next).game G O β S (merge S.view v w)).yes (fresh pr β κ) h r =
            Spec.mean fun d : F × F × F => send d h fun l' π π' =>
              ((next π π').game G O β ⟨s', S.sent ++ [⟨i, π, π'⟩]⟩ (merge s' (watchedAt v j d) w)).yes (fresh pr β κ) l' r := by
          intro w
          rw [← mean_scale (hβ ⟨i, hN.2⟩)]
          rw [yes_watch (he := he) (hN := hN)]
          refine Sim.mean_congr fun d => ?_
          unfold watchWith
          simp only [watched_merge _ _ _ hN.1 m, send, mul_smul]
          rfl
        have h2 : ∀ (w : Hidden N) (d : F × F × F),
            (Reader.watch i next).ask.wins O pr (merge S.view v (watchedAt w j d)) S l =
              send d l fun l' π π' =>
                (next π π').ask.wins O pr (merge s' (watchedAt v j d) w) ⟨s', S.sent ++ [⟨i, π, π'⟩]⟩ l' := by
          intro w d
          rw [hj, merge_watched _ _ _ hN.1 m, Reader.ask, Attacker.wins, he]
          simp only [dif_pos hN]
          have hs := (same_merge s' (watchedAt v ⟨_, hN.1⟩ d) w).trans
            ((same_watchedAt v ⟨_, hN.1⟩ d).trans hv)
          have hz : merge s' (watchedAt v ⟨_, hN.1⟩ d) w (.zeta ⟨_, hN.1⟩) = d.1 := by
            simp [merge, known, watchedAt, hS']
          have hr : merge s' (watchedAt v ⟨_, hN.1⟩ d) w (.rho ⟨_, hN.1⟩) = d.2.1 := by
            simp [merge, known, watchedAt, hS']
          have hx : merge s' (watchedAt v ⟨_, hN.1⟩ d) w (.xi ⟨_, hN.1⟩) = d.2.2 := by
            simp [merge, known, watchedAt, hS']
          simp only [hS'] at hs hz hr hx ⊢
          simp only [entry, hs.x1, hs.hPoint, hs.y, hz, hr, hx, send]
        rw [Sim.mean_congr h1, Sim.mean_comm, mean_watchedAt j]
        refine Sim.mean_congr fun d => ?_
        rw [send_mean]
        simp only [h2, send_mean]
        exact hpr'.credential _ _ l h r _ _ hr fun l' h' π hr' => hpr'.roster _ _ l' h' r _ _ hr' fun l'' h'' π' hr'' =>
          ih π π' ⟨s', S.sent ++ [⟨i, π, π'⟩]⟩ (watchedAt v j d) l'' h'' r ((same_watchedAt _ _ _).trans hv) hr''
      · simp only [Reader.game, Reader.ask, Attacker.wins, he, dif_neg hN, Spec.Watcher.yes, Bool.false_eq_true,
          if_false]
  | test L yes no ih ih' =>
    intro S v l h r hv hr
    by_cases hL : (L.point v S.view : G) = 0
    · have h : ∀ w, (L.point (merge S.view v w) S.view : G) = 0 := fun w => (point_merge L S.view v w).trans hL
      simp only [Reader.game, Reader.ask, Attacker.wins, if_pos (h _)]
      exact ih S v l _ r hv hr
    · have h : ∀ w, ¬ (L.point (merge S.view v w) S.view : G) = 0 := fun w h =>
        hL ((point_merge L S.view v w).symm.trans h)
      simp only [Reader.game, Reader.ask, Attacker.wins, if_neg (h _)]
      exact ih' S v l _ r hv hr
  | toss next ih =>
    intro S v l h r hv hr
    simp only [yes_toss, Reader.ask, Attacker.wins]
    exact eager_step fun c => ih c S v l h r hv hr
  | hash q next ih =>
    intro S v l h r hv hr
    simp only [yes_hash, Reader.ask, Attacker.wins, transcript_merge, asked_transcript, hr.1]
    exact eager_step fun a => ih _ S v _ _ r hv (hr.hash _ a)
  | read q next ih =>
    intro S v l h r hv hr
    simp only [yes_read, Reader.ask, Attacker.wins, packed_transcript, read_merge, hr.2]
    exact eager_step fun a => ih _ S v _ _ _ hv (hr.read _ a)
  | present p next ih =>
    intro S v l h r hv hr
    simp only [Reader.ask, yes_present, wins_present, points_merge, showTranscript_merge,
      (hr.show v (p.points G v S.view)).1]
    exact eager_step fun a => ih _ S v _ _ r hv ((hr.show v _).2 a)
  | member p next ih =>
    intro S v l h r hv hr
    simp only [Reader.ask, yes_member, wins_member, points_merge, memberTranscript_merge,
      (hr.member v (p.points G v S.view)).1]
    exact eager_step fun a => ih _ S v _ _ r hv ((hr.member v _).2 a)
  | outputShow p =>
    intro S v l h r hv hr
    exact Sim.mean_congr fun w => yes_outputShow O β _ pr S _ l r hr p
  | outputMember p =>
    intro S v l h r hv hr
    exact Sim.mean_congr fun w => yes_outputMember O β _ pr S _ l r hr p

end

end Forge

/-! ## C89 -/

section
open Spec.Present Spec.Present.Attack Present

variable {N : ℕ}

/-- The same program with another result. -/
def Spec.Program.map {α β : Type} (f : α → β) : Spec.Program α → Spec.Program β
  | .ret b => .ret (f b)
  | .draw next => .draw fun z => (next z).map f
  | .seed next => .seed (next.map f)
  | .read i o w n next => .read i o w n fun a => (next a).map f
  | .hash t next => .hash t fun a => (next a).map f

theorem Forge.map_returns {α β : Type} (f : α → β) (O : Oracle) (p : Spec.Program α) : ∀ env tape y,
    (p.map f).Returns O env tape y → ∃ x, p.Returns O env tape x ∧ f x = y := by
  induction p with
  | ret b => exact fun env tape y h => ⟨b, ⟨h.1, rfl⟩, h.2⟩
  | draw next ih =>
    rintro env _ y ⟨z, rest, rfl, h⟩
    obtain ⟨x, hx, rfl⟩ := ih z _ _ _ h
    exact ⟨x, ⟨z, rest, rfl, hx⟩, rfl⟩
  | seed next ih =>
    rintro env _ y ⟨z, rest, rfl, h⟩
    obtain ⟨x, hx, rfl⟩ := ih _ _ _ h
    exact ⟨x, ⟨z, rest, rfl, hx⟩, rfl⟩
  | read i o w n next ih => exact fun env tape y h => ih _ _ _ _ h
  | hash t next ih => exact fun env tape y h => ih _ _ _ _ h

/-- C89: issuances in the game are made by `Issuer::issue`, for every hash and generator, and the elements in the
adversary's combinations are those that are sent. -/
theorem C89_issue {R : Type} [RngCore R] (O : Oracle) (β : Fin N → F) (κ : Hidden N) (m : F) (rng : R)
    (entropy : Spec.Seed) : ∃ (d : F × F) (c : CredentialIssuance G),
      ((issuer G κ).issue O ⟨[.ofF m]⟩ rng entropy.1).1 = .ok c ∧
      (code β κ (.issue m)).Returns O [] ((Spec.reads [32] rng).1 ++ [entropy.1]) (d, c) ∧
      c.credential = ⟨⟨d.1 • basepoint G, (κ .x0 + κ .x1 * m) • (d.1 • basepoint G)⟩, [.ofF m]⟩ ∧
      c.secretKeyCommitment = κ .x0 • basepoint G + d.2 • hPoint κ := by
  obtain ⟨c, h1, h2⟩ := C88_issue_program (G := G) O (i := issuer G κ) (x0 := .ofF (κ .x0)) (x1 := .ofF (κ .x1)) rfl
    (by simp [issuer]) (.ofF m) rng entropy
  obtain ⟨⟨d, c'⟩, h3, rfl⟩ := Forge.map_returns Prod.snd O (Spec.Program.issueThen ⟨basepoint G, hPoint κ⟩
    (.ofF (κ .x0)) (.ofF (κ .x1)) (.ofF m) fun d c => .ret (d, c)) _ _ _ h2
  refine ⟨d, c', h1, h3, ?_⟩
  obtain ⟨e, rest, -, e', rest', -, -, h⟩ := h3
  obtain ⟨rfl, rfl⟩ := Prod.mk.inj h
  simp only [Scalar.val_ofF, and_self]

/-- C89: presentations in the game are made by `SignalUser::show`, for every hash and generator, and the elements in
the adversary's combinations are those that are sent. -/
theorem C89_watch {R : Type} [RngCore R] (O : Oracle) (β : Fin N → F) (κ : Hidden N) (i : Fin N) (m : F)
    {u : SignalUser G} (hp : u.user.systemParameters = ⟨basepoint G, hPoint κ⟩)
    (hX : u.user.issuerParameters = ⟨[κ .x1 • hPoint κ]⟩)
    (hc : u.user.credential =
      some ⟨⟨β i • basepoint G, (κ .x0 + κ .x1 * m) • (β i • basepoint G)⟩, [.ofF m]⟩) (rng : R)
    (e1 e2 : Spec.Seed) : ∃ (d : F × F × F) (p : SignalCredentialPresentation G),
      (u.show O rng ⟨entry G κ i m, .ofF (κ (.y i))⟩ e1.1 e2.1).1 = .ok p ∧
      (code β κ (.watch i m)).Returns O [] ((Spec.reads [64, 32] rng).1 ++ [e1.1, e2.1]) (d, p) ∧
      ∀ (v : Hidden N) (j : Fin N), Forge.Same v κ →
        let v' := watchedAt v j (d.1, d.2.1 * β i, d.2.2)
        (p.presentation.rerandomizedNonce, p.presentation.attributesBlinded,
          p.presentation.rerandomizedMacCommitment, p.rosterEntryCommitment) =
        ((shown G v' j m).1, [(shown G v' j m).2.1], (shown G v' j m).2.2, entry G v' i m) := by
  obtain ⟨p, h1, h2⟩ := C88_show_program O (u := u) (X := κ .x1 • hPoint κ) (Xs := []) (m := .ofF m)
    (by rw [hX]) hc rfl rng ⟨entry G κ i m, .ofF (κ (.y i))⟩ e1 e2
  rw [hp] at h2
  obtain ⟨⟨d, p'⟩, h3, rfl⟩ := Forge.map_returns Prod.snd O (Spec.Program.showThen ⟨basepoint G, hPoint κ⟩
    (κ .x1 • hPoint κ) ⟨⟨β i • basepoint G, (κ .x0 + κ .x1 * m) • (β i • basepoint G)⟩, [.ofF m]⟩ (.ofF m)
    ⟨entry G κ i m, .ofF (κ (.y i))⟩ fun d p => .ret (d, p)) _ _ _ h2
  refine ⟨d, p', h1, h3, fun v j hv => ?_⟩
  obtain ⟨z, r1, -, s1, r2, -, s2, r3, -, s3, r4, -, -, h⟩ := h3
  obtain ⟨rfl, rfl⟩ := Prod.mk.inj h
  generalize Spec.drawn3 _ = d
  have hs := (Forge.same_watchedAt v j (d.1, d.2.1 * β i, d.2.2)).trans hv
  have hz : watchedAt v j (d.1, d.2.1 * β i, d.2.2) (.zeta j) = d.1 := by simp [watchedAt]
  have hr : watchedAt v j (d.1, d.2.1 * β i, d.2.2) (.rho j) = d.2.1 * β i := by simp [watchedAt]
  have hx : watchedAt v j (d.1, d.2.1 * β i, d.2.2) (.xi j) = d.2.2 := by simp [watchedAt]
  simp only [shown, entry, hs.x0, hs.x1, hs.hPoint, hs.y, hz, hr, hx, Scalar.val_ofF, mul_smul, Prod.mk.injEq, true_and,
    and_true, add_left_inj]
  rw [smul_comm]

theorem Forge.mean_shift {α : Type} [Fintype α] [Nonempty α] (f : α → ℚ) (c : ℚ) :
    (Spec.mean fun a => f a + c) = Spec.mean f + c := by
  have : (Fintype.card α : ℚ) ≠ 0 := Nat.cast_ne_zero.2 Fintype.card_ne_zero
  simp only [Spec.mean, Finset.sum_add_distrib, Finset.sum_const, Finset.card_univ, nsmul_eq_mul]
  field_simp

theorem Forge.start_eq (η : F) (w : Var N → Spec.Answer) : start η w = unknowns (fun _ => 1) η w := by
  funext x
  cases x <;> simp [start, unknowns]

theorem Forge.fresh_congr (pr : Provers G) (β : Fin N → F) {v κ : Hidden N} (h : Forge.Same v κ) :
    Forge.fresh pr β v = Forge.fresh pr β κ := by
  funext x l k
  cases x with
  | issue m =>
    refine Sim.mean_congr fun d => ?_
    simp only [Forge.issueWith, h.x0, h.x1, h.hPoint]
  | watch i m =>
    refine Sim.mean_congr fun d => ?_
    simp only [Forge.watchWith, entry, h.x0, h.x1, h.hPoint, h.y]

theorem Forge.fresh01 {pr : Provers G} (hpr : Attack.Fair pr) (β : Fin N → F) (κ : Hidden N) (x : Req N)
    (l : Spec.HashLog) (f : Spec.HashLog → x.Reply G → ℚ) (hf : Sim.Unit01 f) :
    0 ≤ Forge.fresh pr β κ x l f ∧ Forge.fresh pr β κ x l f ≤ 1 := by
  cases x with
  | issue m => exact Sim.mean01 fun d => hpr.issuance _ _ _ _ fun l' π => hf _ _
  | watch i m => exact Sim.mean01 fun d => hpr.credential _ _ _ _ fun l' π => hpr.roster _ _ _ _ fun l' π' => hf _ _

theorem Forge.mean_merge (f : Hidden N → ℚ) (s : View) :
    Spec.mean f = Spec.mean fun v => Spec.mean fun w => f (Forge.merge s v w) := by
  let e : Hidden N × Hidden N ≃ Hidden N × Hidden N :=
    { toFun := fun p => (Forge.merge s p.1 p.2, Forge.merge s p.2 p.1)
      invFun := fun p => (Forge.merge s p.1 p.2, Forge.merge s p.2 p.1)
      left_inv := fun p => by ext x <;> by_cases h : Forge.known s x <;> simp [Forge.merge, h]
      right_inv := fun p => by ext x <;> by_cases h : Forge.known s x <;> simp [Forge.merge, h] }
  rw [← Sim.mean_pair fun p : Hidden N × Hidden N => f (Forge.merge s p.1 p.2)]
  refine Eq.trans ?_ (Sim.mean_equiv e fun p => f p.1).symm
  rw [Sim.mean_pair]
  exact Sim.mean_congr fun v => (Sim.mean_const (α := Hidden N) (f v)).symm

/-- C89: an adversary wins against the code with its own generators with little probability. It makes at most `n`
steps and reads transcript generators at most `t` times; there are at most `N` issuances, users and presentations;
the users have any credentials with non-identity nonces. -/
theorem C89_unforgeable (O : Oracle) (β : Fin N → F) (hβ : ∀ i, β i ≠ 0) (A : Reader N) {n t : ℕ}
    (h : A.Within n t) :
    A.probability G O β ≤ (8 * (n + t) ^ 2 + 5 * (n + t) + 1) / ell + (6 * N + 3 + 9 * n) / 2 ^ 259 +
      3 * n * (2 * t + 8 * n + 3) / 2 ^ 256 := by
  let S₀ : Scene := ⟨⟨[], [], []⟩, []⟩
  let Φ : Hidden N → ℚ := fun v => (A.game G O β S₀ v).yes (Forge.fresh (honest O) β v) [] []
  have hw : ∀ v, (A.game G O β S₀ v).Within (2 * n) t n := fun v =>
    Forge.game_within O β A n t h S₀ v (2 * n) n le_rfl le_rfl
  have h01 : ∀ v, 0 ≤ Φ v ∧ Φ v ≤ 1 := fun v =>
    Sim.watcher01 (Forge.fresh01 (Attack.fair_honest O) β v) (A.game G O β S₀ v) [] []
  have h1 : ∀ v, (A.game G O β S₀ v).yesRun (code β v) [] [] ≤
      Φ v + (n * (9 * Coins.bias) + n * 3 * (2 * t + 8 * n + 3) / 2 ^ 256) := by
    intro v
    have h2 := Sim.watcher_advantage (code (G := G) β v) (fun x => (Forge.code_distinct β v x).1)
      (fun x => (Forge.code_distinct β v x).2) (A.game G O β S₀ v) (hw v)
    have h3 := Code.alike_watcher (mul_nonneg (by norm_num) Coins.bias_nonneg) (Forge.fresh_alike O β v)
      (A.game G O β S₀ v) [] [] (2 * n) t n (hw v)
    have h4 := (abs_le.1 h2).2
    have h5 := (abs_le.1 h3).2
    push_cast at h4
    linarith
  have h2 : Spec.mean Φ ≤ (8 * (n + t) ^ 2 + 5 * (n + t) + 1) / ell := by
    rw [Forge.mean_merge Φ S₀.view]
    have e : ∀ v, (Spec.mean fun w => Φ (Forge.merge S₀.view v w)) = Spec.mean fun w =>
        A.ask.wins O (honest O) (Forge.merge S₀.view v w) S₀ [] := fun v => by
      refine Eq.trans (Sim.mean_congr fun w => ?_) (Forge.eager O (Forge.linear_honest (G := G) O)
        (Forge.respects_honest O) hβ v A S₀ v [] [] [] ⟨rfl, rfl, rfl, fun _ => rfl⟩ ⟨fun _ => rfl, fun _ => rfl⟩)
      change (A.game G O β S₀ (Forge.merge S₀.view v w)).yes (Forge.fresh (honest O) β (Forge.merge S₀.view v w)) [] [] = _
      rw [Forge.fresh_congr _ _ (Forge.same_merge S₀.view v w)]
    rw [Sim.mean_congr e, ← Forge.mean_merge (fun v => A.ask.wins O (honest O) v S₀ []) S₀.view]
    have := Attack.C84_unforgeable (G := G) O A.ask (Forge.ask_within A n t h)
    push_cast at this
    exact this
  have h3 : (Spec.mean fun η : F => Spec.mean fun w : Var N → Spec.Answer => Φ (start η w)) ≤
      Spec.mean Φ + (6 * N + 3) * Coins.bias := by
    rw [← Sim.mean_pair fun p : F × (Var N → Spec.Answer) => Φ (start p.1 p.2)]
    have h4 := (abs_le.1 ((Coins.near_unknowns (fun _ : Fin N => (1 : F)) fun _ => one_ne_zero).mean
      (f := Φ) (g := Φ) (ε := 0) h01 fun v => by rw [sub_self, abs_zero])).2
    simp only [Forge.start_eq]
    linarith
  have h4 : A.probability G O β ≤ (Spec.mean fun η : F => Spec.mean fun w : Var N → Spec.Answer => Φ (start η w)) +
      (n * (9 * Coins.bias) + n * 3 * (2 * t + 8 * n + 3) / 2 ^ 256) := by
    generalize (n * (9 * Coins.bias) + n * 3 * (2 * t + 8 * n + 3) / 2 ^ 256 : ℚ) = c at h1 ⊢
    have h5 : ∀ η, (Spec.mean fun w : Var N → Spec.Answer =>
        (A.game G O β S₀ (start η w)).yesRun (code β (start η w)) [] []) ≤
        (Spec.mean fun w : Var N → Spec.Answer => Φ (start η w)) + c := fun η => by
      refine (Sim.mean_mono fun w => h1 (start η w)).trans (le_of_eq ?_)
      exact Forge.mean_shift _ _
    refine (Sim.mean_mono h5).trans (le_of_eq ?_)
    exact Forge.mean_shift _ _
  have e : ((6 * N + 3 + 9 * n) / 2 ^ 259 : ℚ) = n * (9 * Coins.bias) + (6 * N + 3) * Coins.bias := by
    rw [Coins.bias]
    ring
  have e' : (3 * n * (2 * t + 8 * n + 3) / 2 ^ 256 : ℚ) = n * 3 * (2 * t + 8 * n + 3) / 2 ^ 256 := by ring
  rw [e, e']
  linarith

/-- An adversary that has an attribute issued, sees a presentation of a user with the number 7, and reads a generator
with the nonce of this presentation in the transcript. Then it bets on the key being zero, as `Attack.lucky`. -/
def Forge.curious (h : 0 < N) : Reader N :=
  .issue 4 fun _ => .enrol 7 <| .watch 0 fun _ _ =>
    .read ⟨[.init "AEONFLUX SHOW", .commit "P" (.elem ⟨0, 0, 0, 0, 0, 0, Pi.single ⟨0, h⟩ 1, 0, 0, 0⟩)], [],
      .bytes (List.replicate 32 0), 0⟩ fun _ =>
    .hash (Spec.Query.acts (.validCredential "AEONFLUX SHOW"
      ⟨Attack.onlyG 1, Attack.onlyG 0, Attack.onlyG 0, Attack.onlyG 1, Attack.onlyG 0, Attack.onlyG 5⟩
      ⟨Attack.onlyG 0, Attack.onlyG 0⟩)) fun a =>
    .outputShow ⟨Attack.onlyG 0, Attack.onlyG 0, Attack.onlyG 1, Attack.onlyG 5,
      ⟨Scalar.fromWide a.1, ⟨Scalar.ofF (5 * (Scalar.fromWide a.1).val), 0, 0⟩⟩, ⟨0, ⟨0, 0, 0⟩⟩⟩

/-- It makes five steps and reads once. -/
example (O : Oracle) : (Forge.curious (N := 5) (by omega)).Within 5 1 ∧
    (∀ i : Fin 5, (fun _ => 3 : Fin 5 → F) i ≠ 0) ∧
    (Forge.curious (N := 5) (by omega)).probability G O (fun _ => 3) ≤
      319 / ell + 78 / 2 ^ 259 + 675 / 2 ^ 256 := by
  have h : (Forge.curious (N := 5) (by omega)).Within 5 1 :=
    ⟨4, rfl, fun _ => ⟨3, rfl, ⟨2, rfl, fun _ _ => ⟨0, rfl, fun _ => ⟨1, rfl, fun _ => ⟨0, rfl⟩⟩⟩⟩⟩⟩
  have h3 : ∀ i : Fin 5, (fun _ => 3 : Fin 5 → F) i ≠ 0 := fun _ => (by decide +kernel : (3 : F) ≠ 0)
  exact ⟨h, h3, (C89_unforgeable O _ h3 _ h).trans (le_of_eq (by norm_num))⟩

/-- A user with the number 7, and a credential with the nonce `3 • B`, for some issuer's keys. -/
example : ∃ (κ : Hidden 5) (u : SignalUser F), κ .x1 ≠ 0 ∧
    u.user.systemParameters = ⟨basepoint F, hPoint κ⟩ ∧ u.user.issuerParameters = ⟨[κ .x1 • hPoint κ]⟩ ∧
    u.user.credential = some ⟨⟨(3 : F) • basepoint F, (κ .x0 + κ .x1 * 7) • ((3 : F) • basepoint F)⟩, [.ofF 7]⟩ := by
  refine ⟨fun _ => 2, ⟨.ofF 7, ⟨⟨basepoint F, hPoint (N := 5) fun _ => 2⟩, ⟨[(2 : F) • hPoint (N := 5) fun _ => 2]⟩,
    none, some ⟨⟨(3 : F) • basepoint F, (2 + 2 * 7 : F) • ((3 : F) • basepoint F)⟩, [.ofF 7]⟩⟩⟩, ?_, rfl, rfl, rfl⟩
  exact (by decide +kernel : (2 : F) ≠ 0)

end

end Verif
