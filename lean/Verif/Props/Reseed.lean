import Verif.Props.Tagging

/-!
# Presenting twice with the same seed (C92)

The caller of `user_show` passes a seed. The rerandomisation of the tag and the openings depend on nothing
else. So presentations with a repeated seed are recognisable, and whoever knows the seed can take the tag out
of a presentation. As long as a seed is used with one credential only, nothing else can be seen.
-/

set_option maxRecDepth 100000

namespace Verif

variable {G : Type} [AddCommGroup G] [Module F G] [Ristretto G]

/-- `SignalUser::show` where the blinding values `d` of the committed values are given. The randomness of the
proofs is uniform. The hash is asked twice, by the two proofs. -/
noncomputable def Spec.showWith (O : Oracle) (sp : SystemParameters G) {x0 x1 : Scalar} (d : F × F × F)
    (x : Spec.Holder sp x0 x1) (l : Spec.HashLog)
    (k : Spec.HashLog → SignalCredentialPresentation G → ℚ) : ℚ :=
  Spec.mean fun ρ : F × F × F => Spec.mean fun a : Spec.Answer =>
  Spec.mean fun ρ' : F × F × F => Spec.mean fun a' : Spec.Answer =>
    let X := x1.val • sp.h
    let P := d.2.1 • x.credential.mac.nonce
    let C := x.m.val • P + d.1 • sp.h
    let p : ValidCredential.Publics G := ⟨sp.g, sp.h, X, P, d.1 • X - d.2.2 • sp.h, C⟩
    let p' : CommittedValuesEqual.Publics G := ⟨sp.g, sp.h, P, C, x.ros.commitment⟩
    let l₁ := l.asked (ValidCredential.commitCommitments
      (ValidCredential.commitPublics [.init "AEONFLUX SHOW"] p)
      (ValidCredential.commitmentsOf p (ValidCredential.randOf ρ))) a
    let l₂ := l₁.asked (CommittedValuesEqual.commitCommitments
      (CommittedValuesEqual.commitPublics [.init "SIGNAL GROUP MEMBERSHIP"] p')
      (CommittedValuesEqual.commitmentsOf p' (CommittedValuesEqual.randOf ρ'))) a'
    k l₂ (Spec.present (l₂.oracle O) sp X x.credential x.m x.ros d ρ ρ')

/-- Holders present; holder `k` uses the seed number `seed k`, and seed number `j` gives the blinding values
`d j`, as often as it is used. -/
noncomputable def Spec.seededShow (O : Oracle) (sp : SystemParameters G) {x0 x1 : Scalar} {K J : Type}
    (seed : K → J) (who : K → Spec.Holder sp x0 x1) (d : J → F × F × F) :
    Spec.Server K fun _ => SignalCredentialPresentation G :=
  fun k => Spec.showWith O sp (d (seed k)) (who k)

/-- The probability that the observer says yes, for unknown independent seeds. -/
noncomputable def Spec.seededYes (O : Oracle) (sp : SystemParameters G) {x0 x1 : Scalar} {K J : Type}
    [Fintype J] [DecidableEq J] (seed : K → J) (who : K → Spec.Holder sp x0 x1)
    (A : Spec.Observer K fun _ => SignalCredentialPresentation G) : ℚ :=
  Spec.mean fun d : J → F × F × F => A.yes (Spec.seededShow O sp seed who d) []

/-- C92: the blinding values of a presentation depend on the caller's generator only. Two users of the same issuer
whose generators return the same bytes present with the same blinding values, whatever their credentials,
numbers, rosters and the entropy of the operating system. -/
theorem C92_seed {R : Type} [RngCore R] (O : Oracle) {sp : SystemParameters G} {x0 x1 : Scalar}
    (x x' : Spec.Holder sp x0 x1) {u u' : SignalUser G}
    (hs : u.user.systemParameters = sp) (hs' : u'.user.systemParameters = sp)
    (hX : u.user.issuerParameters.Xn = [x1.val • sp.h]) (hX' : u'.user.issuerParameters.Xn = [x1.val • sp.h])
    (hc : u.user.credential = some x.credential) (hc' : u'.user.credential = some x'.credential)
    (hm : x.credential.attributes = [x.m]) (hm' : x'.credential.attributes = [x'.m])
    (rng : R) (e1 e2 e1' e2' : Bytes) :
    ∃ d ρ ρ' σ σ' : F × F × F,
      (u.show O rng x.ros e1 e2).1 =
        .ok (Spec.present O sp (x1.val • sp.h) x.credential x.m x.ros d ρ ρ') ∧
      (u'.show O rng x'.ros e1' e2').1 =
        .ok (Spec.present O sp (x1.val • sp.h) x'.credential x'.m x'.ros d σ σ') := by
  obtain ⟨z, e, h, h1⟩ := C82_show O x hs hX hc hm rng e1 e2
  obtain ⟨z', e', h', h2⟩ := C82_show O x' hs' hX' hc' hm' rng e1' e2'
  rw [h, List.cons.injEq, List.cons.injEq] at h'
  obtain ⟨rfl, rfl, -⟩ := h'
  exact ⟨_, _, _, _, _, h1, h2⟩

/-- C92: whoever knows the seed takes the tag of the credential out of a presentation, and can check guesses of the
number. `Spec.showCoins O z e` can be computed from the bytes that the seed gives. The exception is a zero
factor, which has probability `1/ℓ`. -/
theorem C92_known_seed {R : Type} [RngCore R] (O : Oracle) {sp : SystemParameters G} {x0 x1 : Scalar}
    (x : Spec.Holder sp x0 x1) {u : SignalUser G} (hs : u.user.systemParameters = sp)
    (hX : u.user.issuerParameters.Xn = [x1.val • sp.h]) (hc : u.user.credential = some x.credential)
    (hm : x.credential.attributes = [x.m]) (rng : R) (e1 e2 : Bytes) :
    ∃ z e p, (Spec.reads [64, 32] rng).1 = [z, e] ∧ (u.show O rng x.ros e1 e2).1 = .ok p ∧
      let d := Spec.showCoins O z e
      d.2.1 ≠ 0 →
        d.2.1⁻¹ • p.presentation.rerandomizedNonce = x.credential.mac.nonce ∧
        d.2.1⁻¹ • (p.presentation.rerandomizedMacCommitment - d.2.2 • sp.h) = x.credential.mac.mac ∧
        ∃ C, p.presentation.attributesBlinded = [C] ∧
          ∀ m : F, C - d.1 • sp.h = m • p.presentation.rerandomizedNonce ↔ m = x.m.val := by
  obtain ⟨z, e, h, h1⟩ := C82_show O x hs hX hc hm rng e1 e2
  refine ⟨z, e, _, h, h1, fun h0 => ?_⟩
  generalize Spec.showCoins O z e = d at h0 ⊢
  refine ⟨?_, ?_, _, rfl, fun m => ?_⟩
  · simp only [Spec.present]
    rw [smul_smul, inv_mul_cancel₀ h0, one_smul]
  · simp only [Spec.present]
    rw [add_sub_cancel_right, smul_smul, inv_mul_cancel₀ h0, one_smul]
  · simp only [Spec.present]
    rw [add_sub_cancel_right]
    refine ⟨fun h => ?_, fun h => by rw [h]⟩
    have hne : d.2.1 • x.credential.mac.nonce ≠ 0 := fun h => (smul_eq_zero.1 h).elim h0 x.nonce
    by_contra hcon
    rw [← sub_eq_zero, ← sub_smul] at h
    exact (smul_eq_zero.1 h).elim (fun h => hcon (sub_eq_zero.1 h).symm) hne

/-- A user that is a holder. -/
example : ∃ (x : Spec.Holder (⟨1, 2⟩ : SystemParameters F) ⟨3, by decide⟩ ⟨5, by decide⟩) (u : SignalUser F),
    u.user.systemParameters = ⟨1, 2⟩ ∧
    u.user.issuerParameters.Xn = [(⟨5, by decide⟩ : Scalar).val • (⟨1, 2⟩ : SystemParameters F).h] ∧
    u.user.credential = some x.credential ∧ x.credential.attributes = [x.m] :=
  ⟨⟨⟨⟨2, 76⟩, [⟨7, by decide⟩]⟩, ⟨7, by decide⟩, ⟨16, ⟨2, by decide⟩⟩, by
      simp only [Spec.MacValid, Spec.macFactor, List.map]; decide +kernel, by decide +kernel,
      by decide +kernel⟩,
    ⟨⟨7, by decide⟩, ⟨⟨1, 2⟩, ⟨[(⟨5, by decide⟩ : Scalar).val • 2]⟩, none,
      some ⟨⟨2, 76⟩, [⟨7, by decide⟩]⟩⟩⟩, rfl, rfl, rfl, rfl⟩

namespace Reseed

/-- With uniform blinding values that are used once, this is the server of C82. -/
theorem honestShow_eq (O : Oracle) (sp : SystemParameters G) {x0 x1 : Scalar} (x : Spec.Holder sp x0 x1)
    (l : Spec.HashLog) (k : Spec.HashLog → SignalCredentialPresentation G → ℚ) :
    Spec.honestShow O sp x0 x1 x l k = Spec.mean fun d => Spec.showWith O sp d x l k := rfl

/-- Two simulated proofs for given committed values. -/
noncomputable def simulateWith (sp : SystemParameters G) (x0 x1 : Scalar) (v : F × F × F) (D : G)
    (l : Spec.HashLog) (k : Spec.HashLog → SignalCredentialPresentation G → ℚ) : ℚ :=
  let P := v.1 • sp.h
  let C := v.2.1 • sp.h
  let CQ := v.2.2 • sp.h
  let V := x0.val • P + x1.val • C - CQ
  Spec.ValidCredential.simulated [.init "AEONFLUX SHOW"] ⟨sp.g, sp.h, x1.val • sp.h, P, V, C⟩ l
    fun l₁ π =>
      Spec.CommittedValuesEqual.simulated [.init "SIGNAL GROUP MEMBERSHIP"] ⟨sp.g, sp.h, P, C, D⟩ l₁
        fun l₂ π' => k l₂ ⟨D, ⟨CQ, P, [], [C], π⟩, π'⟩

/-- The presentation from its two proofs. -/
theorem showWith_steps (O : Oracle) {sp : SystemParameters G} {x0 x1 : Scalar} (d : F × F × F)
    (x : Spec.Holder sp x0 x1) (l : Spec.HashLog)
    (k : Spec.HashLog → SignalCredentialPresentation G → ℚ) :
    Spec.showWith O sp d x l k =
      Spec.ValidCredential.honest O [.init "AEONFLUX SHOW"]
        ⟨sp.g, sp.h, x1.val • sp.h, d.2.1 • x.credential.mac.nonce,
          d.1 • (x1.val • sp.h) - d.2.2 • sp.h, x.m.val • (d.2.1 • x.credential.mac.nonce) + d.1 • sp.h⟩
        ⟨x.m, Scalar.ofF d.1, -Scalar.ofF d.2.2⟩ l fun l₁ π =>
          Spec.CommittedValuesEqual.honest O [.init "SIGNAL GROUP MEMBERSHIP"]
            ⟨sp.g, sp.h, d.2.1 • x.credential.mac.nonce,
              x.m.val • (d.2.1 • x.credential.mac.nonce) + d.1 • sp.h, x.ros.commitment⟩
            ⟨x.m, Scalar.ofF d.1, x.ros.opening⟩ l₁ fun l₂ π' =>
              k l₂ ⟨x.ros.commitment, ⟨d.2.1 • x.credential.mac.mac + d.2.2 • sp.h,
                d.2.1 • x.credential.mac.nonce, [],
                [x.m.val • (d.2.1 • x.credential.mac.nonce) + d.1 • sp.h], π⟩, π'⟩ := by
  unfold Spec.showWith Spec.ValidCredential.honest Spec.CommittedValuesEqual.honest
  refine Sim.mean_congr fun ρ => Sim.mean_congr fun a => Sim.mean_congr fun ρ' =>
    Sim.mean_congr fun a' => ?_
  have h1 := Sim.lookup_asked l (ValidCredential.commitCommitments
    (ValidCredential.commitPublics [.init "AEONFLUX SHOW"]
      (⟨sp.g, sp.h, x1.val • sp.h, d.2.1 • x.credential.mac.nonce, d.1 • (x1.val • sp.h) - d.2.2 • sp.h,
        x.m.val • (d.2.1 • x.credential.mac.nonce) + d.1 • sp.h⟩ : ValidCredential.Publics G))
    (ValidCredential.commitmentsOf (⟨sp.g, sp.h, x1.val • sp.h, d.2.1 • x.credential.mac.nonce,
        d.1 • (x1.val • sp.h) - d.2.2 • sp.h,
        x.m.val • (d.2.1 • x.credential.mac.nonce) + d.1 • sp.h⟩ : ValidCredential.Publics G)
      (ValidCredential.randOf ρ))) a
  simp only [Spec.present, ValidCredential.createWith]
  rw [Sim.getChallenge_oracle (Sim.lookup_asked_of_some h1 _ _), Sim.getChallenge_oracle h1]

/-- The logarithm of the credential's nonce. -/
noncomputable def log (sp : SystemParameters G) (hh : sp.h ≠ 0) {x0 x1 : Scalar} (x : Spec.Holder sp x0 x1) : F :=
  (exists_smul_of_ne_zero hh x.credential.mac.nonce).choose

theorem log_spec (sp : SystemParameters G) (hh : sp.h ≠ 0) {x0 x1 : Scalar} (x : Spec.Holder sp x0 x1) :
    x.credential.mac.nonce = log sp hh x • sp.h :=
  (exists_smul_of_ne_zero hh x.credential.mac.nonce).choose_spec

theorem log_ne_zero (sp : SystemParameters G) (hh : sp.h ≠ 0) {x0 x1 : Scalar} (x : Spec.Holder sp x0 x1) :
    log sp hh x ≠ 0 := fun h => x.nonce (by rw [log_spec sp hh x, h, zero_smul])

/-- The committed values of a holder, as multiples of `h`. -/
noncomputable def values (sp : SystemParameters G) (hh : sp.h ≠ 0) {x0 x1 : Scalar} (x : Spec.Holder sp x0 x1) :
    F × F × F ≃ F × F × F :=
  Sim.showEquiv (log sp hh x) x.m.val (x1.val * x.m.val + x0.val) (log_ne_zero sp hh x)

/-- Proofs are replaced by simulated ones. -/
theorem showWith_close (O : Oracle) {sp : SystemParameters G} (hh : sp.h ≠ 0) {x0 x1 : Scalar} (d : F × F × F)
    (x : Spec.Holder sp x0 x1) (l : Spec.HashLog) (f g : Spec.HashLog → SignalCredentialPresentation G → ℚ)
    (ε : ℚ) (hf : Sim.Unit01 f)
    (hfg : ∀ l' π, l'.length = l.length + 2 → |f l' π - g l' π| ≤ ε) :
    |Spec.showWith O sp d x l f - simulateWith sp x0 x1 (values sp hh x d) x.ros.commitment l g| ≤
      ε + ((2 : ℕ) : ℚ) * (l.length + ((2 : ℕ) : ℚ)) / ell := by
  have hl := log_spec sp hh x
  have hv := x.valid
  simp only [Spec.MacValid, Spec.macFactor, List.map_cons, List.map_nil] at hv
  rw [showWith_steps]
  simp only [simulateWith, values, Sim.showEquiv, Equiv.coe_fn_mk]
  generalize log sp hh x = a at hl ⊢
  have e1 : (d.2.1 * a) • sp.h = d.2.1 • x.credential.mac.nonce := by rw [hl]; module
  have e2 : (x.m.val * (d.2.1 * a) + d.1) • sp.h =
      x.m.val • (d.2.1 • x.credential.mac.nonce) + d.1 • sp.h := by rw [hl]; module
  have e3 : ((x1.val * x.m.val + x0.val) * (d.2.1 * a) + d.2.2) • sp.h =
      d.2.1 • x.credential.mac.mac + d.2.2 • sp.h := by rw [hv, hl]; module
  have e4 : x0.val • (d.2.1 • x.credential.mac.nonce) +
      x1.val • (x.m.val • (d.2.1 • x.credential.mac.nonce) + d.1 • sp.h) -
      (d.2.1 • x.credential.mac.mac + d.2.2 • sp.h) = d.1 • (x1.val • sp.h) - d.2.2 • sp.h := by
    rw [hv, hl]; module
  rw [e1, e2, e3, e4]
  have hb : ε + ((2 : ℕ) : ℚ) * (l.length + ((2 : ℕ) : ℚ)) / ell ≥
      (ε + ((l.length + 1 : ℕ) : ℚ) / ell) + (l.length : ℚ) / ell := by
    rw [add_assoc, ← add_div]
    gcongr
    push_cast
    linarith
  refine le_trans ?_ hb
  refine ValidCredential.zk_close O _ ?_ (Or.inr (Or.inl hh)) l _ _ _
    (fun _ _ => CommittedValuesEqual.honest01 _ _ _ _ _ fun _ _ => hf _ _) fun l₁ π h1 => ?_
  · simp only [Spec.ValidCredential, Scalar.val_neg, Scalar.val_ofF]
    exact ⟨trivial, by module⟩
  · rw [← h1]
    refine CommittedValuesEqual.zk_close O _ ?_ (Or.inr (Or.inl hh)) l₁ _ _ _
      (fun _ _ => hf _ _) fun l₂ π' h2 => hfg _ _ (by rw [h2, h1])
    simp only [Spec.CommittedValuesEqual, Scalar.val_ofF]
    exact ⟨trivial, x.entry⟩

variable {K J : Type}

/-- The server that simulates the proofs. -/
noncomputable def simulates (sp : SystemParameters G) (x0 x1 : Scalar) (v : K → F × F × F) (D : K → G) :
    Spec.Server K fun _ => SignalCredentialPresentation G :=
  fun k => simulateWith sp x0 x1 (v k) (D k)

theorem seeded_close (O : Oracle) {sp : SystemParameters G} (hh : sp.h ≠ 0) {x0 x1 : Scalar}
    (seed : K → J) (who : K → Spec.Holder sp x0 x1) (d : J → F × F × F) :
    Sim.Close 2 (Spec.seededShow O sp seed who d)
      (simulates sp x0 x1 (fun k => values sp hh (who k) (d (seed k))) fun k => (who k).ros.commitment) where
  range k l f hf := by
    unfold Spec.seededShow
    rw [showWith_steps]
    exact ValidCredential.honest01 _ _ _ _ _ fun _ _ =>
      CommittedValuesEqual.honest01 _ _ _ _ _ fun _ _ => hf _ _
  range' k l f hf := by
    unfold simulates simulateWith
    exact ValidCredential.simulated01 _ _ _ fun _ _ =>
      CommittedValuesEqual.simulated01 _ _ _ fun _ _ => hf _ _
  close k l f g ε hf _ hfg := by
    unfold Spec.seededShow simulates
    exact showWith_close O hh _ (who k) l f g ε hf hfg

/-- Each seed is used with one credential. -/
def _root_.Verif.Spec.OneCredential {sp : SystemParameters G} {x0 x1 : Scalar} (seed : K → J)
    (who : K → Spec.Holder sp x0 x1) : Prop :=
  ∀ k k', seed k = seed k' → (who k).credential.mac = (who k').credential.mac ∧ (who k).m.val = (who k').m.val

open Classical in
/-- A holder's committed values, by seed. -/
noncomputable def table {sp : SystemParameters G} (hh : sp.h ≠ 0) {x0 x1 : Scalar} (seed : K → J)
    (who : K → Spec.Holder sp x0 x1) (j : J) : F × F × F ≃ F × F × F :=
  if h : ∃ k, seed k = j then values sp hh (who h.choose) else Equiv.refl _

theorem table_seed {sp : SystemParameters G} (hh : sp.h ≠ 0) {x0 x1 : Scalar} {seed : K → J}
    {who : K → Spec.Holder sp x0 x1} (h1 : Spec.OneCredential seed who) (k : K) :
    table hh seed who (seed k) = values sp hh (who k) := by
  have h : ∃ k', seed k' = seed k := ⟨k, rfl⟩
  rw [table, dif_pos h]
  obtain ⟨h2, h3⟩ := h1 _ _ h.choose_spec
  have h4 : log sp hh (who h.choose) = log sp hh (who k) := by
    have e := log_spec sp hh (who h.choose)
    rw [h2, log_spec sp hh (who k)] at e
    by_contra hc
    rw [← sub_eq_zero, ← sub_smul] at e
    exact (smul_eq_zero.1 e).elim (fun h => hc (sub_eq_zero.1 h).symm) hh
  refine Equiv.ext fun d => ?_
  simp only [values, Sim.showEquiv, Equiv.coe_fn_mk, h3, h4]

variable [Fintype J] [DecidableEq J]

theorem simulated_eq {sp : SystemParameters G} (hh : sp.h ≠ 0) {x0 x1 : Scalar} {seed : K → J}
    {who : K → Spec.Holder sp x0 x1} (h1 : Spec.OneCredential seed who)
    (A : Spec.Observer K fun _ => SignalCredentialPresentation G) :
    (Spec.mean fun d : J → F × F × F => A.yes (simulates sp x0 x1
      (fun k => values sp hh (who k) (d (seed k))) fun k => (who k).ros.commitment) []) =
    Spec.mean fun v : J → F × F × F => A.yes (simulates sp x0 x1
      (fun k => v (seed k)) fun k => (who k).ros.commitment) [] := by
  rw [← Sim.mean_equiv (Equiv.piCongrRight (table hh seed who)) fun v : J → F × F × F =>
    A.yes (simulates sp x0 x1 (fun k => v (seed k)) fun k => (who k).ros.commitment) []]
  refine Sim.mean_congr fun d => ?_
  have e : (fun k => values sp hh (who k) (d (seed k))) =
      fun k => (Equiv.piCongrRight (table hh seed who)) d (seed k) := by
    funext k
    rw [Equiv.piCongrRight_apply, Pi.map_apply, table_seed hh h1]
  rw [e]

end Reseed

/-- C92, the part that holds: a repeated seed shows that it was repeated, and nothing else, as long as each seed is
used with one credential. For two populations with the same roster commitments that use their seeds at the same
places, each seed with one credential, no observer with the issuer's keys, with at most `q` hash queries and
`n` presentations of places of its choice, can tell which it is, except with advantage `4n(q+2n)/ℓ`. With a
seed of its own for each presentation this is unlinkability. Missing from the full statement: that a seed
was repeated can be seen (`C92_false`), and the seeds must be unknown (`C92_known_seed`). -/
theorem C92_only_repetition_partial (O : Oracle) {sp : SystemParameters G} (hh : sp.h ≠ 0) {x0 x1 : Scalar}
    {K J : Type} [Fintype J] [DecidableEq J] (seed : K → J) (who who' : K → Spec.Holder sp x0 x1)
    (h : Spec.OneCredential seed who) (h' : Spec.OneCredential seed who')
    (hD : ∀ k, (who k).ros.commitment = (who' k).ros.commitment)
    (A : Spec.Observer K fun _ => SignalCredentialPresentation G) (q n : ℕ) (hA : A.Within q n) :
    |Spec.seededYes O sp seed who A - Spec.seededYes O sp seed who' A| ≤ 4 * n * (q + 2 * n) / ell := by
  have h1 : |Spec.seededYes O sp seed who A - Spec.mean fun v : J → F × F × F =>
      A.yes (Reseed.simulates sp x0 x1 (fun k => v (seed k)) fun k => (who k).ros.commitment) []| ≤
      n * (2 : ℕ) * (([] : Spec.HashLog).length + q + (2 : ℕ) * n) / ell := by
    rw [← Reseed.simulated_eq hh h A]
    exact Sim.abs_sub_mean_le fun d => Sim.advantage (Reseed.seeded_close O hh seed who d) A [] q n hA
  have h2 : |Spec.seededYes O sp seed who' A - Spec.mean fun v : J → F × F × F =>
      A.yes (Reseed.simulates sp x0 x1 (fun k => v (seed k)) fun k => (who' k).ros.commitment) []| ≤
      n * (2 : ℕ) * (([] : Spec.HashLog).length + q + (2 : ℕ) * n) / ell := by
    rw [← Reseed.simulated_eq hh h' A]
    exact Sim.abs_sub_mean_le fun d => Sim.advantage (Reseed.seeded_close O hh seed who' d) A [] q n hA
  rw [← funext hD] at h2
  rw [abs_sub_comm] at h2
  refine (abs_sub_le _ _ _).trans ((add_le_add h1 h2).trans (le_of_eq ?_))
  push_cast
  rw [List.length_nil]
  push_cast
  ring

/-- One user who presents three times with two seeds, and another with another number: the hypotheses hold, and
the second seed is used twice. -/
example : ∃ (seed : Fin 3 → Bool)
    (who who' : Fin 3 → Spec.Holder (⟨1, 2⟩ : SystemParameters F) ⟨3, by decide⟩ ⟨5, by decide⟩),
    seed 1 = seed 2 ∧ Spec.OneCredential seed who ∧ Spec.OneCredential seed who' ∧
    (∀ k, (who k).ros.commitment = (who' k).ros.commitment) ∧ ∀ k, (who k).m ≠ (who' k).m :=
  ⟨fun k => decide (k ≠ 0),
    fun _ => ⟨⟨⟨2, 76⟩, []⟩, ⟨7, by decide⟩, ⟨16, ⟨2, by decide⟩⟩, by
      simp only [Spec.MacValid, Spec.macFactor, List.map]; decide +kernel, by decide +kernel,
      by decide +kernel⟩,
    fun _ => ⟨⟨⟨2, 56⟩, []⟩, ⟨5, by decide⟩, ⟨16, ⟨6, by decide⟩⟩, by
      simp only [Spec.MacValid, Spec.macFactor, List.map]; decide +kernel, by decide +kernel,
      by decide +kernel⟩, rfl, fun _ _ _ => ⟨rfl, rfl⟩, fun _ _ _ => ⟨rfl, rfl⟩, fun _ => rfl,
    fun _ h => absurd (congrArg Scalar.n h) (by decide : (7 : ℕ) ≠ 5)⟩

/-! ### A repeated seed can be seen -/

open Classical in
/-- Looks at two presentations, and says yes if the nonce is the same. -/
noncomputable def Spec.compareNonces : Spec.Observer Bool fun _ => SignalCredentialPresentation G :=
  .request false fun p => .request true fun p' =>
    .done (decide (p.presentation.rerandomizedNonce = p'.presentation.rerandomizedNonce))

namespace Reseed

/-- What depends on the nonce only. -/
theorem showWith_nonce (O : Oracle) {sp : SystemParameters G} {x0 x1 : Scalar} (d : F × F × F)
    (x : Spec.Holder sp x0 x1) (l : Spec.HashLog)
    {f : Spec.HashLog → SignalCredentialPresentation G → ℚ} {c : ℚ}
    (h : ∀ l p, p.presentation.rerandomizedNonce = d.2.1 • x.credential.mac.nonce → f l p = c) :
    Spec.showWith O sp d x l f = c := by
  rw [showWith_steps]
  unfold Spec.ValidCredential.honest Spec.CommittedValuesEqual.honest
  refine Eq.trans (Sim.mean_congr fun ρ => ?_) (Sim.mean_const (α := F × F × F) c)
  refine Eq.trans (Sim.mean_congr fun a => ?_) (Sim.mean_const (α := Spec.Answer) c)
  refine Eq.trans (Sim.mean_congr fun ρ' => ?_) (Sim.mean_const (α := F × F × F) c)
  refine Eq.trans (Sim.mean_congr fun a' => ?_) (Sim.mean_const (α := Spec.Answer) c)
  exact h _ _ rfl

open Classical in
theorem compare_yes (O : Oracle) {sp : SystemParameters G} {x0 x1 : Scalar} {J : Type} (seed : Bool → J)
    (who : Bool → Spec.Holder sp x0 x1) (d : J → F × F × F) :
    Spec.compareNonces.yes (Spec.seededShow O sp seed who d) [] =
      if (d (seed false)).2.1 • (who false).credential.mac.nonce =
        (d (seed true)).2.1 • (who true).credential.mac.nonce then (1 : ℚ) else 0 := by
  unfold Spec.compareNonces
  simp only [Spec.Observer.yes, Spec.seededShow]
  refine showWith_nonce O _ _ _ fun l p hp => showWith_nonce O _ _ _ fun l' p' hp' => ?_
  rw [hp, hp']
  simp only [decide_eq_true_eq]

/-- Two independent seeds give the same factor with probability `1/ℓ`. -/
theorem mean_same : (Spec.mean fun d : Bool → F × F × F =>
    if (d false).2.1 = (d true).2.1 then (1 : ℚ) else 0) = 1 / ell := by
  rw [← Sim.mean_equiv (Equiv.boolArrowEquivProd (F × F × F)).symm, Tagging.mean_prod]
  refine Eq.trans (Sim.mean_congr fun d => ?_) (Sim.mean_const (α := F × F × F) (1 / ell))
  rw [← Sim.mean_equiv (Equiv.addRight d), ← Tagging.mean_zero]
  refine Sim.mean_congr fun d' => ?_
  simp [Equiv.boolArrowEquivProd]

end Reseed

/-- C92 is false: an observer that makes no hash query sees that a seed was used twice. It always says yes if a user
presents twice with one seed. It says yes with probability `1/ℓ` if the user takes another seed, and if another
user, with another nonce in the credential, presents with the same seed. -/
theorem C92_false (O : Oracle) {sp : SystemParameters G} {x0 x1 : Scalar} (x x' : Spec.Holder sp x0 x1)
    (hx : x.credential.mac.nonce ≠ x'.credential.mac.nonce) :
    (Spec.compareNonces (G := G)).Within 0 2 ∧
    Spec.seededYes O sp (fun _ => ()) (fun _ => x) Spec.compareNonces = 1 ∧
    Spec.seededYes O sp (id : Bool → Bool) (fun _ => x) Spec.compareNonces = 1 / ell ∧
    Spec.seededYes O sp (fun _ => ()) (fun k => bif k then x' else x) Spec.compareNonces = 1 / ell := by
  classical
  refine ⟨⟨1, rfl, fun _ => ⟨0, rfl, fun _ => trivial⟩⟩, ?_, ?_, ?_⟩
  · refine Eq.trans (Sim.mean_congr fun d => ?_) (Sim.mean_const (α := Unit → F × F × F) 1)
    rw [Reseed.compare_yes, if_pos rfl]
  · refine Eq.trans (Sim.mean_congr fun d => ?_) Reseed.mean_same
    rw [Reseed.compare_yes]
    refine if_congr ⟨fun h => ?_, fun h => congrArg (· • x.credential.mac.nonce) h⟩ rfl rfl
    rw [← sub_eq_zero, ← sub_smul] at h
    exact (smul_eq_zero.1 h).elim sub_eq_zero.1 fun h => absurd h x.nonce
  · rw [← Tagging.mean_zero, ← Sim.mean_equiv (Equiv.funUnique Unit (F × F × F))]
    refine Sim.mean_congr fun d => ?_
    rw [Reseed.compare_yes]
    refine if_congr ⟨fun h => ?_, fun h => ?_⟩ rfl rfl
    · rw [← sub_eq_zero] at h
      simp only [cond_false, cond_true] at h
      rw [← smul_sub] at h
      exact (smul_eq_zero.1 h).elim id fun h => absurd (sub_eq_zero.1 h) hx
    · have h0 : (d ()).2.1 = 0 := h
      simp only [h0, zero_smul]

/-- Two such users, with the same roster commitment. -/
example : ∃ x x' : Spec.Holder (⟨1, 2⟩ : SystemParameters F) ⟨3, by decide⟩ ⟨5, by decide⟩,
    x.credential.mac.nonce ≠ x'.credential.mac.nonce ∧ x.ros.commitment = x'.ros.commitment :=
  ⟨⟨⟨⟨2, 76⟩, []⟩, ⟨7, by decide⟩, ⟨16, ⟨2, by decide⟩⟩, by
      simp only [Spec.MacValid, Spec.macFactor, List.map]; decide +kernel, by decide +kernel,
      by decide +kernel⟩,
    ⟨⟨⟨1, 28⟩, []⟩, ⟨5, by decide⟩, ⟨16, ⟨6, by decide⟩⟩, by
      simp only [Spec.MacValid, Spec.macFactor, List.map]; decide +kernel, by decide +kernel,
      by decide +kernel⟩, by decide +kernel, rfl⟩

end Verif
