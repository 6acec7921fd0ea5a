import Verif.Props.Reveal
import Verif.Props.Simulatable

/-!
# One key per presentation, and issuers that tag credentials (C85, C86)

A presentation is accepted under one issuer key only. So an issuer that gives different users credentials
under different keys recognises them when they present. The proof sent with an issuance does not prevent
this, because the users are never told `x₀` (nor a commitment to it) in advance.
-/

set_option maxRecDepth 100000

namespace Verif

open Amacs

variable {G : Type} [AddCommGroup G] [Module F G] [Ristretto G]

/-! ## C85 one key -/

/-- The hash query with which an issuer decides about the presentation `p` with commitment `C`. -/
def Spec.decisionQuery (i : Issuer G) (p : CredentialPresentation G) (X C : G) : Spec.Query G :=
  .validCredential "AEONFLUX SHOW" (Spec.presentationPublics i p X C)
    (ValidCredential.recommit (Spec.presentationPublics i p X C) p.proof)

/-- What acceptance means for an issuer with one key element. -/
theorem verify_ok_one {O : Oracle} {i : Issuer G} {x0 x1 : Scalar} {X : G}
    (hk : i.keypair.secretKey = ⟨x0, [x1]⟩) (hX : i.keypair.publicKey.Xn = [X])
    {p : CredentialPresentation G} (h : i.verify O p = .ok ⟨p⟩) :
    ∃ C, p.attributesBlinded = [C] ∧ (p.attributesRevealed = [] ∨ ∃ a, p.attributesRevealed = [a]) ∧
      p.proof.challenge =
        Scalar.fromWide (O.chal (Spec.decisionQuery i p X C).ops "chal" 64) := by
  have h0 := (C76_verify O i p).1.not.1 (by rw [h]; simp)
  rw [hk] at h0
  push Not at h0
  obtain ⟨h1, h2, h3, -⟩ := h0
  simp only [List.length_singleton] at h1 h2
  obtain ⟨C, Cs, hC⟩ := List.exists_cons_of_ne_nil h3
  have hv := (C76_verify O i p).2 hX hC (by rw [hk]; exact h1) (by rw [hk]; exact h2)
  rw [h] at hv
  split at hv
  · rename_i ht
    have hCs : Cs = [] := by
      rw [hC, List.length_cons] at h2
      exact List.length_eq_zero_iff.1 (by omega)
    subst hCs
    refine ⟨C, hC, ?_, ((C32_query_made O _).2.2.2.1 _ _).1 ht⟩
    cases hr : p.attributesRevealed with
    | nil => exact .inl rfl
    | cons a as =>
      rw [hr, List.length_cons] at h1
      have : as = [] := List.length_eq_zero_iff.1 (by omega)
      exact .inr ⟨a, by rw [this]⟩
  · exact absurd hv (by simp)

omit [Ristretto G] in
/-- Different keys make different statements out of the same presentation. -/
theorem publics_ne {i i' : Issuer G} (hh : i.systemParameters.h ≠ 0) {x0 x1 x0' x1' : Scalar}
    (hk : i.keypair.secretKey = ⟨x0, [x1]⟩) (hk' : i'.keypair.secretKey = ⟨x0', [x1']⟩)
    {p : CredentialPresentation G} (hP : p.rerandomizedNonce ≠ 0) {C : G}
    (h : Spec.presentationPublics i p (x1.val • i.systemParameters.h) C =
      Spec.presentationPublics i' p (x1'.val • i'.systemParameters.h) C) :
    i.systemParameters = i'.systemParameters ∧ x0.val = x0'.val ∧ x1.val = x1'.val := by
  have hA : i.systemParameters.h = i'.systemParameters.h := congrArg ValidCredential.Publics.A h
  have hB : i.systemParameters.g = i'.systemParameters.g := congrArg ValidCredential.Publics.B h
  have hX : x1.val • i.systemParameters.h = x1'.val • i'.systemParameters.h :=
    congrArg ValidCredential.Publics.X0 h
  rw [← hA] at hX
  have hx1 : x1.val = x1'.val := (smul_right_inj' hh).1 hX
  have hV := congrArg ValidCredential.Publics.V h
  simp only [Spec.presentationPublics, hk, hk', List.map_cons, List.map_nil, hx1] at hV
  have h2 := add_right_cancel (add_right_cancel (sub_left_inj.1 hV))
  exact ⟨SystemParameters.ext hB hA, (smul_right_inj' hP).1 h2, hx1⟩

/-- C85: two issuers with any parameters and keys that both accept the same presentation, whoever made it,
have the same parameters and keys, unless the two hash queries that they make are different and have the
same challenge. The presentation must not carry the identity as nonce. -/
theorem C85_one_key (O : Oracle) {i i' : Issuer G} (hh : i.systemParameters.h ≠ 0)
    {x0 x1 x0' x1' : Scalar} (hk : i.keypair.secretKey = ⟨x0, [x1]⟩)
    (hX : i.keypair.publicKey.Xn = [x1.val • i.systemParameters.h])
    (hk' : i'.keypair.secretKey = ⟨x0', [x1']⟩)
    (hX' : i'.keypair.publicKey.Xn = [x1'.val • i'.systemParameters.h])
    {p : CredentialPresentation G} (hP : p.rerandomizedNonce ≠ 0)
    (h : i.verify O p = .ok ⟨p⟩) (h' : i'.verify O p = .ok ⟨p⟩) :
    (i.systemParameters = i'.systemParameters ∧ x0.val = x0'.val ∧ x1.val = x1'.val) ∨
    ∃ C, p.attributesBlinded = [C] ∧
      (Spec.decisionQuery i p (x1.val • i.systemParameters.h) C).ops ≠
        (Spec.decisionQuery i' p (x1'.val • i'.systemParameters.h) C).ops ∧
      Scalar.fromWide (O.chal (Spec.decisionQuery i p (x1.val • i.systemParameters.h) C).ops "chal" 64) =
        Scalar.fromWide
          (O.chal (Spec.decisionQuery i' p (x1'.val • i'.systemParameters.h) C).ops "chal" 64) := by
  obtain ⟨C, hC, -, hc⟩ := verify_ok_one hk hX h
  obtain ⟨C', hC', -, hc'⟩ := verify_ok_one hk' hX' h'
  obtain rfl : C' = C := by
    rw [hC] at hC'
    exact (List.cons.inj hC').1.symm
  by_cases hq : (Spec.decisionQuery i p (x1.val • i.systemParameters.h) C').ops =
      (Spec.decisionQuery i' p (x1'.val • i'.systemParameters.h) C').ops
  · left
    have h1 := C32_injective hq
    simp only [Spec.decisionQuery, Spec.Query.validCredential.injEq] at h1
    exact publics_ne hh hk hk' hP h1.2.1
  · exact .inr ⟨C', hC, hq, hc.symm.trans hc'⟩

/-- A presentation that two issuers accept, whose keys are the same number in two representations. -/
example : ∃ (O : Oracle) (i i' : Issuer F) (x0 x0' x1 : Scalar) (p : CredentialPresentation F),
    i.systemParameters.h ≠ 0 ∧ i.keypair.secretKey = ⟨x0, [x1]⟩ ∧
    i.keypair.publicKey.Xn = [x1.val • i.systemParameters.h] ∧ i'.keypair.secretKey = ⟨x0', [x1]⟩ ∧
    i'.keypair.publicKey.Xn = [x1.val • i'.systemParameters.h] ∧ p.rerandomizedNonce ≠ 0 ∧ i ≠ i' ∧
    i.verify O p = .ok ⟨p⟩ ∧ i'.verify O p = .ok ⟨p⟩ := by
  refine ⟨toyOracle3, ⟨⟨1, 2⟩, ⟨⟨[(1 : Scalar).val • 2]⟩, ⟨1, [1]⟩⟩⟩,
    ⟨⟨1, 2⟩, ⟨⟨[(1 : Scalar).val • 2]⟩, ⟨⟨ell + 1, by decide +kernel⟩, [1]⟩⟩⟩, 1,
    ⟨ell + 1, by decide +kernel⟩, 1,
    (Spec.present toyOracle3 ⟨1, 2⟩ ((1 : Scalar).val • 2) ⟨⟨3, 6⟩, [1]⟩ 1 ⟨3, 1⟩ (5, 7, 11) (1, 2, 3)
      (1, 2, 3)).presentation, ?_, rfl, rfl, rfl, rfl, ?_, ?_, ?_, ?_⟩ <;> decide +kernel

/-- C85: with the identity as nonce, the decision does not depend on `x₀`. -/
theorem C85_identity_nonce (O : Oracle) (sp : SystemParameters G) (pk : PublicKey G)
    (x0 x0' : Scalar) (xn : List Scalar) {p : CredentialPresentation G} (hP : p.rerandomizedNonce = 0) :
    Issuer.verify O ⟨sp, ⟨pk, ⟨x0, xn⟩⟩⟩ p = Issuer.verify O ⟨sp, ⟨pk, ⟨x0', xn⟩⟩⟩ p := by
  simp only [Issuer.verify, hP, Scalar.smul_def, smul_zero]

example : (⟨0, 0, [], [5], ⟨1, ⟨1, 0, 1⟩⟩⟩ : CredentialPresentation F).rerandomizedNonce = 0 := rfl

/-! ## C86 tagging -/

/-- C86: for every issuer parameter `X`, tag with a non-identity nonce and attribute, there is exactly one
pair of keys that fits. So every credential that a user ever holds is a valid one for exactly one pair of
keys, whether or not they are the issuer's. -/
theorem C86_class {h : G} (hh : h ≠ 0) (X : G) (tag : Tag G) (hn : tag.nonce ≠ 0) (m : Scalar) :
    ∃! k : F × F, X = k.2 • h ∧
      Spec.MacValid ⟨Scalar.ofF k.1, [Scalar.ofF k.2]⟩ tag [m] := by
  obtain ⟨P, Q⟩ := tag
  dsimp only at hn
  obtain ⟨x1, rfl⟩ := exists_smul_of_ne_zero hh X
  obtain ⟨y, rfl⟩ := exists_smul_of_ne_zero hn Q
  refine ⟨(y - x1 * m.val, x1), ⟨rfl, ?_⟩, ?_⟩
  · simp only [Spec.MacValid, Spec.macFactor, List.map_cons, List.map_nil, Scalar.val_ofF]
    congr 1
    ring
  · rintro ⟨k0, k1⟩ ⟨e1, e2⟩
    dsimp only at e1 e2
    have f1 := (smul_right_inj' hh).1 e1
    simp only [Spec.MacValid, Spec.macFactor, List.map_cons, List.map_nil, Scalar.val_ofF] at e2
    have f2 := (smul_right_inj' hn).1 e2
    rw [f2, f1]
    congr 1
    ring

example : ∃ (h : F) (tag : Tag F), h ≠ 0 ∧ tag.nonce ≠ 0 := ⟨2, ⟨3, 6⟩, by decide +kernel, by decide +kernel⟩

/-- Somebody who can present under some keys, not necessarily the same as others. -/
abbrev Spec.AnyHolder (sp : SystemParameters G) : Type := Σ k : Scalar × Scalar, Spec.Holder sp k.1 k.2

/-- Request `j` is answered by an honest presentation of `who j`. -/
noncomputable def Spec.presents (O : Oracle) {sp : SystemParameters G} {J : Type}
    (who : J → Spec.AnyHolder sp) : Spec.Server J fun _ => SignalCredentialPresentation G :=
  fun j => Spec.honestShow O sp (who j).1.1 (who j).1.2 (who j).2

/-- The statement that an issuer with keys `x0`, `x1` checks. -/
def Spec.statementFor (sp : SystemParameters G) (x0 x1 : Scalar) (p : CredentialPresentation G) :
    ValidCredential.Publics G :=
  let C := p.attributesBlinded.headD 0
  ⟨sp.g, sp.h, x1.val • sp.h, p.rerandomizedNonce,
    x0.val • p.rerandomizedNonce + x1.val • C - p.rerandomizedMacCommitment, C⟩

/-- An issuer that sees one presentation and checks whether it verifies with the keys `x0`, `x1`. -/
def Spec.recognise (sp : SystemParameters G) (x0 x1 : Scalar) :
    Spec.Observer Unit fun _ => SignalCredentialPresentation G :=
  .request () fun p =>
    .ask (Spec.Query.validCredential "AEONFLUX SHOW" (Spec.statementFor sp x0 x1 p.presentation)
      (ValidCredential.recommit (Spec.statementFor sp x0 x1 p.presentation) p.presentation.proof)).ops
      fun a => .done (decide (Scalar.fromWide a.1 = p.presentation.proof.challenge))

namespace Tagging

theorem ell_pos : (0 : ℚ) < ell := by exact_mod_cast (Nat.Prime.pos Fact.out : 0 < ell)

/-- A particular challenge is unlikely. -/
theorem mean_challenge (c : Scalar) :
    (Spec.mean fun a : Spec.Answer => if Scalar.fromWide a.1 = c then (1 : ℚ) else 0) ≤ 2 / ell := by
  classical
  have h1 : (Spec.mean fun a : Spec.Answer => if Scalar.fromWide a.1 = c then (1 : ℚ) else 0) ≤
      Spec.prob (fun a : Spec.Answer => (leVal a.1 : F) = c.val) := by
    rw [← Sim.mean_indicator]
    refine Sim.mean_mono fun a => ?_
    split
    · rename_i h
      rw [if_pos]
      rw [← h, Scalar.fromWide, Scalar.val_ofF]
    · split <;> simp
  refine (h1.trans (Knowledge.collision _)).trans ?_
  rw [div_le_div_iff₀ (by positivity) ell_pos, one_mul]
  exact_mod_cast (by decide +kernel : ell ≤ 2 * 2 ^ 252)

theorem mean_prod {α β : Type} [Fintype α] [Fintype β] (f : α × β → ℚ) :
    Spec.mean f = Spec.mean fun a => Spec.mean fun b => f (a, b) := by
  unfold Spec.mean
  rw [Fintype.sum_prod_type, Fintype.card_prod, ← Finset.sum_div, div_div, Nat.cast_mul, mul_comm]

theorem mean_middle {α β γ : Type} [Fintype α] [Fintype β] [Fintype γ] [Nonempty α] [Nonempty γ]
    (f : β → ℚ) : (Spec.mean fun d : α × β × γ => f d.2.1) = Spec.mean f := by
  rw [mean_prod]
  refine (Sim.mean_congr (g := fun _ => Spec.mean f) fun _ => (mean_prod _).trans ?_).trans
    (Sim.mean_const (α := α) _)
  exact Sim.mean_congr fun d => Sim.mean_const (α := γ) (f d)

/-- The rerandomisation is rarely zero. -/
theorem mean_zero : (Spec.mean fun d : F × F × F => if d.2.1 = 0 then (1 : ℚ) else 0) = 1 / ell := by
  rw [mean_middle (fun x : F => if x = 0 then (1 : ℚ) else 0)]
  unfold Spec.mean
  rw [Finset.sum_ite_eq' Finset.univ (0 : F) (fun _ => (1 : ℚ)), if_pos (Finset.mem_univ _), ZMod.card]

end Tagging

namespace Tagging

/-- The statement that a presentation is made for, with blinding values `d`. -/
def publicsOf {sp : SystemParameters G} {x0 x1 : Scalar} (x : Spec.Holder sp x0 x1) (d : F × F × F) :
    ValidCredential.Publics G :=
  ⟨sp.g, sp.h, x1.val • sp.h, d.2.1 • x.credential.mac.nonce, d.1 • (x1.val • sp.h) - d.2.2 • sp.h,
    x.m.val • (d.2.1 • x.credential.mac.nonce) + d.1 • sp.h⟩

/-- Its presentation, with proof `π`. -/
def presentationOf {sp : SystemParameters G} {x0 x1 : Scalar} (x : Spec.Holder sp x0 x1) (d : F × F × F)
    (π : ValidCredential.Proof) : CredentialPresentation G :=
  ⟨d.2.1 • x.credential.mac.mac + d.2.2 • sp.h, d.2.1 • x.credential.mac.nonce, [],
    [x.m.val • (d.2.1 • x.credential.mac.nonce) + d.1 • sp.h], π⟩

/-- The query of the check for `x0`, `x1`. -/
def check (sp : SystemParameters G) (x0 x1 : Scalar) (p : CredentialPresentation G) : Transcript :=
  (Spec.Query.validCredential "AEONFLUX SHOW" (Spec.statementFor sp x0 x1 p)
    (ValidCredential.recommit (Spec.statementFor sp x0 x1 p) p.proof)).ops

/-- The query that the prover makes for its proof. -/
def asks {sp : SystemParameters G} {x0 x1 : Scalar} (x : Spec.Holder sp x0 x1) (d ρ : F × F × F) :
    Spec.Query G :=
  .validCredential "AEONFLUX SHOW" (publicsOf x d)
    (ValidCredential.commitmentsOf (publicsOf x d) (ValidCredential.randOf ρ))

def proofOf {sp : SystemParameters G} {x0 x1 : Scalar} (x : Spec.Holder sp x0 x1) (d ρ : F × F × F)
    (a : Spec.Answer) : ValidCredential.Proof :=
  ⟨Scalar.fromWide a.1, ValidCredential.respond (Scalar.fromWide a.1)
    ⟨x.m, Scalar.ofF d.1, -Scalar.ofF d.2.2⟩ (ValidCredential.randOf ρ)⟩

/-- The game of `Spec.recognise`. -/
theorem recognise_yes (O : Oracle) {sp : SystemParameters G} (x0 x1 : Scalar) {x0' x1' : Scalar}
    (x : Spec.Holder sp x0' x1') :
    (Spec.recognise sp x0 x1).yes (Spec.presents O fun _ => ⟨(x0', x1'), x⟩) [] =
      Spec.mean fun d : F × F × F => Spec.mean fun ρ : F × F × F => Spec.mean fun a : Spec.Answer =>
      Spec.mean fun ρ' : F × F × F => Spec.mean fun a' : Spec.Answer => Spec.mean fun b : Spec.Answer =>
        let p := presentationOf x d (proofOf x d ρ a)
        let t' := (Spec.Query.committedValuesEqual "SIGNAL GROUP MEMBERSHIP"
          ⟨sp.g, sp.h, d.2.1 • x.credential.mac.nonce,
            x.m.val • (d.2.1 • x.credential.mac.nonce) + d.1 • sp.h, x.ros.commitment⟩
          (CommittedValuesEqual.commitmentsOf ⟨sp.g, sp.h, d.2.1 • x.credential.mac.nonce,
            x.m.val • (d.2.1 • x.credential.mac.nonce) + d.1 • sp.h, x.ros.commitment⟩
            (CommittedValuesEqual.randOf ρ'))).ops
        let l : Spec.HashLog := [((asks x d ρ).ops, a), (t', a')]
        if Scalar.fromWide ((l.lookup (check sp x0 x1 p)).getD b).1 = Scalar.fromWide a.1
          then (1 : ℚ) else 0 := by
  have e1 : ∀ (t : Transcript) (p : ValidCredential.Publics G) c,
      ValidCredential.commitCommitments (ValidCredential.commitPublics t p) c =
        ValidCredential.verifyTranscript t p c := by
    intro t p c
    simp only [ValidCredential.commitCommitments, ValidCredential.commitPublics,
      ValidCredential.verifyTranscript, List.append_assoc, List.cons_append, List.nil_append]
  have e2 : ∀ (t : Transcript) (p : CommittedValuesEqual.Publics G) c,
      CommittedValuesEqual.commitCommitments (CommittedValuesEqual.commitPublics t p) c =
        CommittedValuesEqual.verifyTranscript t p c := by
    intro t p c
    simp only [CommittedValuesEqual.commitCommitments, CommittedValuesEqual.commitPublics,
      CommittedValuesEqual.verifyTranscript, List.append_assoc, List.cons_append, List.nil_append]
  rw [Spec.recognise, Spec.Observer.yes]
  change Spec.honestShow O sp x0' x1' x [] _ = _
  rw [Sim.honestShow_steps]
  refine Sim.mean_congr fun d => ?_
  rw [ValidCredential.honest_step]
  refine Sim.mean_congr fun ρ => Sim.mean_congr fun a => ?_
  change Spec.CommittedValuesEqual.honest O _ _ _ _ _ = _
  rw [CommittedValuesEqual.honest_step]
  refine Sim.mean_congr fun ρ' => Sim.mean_congr fun a' => Sim.mean_congr fun b => ?_
  beta_reduce
  rw [Spec.Observer.yes]
  simp only [decide_eq_true_eq, List.lookup_nil, Option.getD_none, Spec.HashLog.asked, List.nil_append,
    List.cons_append, ValidCredential.zkQuery, CommittedValuesEqual.zkQuery, e1, e2]
  rfl

omit [Ristretto G] in
/-- The holder's own statement is what the issuer with the holder's keys checks. -/
theorem statement_own {sp : SystemParameters G} {x0 x1 : Scalar} (x : Spec.Holder sp x0 x1) (d : F × F × F)
    (π : ValidCredential.Proof) : Spec.statementFor sp x0 x1 (presentationOf x d π) = publicsOf x d := by
  obtain ⟨⟨⟨P, Q⟩, as⟩, m, ros, hv, hn, hr⟩ := x
  simp only [Spec.MacValid, Spec.macFactor, List.map_cons, List.map_nil] at hv
  subst hv
  simp only [Spec.statementFor, presentationOf, publicsOf, List.headD_cons]
  congr 1
  module

omit [Ristretto G] in
/-- Others check a different statement. -/
theorem statement_other {sp : SystemParameters G} (hh : sp.h ≠ 0) {x0 x1 x0' x1' : Scalar}
    (hk : x0'.val ≠ x0.val ∨ x1'.val ≠ x1.val) (x : Spec.Holder sp x0' x1') {d : F × F × F}
    (hd : d.2.1 ≠ 0) (π : ValidCredential.Proof) :
    Spec.statementFor sp x0 x1 (presentationOf x d π) ≠ publicsOf x d := by
  rw [← statement_own x d π]
  intro h
  have h1 : x1.val = x1'.val := (smul_right_inj' hh).1 (congrArg ValidCredential.Publics.X0 h)
  have h2 := congrArg ValidCredential.Publics.V h
  simp only [Spec.statementFor, h1] at h2
  have h3 := add_right_cancel (sub_left_inj.1 h2)
  have hP : (presentationOf x d π).rerandomizedNonce ≠ 0 := smul_ne_zero hd x.nonce
  have h4 := (smul_right_inj' hP).1 h3
  exact hk.elim (fun h => h h4.symm) fun h => h h1.symm

theorem check_own {sp : SystemParameters G} {x0 x1 : Scalar} (x : Spec.Holder sp x0 x1) (d ρ : F × F × F)
    (a : Spec.Answer) : check sp x0 x1 (presentationOf x d (proofOf x d ρ a)) = (asks x d ρ).ops := by
  unfold check asks
  rw [statement_own]
  have := ValidCredential.recommit_respond (p := publicsOf x d)
    (s := ⟨x.m, Scalar.ofF d.1, -Scalar.ofF d.2.2⟩) (by
      simp only [Spec.ValidCredential, publicsOf, Scalar.val_neg, Scalar.val_ofF]
      exact ⟨trivial, by module⟩) (ValidCredential.randOf ρ) (Scalar.fromWide a.1)
  rw [← this]
  rfl

end Tagging

open Tagging in
/-- C86: the issuer recognises every presentation of a credential that was issued under the keys `x0`,
`x1`. -/
theorem C86_recognised (O : Oracle) {sp : SystemParameters G} {x0 x1 : Scalar} (x : Spec.Holder sp x0 x1) :
    (Spec.recognise sp x0 x1).yes (Spec.presents O fun _ => ⟨(x0, x1), x⟩) [] = 1 := by
  rw [recognise_yes]
  refine (Sim.mean_congr fun d => (Sim.mean_congr fun ρ => (Sim.mean_congr fun a =>
    (Sim.mean_congr fun ρ' => (Sim.mean_congr fun a' => (Sim.mean_congr fun b => ?_).trans
      (Sim.mean_const 1)).trans (Sim.mean_const 1)).trans (Sim.mean_const 1)).trans
        (Sim.mean_const 1)).trans (Sim.mean_const 1)).trans (Sim.mean_const 1)
  dsimp only
  rw [check_own, List.lookup_cons_self, Option.getD_some, if_pos rfl]

open Tagging in
/-- C86: and it takes no presentation of a credential that was issued under other keys for one of these,
except with probability `3/ℓ`. -/
theorem C86_not_confused (O : Oracle) {sp : SystemParameters G} (hh : sp.h ≠ 0) {x0 x1 x0' x1' : Scalar}
    (hk : x0'.val ≠ x0.val ∨ x1'.val ≠ x1.val) (x : Spec.Holder sp x0' x1') :
    (Spec.recognise sp x0 x1).yes (Spec.presents O fun _ => ⟨(x0', x1'), x⟩) [] ≤ 3 / ell := by
  rw [recognise_yes]
  have key : ∀ d : F × F × F, (Spec.mean fun ρ : F × F × F => Spec.mean fun a : Spec.Answer =>
      Spec.mean fun ρ' : F × F × F => Spec.mean fun a' : Spec.Answer => Spec.mean fun b : Spec.Answer =>
        let p := presentationOf x d (proofOf x d ρ a)
        let t' := (Spec.Query.committedValuesEqual "SIGNAL GROUP MEMBERSHIP"
          ⟨sp.g, sp.h, d.2.1 • x.credential.mac.nonce,
            x.m.val • (d.2.1 • x.credential.mac.nonce) + d.1 • sp.h, x.ros.commitment⟩
          (CommittedValuesEqual.commitmentsOf ⟨sp.g, sp.h, d.2.1 • x.credential.mac.nonce,
            x.m.val • (d.2.1 • x.credential.mac.nonce) + d.1 • sp.h, x.ros.commitment⟩
            (CommittedValuesEqual.randOf ρ'))).ops
        let l : Spec.HashLog := [((asks x d ρ).ops, a), (t', a')]
        if Scalar.fromWide ((l.lookup (check sp x0 x1 p)).getD b).1 = Scalar.fromWide a.1
          then (1 : ℚ) else 0) ≤ (if d.2.1 = 0 then (1 : ℚ) else 0) + 2 / ell := by
    intro d
    have h2 : (0 : ℚ) ≤ 2 / ell := by have := ell_pos; positivity
    refine (Sim.mean_mono fun ρ => (Sim.mean_mono fun a => (Sim.mean_mono fun ρ' =>
      (Sim.mean_mono fun a' => ?_).trans (Sim.mean_const _).le).trans (Sim.mean_const _).le).trans
        (Sim.mean_const _).le).trans (Sim.mean_const _).le
    by_cases hd : d.2.1 = 0
    · rw [if_pos hd]
      refine (Sim.mean_mono (g := fun _ => (1 : ℚ)) fun b => ?_).trans ((Sim.mean_const 1).le.trans (by linarith))
      dsimp only
      split <;> norm_num
    · rw [if_neg hd, zero_add]
      refine le_trans (le_of_eq (Sim.mean_congr fun b => ?_)) (mean_challenge (Scalar.fromWide a.1))
      dsimp only
      rw [List.lookup_cons, List.lookup_cons]
      have n1 : (check sp x0 x1 (presentationOf x d (proofOf x d ρ a)) == (asks x d ρ).ops) = false := by
        rw [beq_eq_false_iff_ne]
        intro h
        have := C32_injective h
        simp only [asks, Spec.Query.validCredential.injEq] at this
        exact statement_other hh hk x hd _ this.2.1
      rw [n1]
      dsimp only
      split
      · rename_i h
        have := C32_injective (eq_of_beq h)
        simp at this
      · rfl
  refine (Sim.mean_mono key).trans ?_
  rw [Sim.mean_add, mean_zero, Sim.mean_const, ← add_div]
  norm_num

/-- Holders of credentials under different keys, with the same number and roster entry. -/
example : ∃ (x0 x1 x0' x1' : Scalar) (x : Spec.Holder (⟨1, 2⟩ : SystemParameters F) x0 x1)
    (x' : Spec.Holder (⟨1, 2⟩ : SystemParameters F) x0' x1'),
    (x0'.val ≠ x0.val ∨ x1'.val ≠ x1.val) ∧ x.m = x'.m ∧ x.ros = x'.ros :=
  ⟨⟨3, by decide⟩, ⟨5, by decide⟩, ⟨4, by decide⟩, ⟨5, by decide⟩,
    ⟨⟨⟨2, 76⟩, []⟩, ⟨7, by decide⟩, ⟨16, ⟨2, by decide⟩⟩, by
      simp only [Spec.MacValid, Spec.macFactor, List.map]; decide +kernel, by decide +kernel,
      by decide +kernel⟩,
    ⟨⟨⟨2, 78⟩, []⟩, ⟨7, by decide⟩, ⟨16, ⟨2, by decide⟩⟩, by
      simp only [Spec.MacValid, Spec.macFactor, List.map]; decide +kernel, by decide +kernel,
      by decide +kernel⟩, .inl (by decide +kernel), rfl, rfl⟩

/-! ### What else is there to see -/

/-- Simulated presentations, from the keys that fit and the roster commitment. -/
noncomputable def Spec.simulates {sp : SystemParameters G} {J : Type}
    (who : J → Spec.AnyHolder sp) : Spec.Server J fun _ => SignalCredentialPresentation G :=
  fun j => Spec.simulateShow sp (who j).1.1 (who j).1.2 (who j).2.ros.commitment

theorem Tagging.presents_close (O : Oracle) {sp : SystemParameters G} (hh : sp.h ≠ 0) {J : Type}
    (who : J → Spec.AnyHolder sp) : Sim.Close 2 (Spec.presents O who) (Spec.simulates who) where
  range j := (Sim.show_close O sp hh _ _).range (who j).2
  range' j := (Sim.show_close O sp hh _ _).range' (who j).2
  close j := (Sim.show_close O sp hh _ _).close (who j).2

/-- C86, the part that holds: nothing but the pair of keys that fits the credential, and the roster
commitment, can be seen, whoever issued the credentials and how. If two populations have the same fitting
keys and roster commitments at each place, then no observer, with at most `q` hash queries and `n`
presentations of places of its choice, can tell which it is, except with advantage `4n(q+2n)/ℓ`. Missing
from the full statement: the fitting keys are visible (`C86_false`). -/
theorem C86_leak_partial (O : Oracle) {sp : SystemParameters G} (hh : sp.h ≠ 0) {J : Type}
    (who who' : J → Spec.AnyHolder sp) (hk : ∀ j, (who j).1 = (who' j).1)
    (hD : ∀ j, (who j).2.ros.commitment = (who' j).2.ros.commitment)
    (A : Spec.Observer J fun _ => SignalCredentialPresentation G) (q n : ℕ) (hA : A.Within q n) :
    |A.yes (Spec.presents O who) [] - A.yes (Spec.presents O who') []| ≤ 4 * n * (q + 2 * n) / ell := by
  have h1 := Sim.advantage (Tagging.presents_close O hh who) A [] q n hA
  have h2 := Sim.advantage (Tagging.presents_close O hh who') A [] q n hA
  have e : Spec.simulates who = Spec.simulates who' := by
    funext j
    unfold Spec.simulates
    rw [hD, hk]
  rw [e] at h1
  rw [abs_sub_comm] at h2
  refine (abs_sub_le _ (A.yes (Spec.simulates who') []) _).trans ((add_le_add h1 h2).trans (le_of_eq ?_))
  push_cast
  rw [List.length_nil]
  push_cast
  ring

/-- Two people with different phone numbers and the same fitting keys and roster commitment. -/
example : ∃ (who who' : Unit → Spec.AnyHolder (⟨1, 2⟩ : SystemParameters F)),
    (∀ j, (who j).1 = (who' j).1) ∧ (∀ j, (who j).2.ros.commitment = (who' j).2.ros.commitment) ∧
    ∀ j, (who j).2.m ≠ (who' j).2.m :=
  ⟨fun _ => ⟨(⟨3, by decide⟩, ⟨5, by decide⟩),
    ⟨⟨⟨2, 76⟩, []⟩, ⟨7, by decide⟩, ⟨16, ⟨2, by decide⟩⟩, by
      simp only [Spec.MacValid, Spec.macFactor, List.map]; decide +kernel, by decide +kernel,
      by decide +kernel⟩⟩,
    fun _ => ⟨(⟨3, by decide⟩, ⟨5, by decide⟩),
    ⟨⟨⟨2, 56⟩, []⟩, ⟨5, by decide⟩, ⟨16, ⟨6, by decide⟩⟩, by
      simp only [Spec.MacValid, Spec.macFactor, List.map]; decide +kernel, by decide +kernel,
      by decide +kernel⟩⟩, fun _ => rfl, fun _ => rfl,
    fun _ h => absurd (congrArg Scalar.n h) (by decide : (7 : ℕ) ≠ 5)⟩

/-- C86: an issuer can link presentations to issuances. It issues to two users, or twice to one user, with
the same parameters, but with two different keys `x0`, `x0'`. The users accept both credentials. An observer
that makes one hash query then always says yes to a presentation of one, and says yes to a presentation of
the other with probability at most `3/ℓ`. The phone number and roster entry may even be the same. -/
theorem C86_false {R : Type} [RngCore R] (O : Oracle) {sp : SystemParameters G} (hh : sp.h ≠ 0)
    {x0 x0' : Scalar} (x1 m : Scalar) (hx : x0.val ≠ x0'.val) (rng : R) (entropy : Bytes)
    (hb : (issueDraws O rng).1.val ≠ 0) (u : User G) (hu : u.systemParameters = sp)
    (hu' : u.issuerParameters = ⟨[x1.val • sp.h]⟩) (ros : RosterEntryCommitment G)
    (hr : ros.commitment = m.val • sp.h + ros.opening.val • sp.g) :
    ∃ c c', (Issuer.issue O ⟨sp, ⟨⟨[x1.val • sp.h]⟩, ⟨x0, [x1]⟩⟩⟩ ⟨[m]⟩ rng entropy).1 = .ok c ∧
      (Issuer.issue O ⟨sp, ⟨⟨[x1.val • sp.h]⟩, ⟨x0', [x1]⟩⟩⟩ ⟨[m]⟩ rng entropy).1 = .ok c' ∧
      (u.obtainFinish O (some c)).1 = .ok () ∧ (u.obtainFinish O (some c')).1 = .ok () ∧
      ∃ (x : Spec.Holder sp x0 x1) (x' : Spec.Holder sp x0' x1),
        x.credential = c.credential ∧ x.m = m ∧ x.ros = ros ∧
        x'.credential = c'.credential ∧ x'.m = m ∧ x'.ros = ros ∧
        ∃ A : Spec.Observer Unit fun _ => SignalCredentialPresentation G, A.Within 1 1 ∧
          A.yes (Spec.presents O fun _ => ⟨(x0, x1), x⟩) [] = 1 ∧
          A.yes (Spec.presents O fun _ => ⟨(x0', x1), x'⟩) [] ≤ 3 / ell := by
  obtain ⟨c, c', h1, h2, h3, h4, h5, h6, h7⟩ := C36_tagging O sp x1 m hx rng entropy hb u hu hu'
  obtain ⟨b', b, g2, g1, -, -, -, -, g7⟩ := C36_tagging O sp x1 m hx.symm rng entropy hb u hu hu'
  rw [h1] at g1
  rw [h2] at g2
  obtain rfl := Res.ok.inj g1
  obtain rfl := Res.ok.inj g2
  have zero : ∀ {y y' : Scalar} {t : Tag G}, Spec.MacValid ⟨y, [x1]⟩ t [m] →
      ¬ Spec.MacValid ⟨y', [x1]⟩ t [m] → t.nonce ≠ 0 := by
    intro y y' t k1 k2 k3
    refine k2 ?_
    simp only [Spec.MacValid, k3, smul_zero] at k1 ⊢
    exact k1
  exact ⟨c, c', h1, h2, h3, h4, ⟨c.credential, m, ros, h5, zero h5 g7, hr⟩,
    ⟨c'.credential, m, ros, h6, zero h6 h7, hr⟩, rfl, rfl, rfl, rfl, rfl, rfl, Spec.recognise sp x0 x1,
    ⟨0, rfl, fun _ => ⟨0, rfl, fun _ => trivial⟩⟩, C86_recognised O _,
    C86_not_confused O hh (.inl hx.symm) _⟩

example : (⟨3, by decide⟩ : Scalar).val ≠ (⟨4, by decide⟩ : Scalar).val ∧
    (issueDraws toyOracle (⟨0⟩ : ToyRng)).1.val ≠ 0 ∧
    ∃ (ros : RosterEntryCommitment F) (m : Scalar) (sp : SystemParameters F), sp.h ≠ 0 ∧
      ros.commitment = m.val • sp.h + ros.opening.val • sp.g :=
  ⟨by decide +kernel, by decide +kernel, ⟨16, ⟨2, by decide⟩⟩, ⟨7, by decide⟩, ⟨1, 2⟩, by decide +kernel,
    by decide +kernel⟩

end Verif
