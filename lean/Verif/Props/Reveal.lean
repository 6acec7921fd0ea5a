import Verif.Props.Show

/-!
# Revealed attributes in presentations (C76)
-/

set_option maxRecDepth 100000

namespace Verif

open Amacs

variable {G : Type} [AddCommGroup G] [Module F G] [Ristretto G]

/-- `Σ xₖ·Pₖ` over the positions both lists have. -/
def Spec.dot : List F → List G → G
  | x :: xs, P :: Ps => x • P + Spec.dot xs Ps
  | _, _ => 0

/-- The public values that the proof in a presentation must be for: position `k` of the revealed and of
the blinded attributes both belong to the key element `xₖ`. -/
def Spec.presentationPublics (i : Issuer G) (p : CredentialPresentation G) (X C : G) :
    ValidCredential.Publics G :=
  let x0 := i.keypair.secretKey.x0.val
  let xn := i.keypair.secretKey.xn.map Scalar.val
  let P := p.rerandomizedNonce
  { B := i.systemParameters.g, A := i.systemParameters.h, X0 := X, P
    V := x0 • P + Spec.dot xn (p.attributesRevealed.map fun a => a.val • P)
      + Spec.dot xn p.attributesBlinded - p.rerandomizedMacCommitment
    Cm0 := C }

omit [Ristretto G] in
private theorem revealed_eq (xn : List Scalar) (P : G) : ∀ (as : List Scalar) (k : ℕ) (V : G),
    Issuer.verifyRevealed xn P k as V =
      if as = [] ∨ k + as.length ≤ xn.length then
        .ok (V + Spec.dot ((xn.drop k).map Scalar.val) (as.map fun a => a.val • P))
      else .panic
  | [], k, V => by
    rw [Issuer.verifyRevealed, if_pos (.inl rfl)]
    cases (xn.drop k).map Scalar.val <;> simp [Spec.dot]
  | a :: as, k, V => by
    rw [Issuer.verifyRevealed]
    rcases index_cases (ε := CredentialError) xn k with ⟨x, hx, he⟩ | ⟨hl, he⟩
    · rw [he, Res.ok_bind, revealed_eq xn P as (k + 1)]
      obtain ⟨hk, hxk⟩ := List.getElem?_eq_some_iff.1 hx
      have hd : xn.drop k = x :: xn.drop (k + 1) := by rw [List.drop_eq_getElem_cons hk, hxk]
      rw [hd]
      simp only [List.map_cons, Spec.dot, List.length_cons, reduceCtorEq, false_or]
      have e : V + (x * a) • P + Spec.dot ((xn.drop (k + 1)).map Scalar.val) (as.map fun a => a.val • P) =
          V + (x.val • a.val • P + Spec.dot ((xn.drop (k + 1)).map Scalar.val) (as.map fun a => a.val • P)) := by
        rw [Scalar.smul_def, Scalar.val_mul, mul_smul, add_assoc]
      rw [e]
      refine if_congr ?_ rfl rfl
      constructor
      · rintro (rfl | h)
        · simpa using hk
        · omega
      · intro h
        exact .inr (by omega)
    · rw [he, if_neg (by simp; omega)]
      rfl

omit [Ristretto G] in
private theorem blinded_eq (xn : List Scalar) : ∀ (Cs : List G) (k : ℕ) (V : G),
    Issuer.verifyBlinded xn k Cs V =
      if Cs = [] ∨ k + Cs.length ≤ xn.length then
        .ok (V + Spec.dot ((xn.drop k).map Scalar.val) Cs)
      else .panic
  | [], k, V => by
    rw [Issuer.verifyBlinded, if_pos (.inl rfl)]
    cases (xn.drop k).map Scalar.val <;> simp [Spec.dot]
  | C :: Cs, k, V => by
    rw [Issuer.verifyBlinded]
    rcases index_cases (ε := CredentialError) xn k with ⟨x, hx, he⟩ | ⟨hl, he⟩
    · rw [he, Res.ok_bind, blinded_eq xn Cs (k + 1)]
      obtain ⟨hk, hxk⟩ := List.getElem?_eq_some_iff.1 hx
      have hd : xn.drop k = x :: xn.drop (k + 1) := by rw [List.drop_eq_getElem_cons hk, hxk]
      rw [hd]
      simp only [List.map_cons, Spec.dot, List.length_cons, reduceCtorEq, false_or]
      have e : V + x • C + Spec.dot ((xn.drop (k + 1)).map Scalar.val) Cs =
          V + (x.val • C + Spec.dot ((xn.drop (k + 1)).map Scalar.val) Cs) := by
        rw [Scalar.smul_def, add_assoc]
      rw [e]
      refine if_congr ?_ rfl rfl
      constructor
      · rintro (rfl | h)
        · simpa using hk
        · omega
      · intro h
        exact .inr (by omega)
    · rw [he, if_neg (by simp; omega)]
      rfl

/-- **C76.** `verify` on every presentation and issuer, also ones that no decoder makes: it panics exactly
if there are more revealed or more blinded attributes than key elements, no blinded attribute, or no
public key element; otherwise it decides by the proof, for the stated public values. -/
theorem C76_verify (O : Oracle) (i : Issuer G) (p : CredentialPresentation G) :
    let n := i.keypair.secretKey.xn.length
    (i.verify O p = .panic ↔ n < p.attributesRevealed.length ∨ n < p.attributesBlinded.length ∨
      p.attributesBlinded = [] ∨ i.keypair.publicKey.Xn = []) ∧
    (∀ {X C : G} {Xs Cs : List G}, i.keypair.publicKey.Xn = X :: Xs → p.attributesBlinded = C :: Cs →
      p.attributesRevealed.length ≤ n → p.attributesBlinded.length ≤ n →
      i.verify O p =
        if ValidCredential.verify O [.init "AEONFLUX SHOW"] p.proof
          (Spec.presentationPublics i p X C) = true then .ok ⟨p⟩ else .err .macVerification) := by
  obtain ⟨sp, ⟨⟨Xn⟩, ⟨x0, xn⟩⟩⟩ := i
  obtain ⟨CQ, P, as, Cs, proof⟩ := p
  dsimp only
  have key : ∀ {X C : G} {Xs Cs' : List G}, Xn = X :: Xs → Cs = C :: Cs' → as.length ≤ xn.length →
      Cs.length ≤ xn.length →
      Issuer.verify O ⟨sp, ⟨⟨Xn⟩, ⟨x0, xn⟩⟩⟩ ⟨CQ, P, as, Cs, proof⟩ =
        if ValidCredential.verify O [.init "AEONFLUX SHOW"] proof
          (Spec.presentationPublics ⟨sp, ⟨⟨Xn⟩, ⟨x0, xn⟩⟩⟩ ⟨CQ, P, as, Cs, proof⟩ X C) = true
        then .ok ⟨⟨CQ, P, as, Cs, proof⟩⟩ else .err .macVerification := by
    rintro X C Xs Cs' rfl rfl ha hC
    rw [Issuer.verify]
    dsimp only
    rw [revealed_eq, if_pos (.inr (by omega)), Res.ok_bind, blinded_eq, if_pos (.inr (by omega)),
      Res.ok_bind]
    rfl
  refine ⟨⟨fun h => ?_, fun h => ?_⟩, key⟩
  · by_contra hn
    push Not at hn
    obtain ⟨h1, h2, h3, h4⟩ := hn
    obtain ⟨C, Cs', rfl⟩ := List.exists_cons_of_ne_nil h3
    obtain ⟨X, Xs, rfl⟩ := List.exists_cons_of_ne_nil h4
    rw [key rfl rfl h1 h2] at h
    split at h <;> cases h
  · rw [Issuer.verify]
    dsimp only
    rw [revealed_eq]
    by_cases ha : as = [] ∨ 0 + as.length ≤ xn.length
    · rw [if_pos ha, Res.ok_bind, blinded_eq]
      by_cases hC : Cs = [] ∨ 0 + Cs.length ≤ xn.length
      · rw [if_pos hC, Res.ok_bind]
        cases Xn with
        | nil => rfl
        | cons X Xs =>
          cases Cs with
          | nil => rfl
          | cons C Cs =>
            exfalso
            rcases h with h | h | h | h
            · rcases ha with rfl | ha
              · simp at h
              · omega
            · rcases hC with hC | hC
              · cases hC
              · omega
            · cases h
            · cases h
      · rw [if_neg hC]
        rfl
    · rw [if_neg ha]
      rfl

/-- **C76.** Full claim: a revealed attribute in an accepted presentation is the attribute of the
credential. It is false: with a credential on `m`, a user can reveal any `a`. They present as if the
attribute was `m - a` and add `a` as revealed; both count for the same key element. -/
theorem C76_reveal_false {R : Type} [RngCore R] (O : Oracle) {i : Issuer G}
    (hi : Spec.KeypairMatches i) {u : User G} (hsp : u.systemParameters = i.systemParameters)
    (hip : u.issuerParameters = i.getIssuerParameters) {tag : Tag G} {m : Scalar}
    (hm : Spec.MacValid i.keypair.secretKey tag [m]) (a z0 : Scalar) (rng : R) (entropy : Bytes) :
    ∃ p, ({ u with credential := some ⟨tag, [m - a]⟩ }.show O [z0] rng entropy).1 = .ok p ∧
      i.verify O { p with attributesRevealed := [a] } = .ok ⟨{ p with attributesRevealed := [a] }⟩ := by
  obtain ⟨x0, x1, hi'⟩ := matches_form hi
  obtain ⟨sp, kp⟩ := i
  obtain ⟨sp', ip, k, cr⟩ := u
  dsimp only at hsp hip hi' hm
  subst hsp hip
  have hk := congrArg Issuer.keypair hi'
  dsimp only at hk
  subst hk
  simp only [Spec.MacValid, Spec.macFactor, List.map_cons, List.map_nil] at hm
  refine ⟨_, show_one O (m - a) z0 rng entropy, ?_⟩
  generalize hr : (showDraws O rng).1 = r
  generalize hz : (showDraws O rng).2 = zQ
  dsimp only [presentationData]
  rw [(C76_verify O _ _).2 rfl rfl (le_refl 1) (le_refl 1), if_pos]
  have hV : Spec.presentationPublics (⟨sp', ⟨⟨[x1.val • sp'.h]⟩, ⟨x0, [x1]⟩⟩⟩ : Issuer G)
      ⟨r • tag.mac + zQ • sp'.h, r • tag.nonce, [a], [(m - a) • r • tag.nonce + z0 • sp'.h],
        ValidCredential.create O Issuer.showTranscript entropy
          ⟨sp'.g, sp'.h, x1.val • sp'.h, r • tag.nonce, 0 + z0 • x1.val • sp'.h - zQ • sp'.h,
            (m - a) • r • tag.nonce + z0 • sp'.h⟩ ⟨m - a, z0, -zQ⟩⟩
      (x1.val • sp'.h) ((m - a) • r • tag.nonce + z0 • sp'.h) =
      ⟨sp'.g, sp'.h, x1.val • sp'.h, r • tag.nonce, 0 + z0 • x1.val • sp'.h - zQ • sp'.h,
        (m - a) • r • tag.nonce + z0 • sp'.h⟩ := by
    simp only [Spec.presentationPublics, Spec.dot, List.map_cons, List.map_nil, Scalar.smul_def,
      Scalar.val_sub, hm, ValidCredential.Publics.mk.injEq, true_and, and_true]
    module
  rw [hV]
  refine ValidCredential.C29_complete O _ _ ?_
  simp only [Spec.ValidCredential, Scalar.smul_def, Scalar.val_neg]
  exact ⟨trivial, by module⟩

example : ∃ (i : Issuer F) (tag : Tag F) (m a : Scalar), Spec.KeypairMatches i ∧
    Spec.MacValid i.keypair.secretKey tag [m] ∧ m ≠ a :=
  ⟨⟨⟨1, 2⟩, ⟨⟨[(1 : Scalar).val • 2]⟩, ⟨1, [1]⟩⟩⟩, ⟨3, 6⟩, 1, 0, ⟨1, rfl, rfl⟩, by
    simp only [Spec.MacValid, Spec.macFactor, List.map]; decide +kernel, by decide +kernel⟩

omit [Ristretto G] in
/-- **C76.** What remains, first: the sum of the revealed and the hidden value is the attribute. If the
statement proved by a presentation with one revealed attribute is true (what an accepted proof gives by
extraction, C30), the presented tag is valid on the sum. Missing: the revealed value by itself. -/
theorem C76_sum_partial {i : Issuer G} (hi : Spec.KeypairMatches i) {p : CredentialPresentation G}
    {a : Scalar} {X C : G} (hX : i.keypair.publicKey.Xn = [X]) (ha : p.attributesRevealed = [a])
    (hC : p.attributesBlinded = [C]) {w : ValidCredential.Secrets}
    (h : Spec.ValidCredential (Spec.presentationPublics i p X C) w) :
    Spec.MacValid i.keypair.secretKey
      ⟨p.rerandomizedNonce, p.rerandomizedMacCommitment + w.minus_zQ • i.systemParameters.h⟩
      [w.m0 + a] := by
  obtain ⟨x0, x1, hi'⟩ := matches_form hi
  obtain ⟨sp, kp⟩ := i
  obtain ⟨CQ, P, as, Cs, proof⟩ := p
  dsimp only at hi' hX ha hC
  have hk := congrArg Issuer.keypair hi'
  dsimp only at hk
  subst hk ha hC
  simp only [List.cons.injEq, and_true] at hX
  subst hX
  simp only [Spec.ValidCredential, Spec.presentationPublics, Spec.dot, List.map_cons, List.map_nil] at h
  obtain ⟨h1, h2⟩ := h
  simp only [Spec.MacValid, Spec.macFactor, List.map_cons, List.map_nil, Scalar.smul_def,
    Scalar.val_add]
  have e : CQ = x0.val • P + (x1.val • a.val • P + 0) + (x1.val • C + 0) -
      (w.z0.val • x1.val • sp.h + w.minus_zQ.val • sp.h) := by rw [← h2]; abel
  rw [e, h1]
  module

example : ∃ (i : Issuer F) (p : CredentialPresentation F) (w : ValidCredential.Secrets),
    Spec.KeypairMatches i ∧ i.keypair.publicKey.Xn = [2] ∧ p.attributesRevealed = [1] ∧
      p.attributesBlinded = [3] ∧ Spec.ValidCredential (Spec.presentationPublics i p 2 3) w :=
  ⟨⟨⟨1, 2⟩, ⟨⟨[(1 : Scalar).val • 2]⟩, ⟨1, [1]⟩⟩⟩, ⟨9, 3, [1], [3], ⟨0, ⟨0, 0, 0⟩⟩⟩, ⟨1, 0, 0⟩,
    ⟨1, rfl, rfl⟩, by decide +kernel, rfl, rfl, by
    simp only [Spec.ValidCredential, Spec.presentationPublics, Spec.dot, List.map]; decide +kernel⟩

/-- **C76.** What remains, second: decoded presentations reveal nothing, so the decoders keep such
presentations out. Missing: presentations that reach `verify` in another way, whose fields are public. -/
theorem C76_decoded_partial {b : Bytes} {p : CredentialPresentation G}
    (h : CredentialPresentation.fromBytes b = .ok p) :
    p.attributesRevealed = [] ∧ p.attributesBlinded.length = 1 := by
  obtain ⟨-, Cm, rest, ⟨h1, h2, -⟩, -⟩ := (C09_ok_iff b p).1 h
  exact ⟨h1, by rw [h2]; rfl⟩

example : ∃ (b : Bytes) (p : CredentialPresentation F), CredentialPresentation.fromBytes b = .ok p :=
  ⟨_, _, (C09_roundtrip (⟨9, 3, [], [3], ⟨0, ⟨0, 0, 0⟩⟩⟩ : CredentialPresentation F) 3
    ⟨rfl, rfl, by decide +kernel, by decide +kernel, by decide +kernel, by decide +kernel⟩).1⟩

end Verif
