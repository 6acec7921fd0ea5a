import Verif.Model.Wasm
import Verif.Props.FfiChain

/-!
# C57: the JavaScript interface
-/

set_option maxRecDepth 100000

namespace Verif

open Wasm Amacs

/-! ## Specification vocabulary -/

/-- The `JsValue` arguments of a call, where the values returned by other calls are to be passed. -/
def Spec.jsArgs : Call → List Js
  | .systemParametersCreate _ => []
  | .issuerCreate p _ => [p]
  | .issuerGetIssuerParameters i => [i]
  | .issuerNew p k => [p, k]
  | .issuerIssue i _ _ _ => [i]
  | .issuerVerify i p => [i, p]
  | .issuerVerifyRosterMembership i v => [i, v]
  | .userObtainFinish _ p ip i => [p, ip, i]
  | .userShow u e _ _ _ => [u, e]

/-- A value is a JavaScript string. -/
def Spec.IsString (v : Js) : Prop := ∃ s, v = .str s

/-- A value is an array of numbers from 0 to 255 (what JavaScript gets for bytes). -/
def Spec.IsByteArray (v : Js) (b : Bytes) : Prop := v = .arr (b.map fun x => .num x.toNat)

/-! ## Lemmas -/

theorem intoSerde_ok {ε α : Type} {f : Bytes → Res ε α} {j : Js} {x : α} :
    intoSerde f j = .ok x ↔ ∃ s, j = .str s ∧ f s.toUTF8.data.toList = .ok x := by
  cases j <;> simp [intoSerde, Res.mapErr_eq_ok]

theorem intoSerde_err_of_not_string {ε α : Type} (f : Bytes → Res ε α) {j : Js}
    (h : ¬ Spec.IsString j) : intoSerde f j = .err () := by
  cases j <;> first | rfl | exact absurd ⟨_, rfl⟩ h

theorem finish_returns_iff {x : Res Unit Bytes} {v : Js} (h : Wasm.finish x = .returns v) :
    v = .num 0 ∨ ∃ b, x = .ok b ∧ Spec.IsByteArray v b := by
  rcases x with b | _ | _ <;> simp only [Wasm.finish, Outcome.returns.injEq] at h
  · exact .inr ⟨b, rfl, h.symm⟩
  · exact .inl h.symm
  · cases h

/-- A computation that fails or panics whenever it is reached. -/
def Fails {α : Type} (x : Res Unit α) : Prop := ∀ a, x ≠ .ok a

theorem Fails.finish {x : Res Unit Bytes} (h : Fails x) :
    Wasm.finish x = .returns (.num 0) ∨ Wasm.finish x = .panics := by
  rcases x with b | _ | _
  · exact absurd rfl (h b)
  · exact .inl rfl
  · exact .inr rfl

theorem Fails.bind {α β : Type} {x : Res Unit α} {f : α → Res Unit β} (h : Fails x) :
    Fails (x >>= f) := by
  intro b hb
  obtain ⟨a, ha, _⟩ := Res.bind_eq_ok.1 hb
  exact h a ha

theorem Fails.bind_right {α β : Type} {x : Res Unit α} {f : α → Res Unit β} (h : ∀ a, Fails (f a)) :
    Fails (x >>= f) := by
  intro b hb
  obtain ⟨a, _, ha⟩ := Res.bind_eq_ok.1 hb
  exact h a b ha

theorem fails_intoSerde {ε α : Type} {f : Bytes → Res ε α} {j : Js} (h : ¬ Spec.IsString j) :
    Fails (intoSerde f j) := by
  intro a ha
  rw [intoSerde_err_of_not_string f h] at ha
  cases ha

section

variable {G : Type} [AddCommGroup G] [Module F G] [Ristretto G]
variable {R : Type} [SeedableRng R]

/-- **C57 (results)**: whatever a function returns is the number 0 or an array of bytes. -/
theorem C57_results (O : Oracle) (checks : Bool) (fuel : ℕ) (c : Call) (v : Js)
    (h : c.run G R O checks fuel = .returns v) : v = .num 0 ∨ ∃ b, Spec.IsByteArray v b := by
  have key : ∀ x : Res Unit Bytes, Wasm.finish x = .returns v →
      v = .num 0 ∨ ∃ b, Spec.IsByteArray v b := fun x hx =>
    (finish_returns_iff hx).imp id fun ⟨b, _, hb⟩ => ⟨b, hb⟩
  cases c with
  | systemParametersCreate s =>
    simp only [Call.run, Wasm.systemParametersCreate] at h
    split at h
    · cases h; exact .inl rfl
    · split at h
      · cases h; exact .inl rfl
      · cases h
      · split at h
        · cases h
        · cases h; exact .inr ⟨_, rfl⟩
  | _ => exact key _ h

/-- **C57 (rejections)**: a call fails if one of its `JsValue` arguments is not a string. It then
returns 0, or panics on another argument. -/
theorem C57_rejects (O : Oracle) (checks : Bool) (fuel : ℕ) (c : Call) (v : Js)
    (hv : v ∈ Spec.jsArgs c) (h : ¬ Spec.IsString v) :
    c.run G R O checks fuel = .returns (.num 0) ∨ c.run G R O checks fuel = .panics := by
  cases c with
  | systemParametersCreate s => simp [Spec.jsArgs] at hv
  | issuerCreate p s =>
    simp only [Spec.jsArgs, List.mem_singleton] at hv
    subst hv
    exact Fails.finish (.bind_right fun _ => .bind (fails_intoSerde h))
  | issuerGetIssuerParameters i =>
    simp only [Spec.jsArgs, List.mem_singleton] at hv
    subst hv
    exact Fails.finish (.bind (fails_intoSerde h))
  | issuerNew p k =>
    simp only [Spec.jsArgs, List.mem_cons, List.not_mem_nil, or_false] at hv
    rcases hv with rfl | rfl
    · exact Fails.finish (.bind (fails_intoSerde h))
    · exact Fails.finish (.bind_right fun _ => .bind (fails_intoSerde h))
  | issuerIssue i n s e =>
    simp only [Spec.jsArgs, List.mem_singleton] at hv
    subst hv
    exact Fails.finish (.bind_right fun _ => .bind (fails_intoSerde h))
  | issuerVerify i p =>
    simp only [Spec.jsArgs, List.mem_cons, List.not_mem_nil, or_false] at hv
    rcases hv with rfl | rfl
    · exact Fails.finish (.bind (fails_intoSerde h))
    · exact Fails.finish (.bind_right fun _ => .bind (fails_intoSerde h))
  | issuerVerifyRosterMembership i p =>
    simp only [Spec.jsArgs, List.mem_cons, List.not_mem_nil, or_false] at hv
    rcases hv with rfl | rfl
    · exact Fails.finish (.bind (fails_intoSerde h))
    · exact Fails.finish (.bind_right fun _ => .bind (fails_intoSerde h))
  | userObtainFinish n p ip i =>
    simp only [Spec.jsArgs, List.mem_cons, List.not_mem_nil, or_false] at hv
    rcases hv with rfl | rfl | rfl
    · exact Fails.finish (.bind (fails_intoSerde h))
    · exact Fails.finish (.bind_right fun _ => .bind (fails_intoSerde h))
    · exact Fails.finish (.bind_right fun _ => .bind_right fun _ => .bind_right fun _ =>
        .bind (fails_intoSerde h))
  | userShow u e s e1 e2 =>
    simp only [Spec.jsArgs, List.mem_cons, List.not_mem_nil, or_false] at hv
    rcases hv with rfl | rfl
    · exact Fails.finish (.bind_right fun _ => .bind (fails_intoSerde h))
    · exact Fails.finish (.bind_right fun _ => .bind_right fun _ => .bind (fails_intoSerde h))

example : (.null : Js) ∈ Spec.jsArgs (.issuerGetIssuerParameters .null) ∧ ¬ Spec.IsString .null :=
  ⟨by simp [Spec.jsArgs], fun ⟨_, h⟩ => by cases h⟩

/-- **C57 is false, for every value**: no value returned by a function, successful or not, is accepted
as an argument by a function: the second call fails. -/
theorem C57_never (O O' : Oracle) (checks checks' : Bool) (fuel fuel' : ℕ) (c c' : Call) (v : Js)
    (h : c.run G R O checks fuel = .returns v) (hv : v ∈ Spec.jsArgs c') :
    c'.run G R O' checks' fuel' = .returns (.num 0) ∨ c'.run G R O' checks' fuel' = .panics := by
  refine C57_rejects O' checks' fuel' c' v hv ?_
  rintro ⟨s, rfl⟩
  rcases C57_results O checks fuel c _ h with h | ⟨b, h⟩ <;> cases h

/-- **C57 (only strings work)**: a call that succeeds was given strings only, and so its arguments do
not come from another call. -/
theorem C57_success (O : Oracle) (checks : Bool) (fuel : ℕ) (c : Call) (v : Js)
    (h : c.run G R O checks fuel = .returns v) (h0 : v ≠ .num 0) :
    ∀ a ∈ Spec.jsArgs c, Spec.IsString a := by
  intro a ha
  by_contra hs
  rcases C57_rejects (G := G) (R := R) O checks fuel c a ha hs with h' | h' <;> rw [h] at h'
  · exact h0 (by injection h')
  · cases h'

/-! ### With strings -/

/-- The bytes of a JavaScript string. -/
def Spec.utf8 (s : String) : Bytes := s.toUTF8.data.toList

/-- A WASM call and a C call have the same arguments, where the WASM call gets the serialised values
as strings that have these bytes. -/
inductive Spec.SameArgs (P : Ffi.Platform) (m : Mem) : Wasm.Call → Ffi.Call → Prop
  | systemParametersCreate {seed s} (hs : Spec.SeedAt m s seed) :
      SameArgs P m (.systemParametersCreate seed) (.systemParametersCreate s)
  | issuerCreate {p seed a al s} (hp : Spec.Denotes P m a al (Spec.utf8 p))
      (hs : Spec.SeedAt m s seed) : SameArgs P m (.issuerCreate (.str p) seed) (.issuerCreate a al s)
  | issuerGetIssuerParameters {i a al} (hi : Spec.Denotes P m a al (Spec.utf8 i)) :
      SameArgs P m (.issuerGetIssuerParameters (.str i)) (.issuerGetIssuerParameters a al)
  | issuerNew {p k a al b bl} (hp : Spec.Denotes P m a al (Spec.utf8 p))
      (hk : Spec.Denotes P m b bl (Spec.utf8 k)) :
      SameArgs P m (.issuerNew (.str p) (.str k)) (.issuerNew a al b bl)
  | issuerIssue {i n seed e a al b bl s} (hi : Spec.Denotes P m a al (Spec.utf8 i))
      (hn : Spec.Denotes P m b bl n) (hs : Spec.SeedAt m s seed) :
      SameArgs P m (.issuerIssue (.str i) n seed e) (.issuerIssue a al b bl s e)
  | issuerVerify {i p a al b bl} (hi : Spec.Denotes P m a al (Spec.utf8 i))
      (hp : Spec.Denotes P m b bl (Spec.utf8 p)) :
      SameArgs P m (.issuerVerify (.str i) (.str p)) (.issuerVerify a al b bl)
  | issuerVerifyRosterMembership {i v a al b bl} (hi : Spec.Denotes P m a al (Spec.utf8 i))
      (hv : Spec.Denotes P m b bl (Spec.utf8 v)) :
      SameArgs P m (.issuerVerifyRosterMembership (.str i) (.str v))
        (.issuerVerifyRosterMembership a al b bl)
  | userObtainFinish {n p ip i a al b bl c cl d dl} (hn : Spec.Denotes P m a al n)
      (hp : Spec.Denotes P m b bl (Spec.utf8 p)) (hip : Spec.Denotes P m c cl (Spec.utf8 ip))
      (hi : Spec.Denotes P m d dl (Spec.utf8 i)) :
      SameArgs P m (.userObtainFinish n (.str p) (.str ip) (.str i))
        (.userObtainFinish a al b bl c cl d dl)
  | userShow {u e seed e1 e2 a al b bl s} (hu : Spec.Denotes P m a al (Spec.utf8 u))
      (he : Spec.Denotes P m b bl (Spec.utf8 e)) (hs : Spec.SeedAt m s seed) :
      SameArgs P m (.userShow (.str u) (.str e) seed e1 e2) (.userShow a al b bl s e1 e2)

theorem finish_nonempty {P : Ffi.Platform} {m before after : Mem} {x : Res Ffi.Exit Bytes}
    {buf : Ffi.Buf} (h : Ffi.finish P m x = .returns buf before after) (hl : buf.len ≠ 0) :
    ∃ b, x = .ok b ∧ Spec.At before buf.ptr b ∧ buf.len = UInt64.ofNat b.length := by
  rcases finish_returns h with ⟨_, rfl, _⟩ | ⟨b, h1, _, h2, h3, _⟩
  · exact absurd rfl hl
  · exact ⟨b, h1, h3 ▸ at_write _ _ _, h2⟩

theorem wasm_seed {seed : Bytes} {m : Mem} {p : ℕ} (h : Spec.SeedAt m p seed) :
    (Wasm.csprngFromSeed seed : Res Unit R) = .ok (SeedableRng.fromSeed seed) := by
  rw [Wasm.csprngFromSeed, if_neg (by simp [h.2.1])]

/-- **C57 (strings)**: a caller that builds strings whose UTF-8 bytes are the serialised values gets
from the WASM functions what the C functions give for the same bytes. Full claim: this for the values
that the WASM functions return. Missing: they return arrays instead of strings (`C57_never`), and not
all serialised values are UTF-8 (`C57_unrepresentable`). -/
theorem C57_string_partial [DecidableEq G] (O : Oracle) (P : Ffi.Platform) (fuel : ℕ) {m : Mem}
    {w : Wasm.Call} {c : Ffi.Call} (h : Spec.SameArgs P m w c) {buf : Ffi.Buf} {before after : Mem}
    (hg : c.run G R O P fuel m = .returns buf before after) (hl : buf.len ≠ 0) :
    ∃ v b, w.run G R O P.checks fuel = .returns v ∧ Spec.IsByteArray v b ∧
      Spec.At before buf.ptr b ∧ buf.len = UInt64.ofNat b.length := by
  cases h with
  | systemParametersCreate hs =>
    obtain ⟨b, hx, hb⟩ := finish_nonempty hg hl
    refine ⟨_, b, ?_, rfl, hb⟩
    simp only [Ffi.systemParametersCreateBody, seed_ok_iff.2 ⟨_, hs, rfl⟩, Res.ok_bind] at hx
    simp only [Call.run, Wasm.systemParametersCreate, wasm_seed hs]
    rw [if_neg (by simp [hs.2.1])]
    split at hx
    · cases hx
    · rename_i p r hp
      cases hx
      simp only [hp]
      rfl
  | issuerCreate hp hs =>
    obtain ⟨b, hx, hb⟩ := finish_nonempty hg hl
    refine ⟨_, b, ?_, rfl, hb⟩
    simp only [Ffi.issuerCreateBody, seed_ok_iff.2 ⟨_, hs, rfl⟩, slice_ok_iff.2 hp, Res.ok_bind] at hx
    obtain ⟨p, hp', hx⟩ := Res.bind_eq_ok.1 hx
    rw [Ffi.okOrReturn, Res.mapErr_eq_ok, Spec.utf8] at hp'
    simp only [Call.run, Wasm.issuerCreate, wasm_seed hs, Res.ok_bind, intoSerde, hp', Res.mapErr_ok]
    cases hx
    rfl
  | issuerGetIssuerParameters hi =>
    obtain ⟨b, hx, hb⟩ := finish_nonempty hg hl
    refine ⟨_, b, ?_, rfl, hb⟩
    simp only [Ffi.issuerGetIssuerParametersBody, slice_ok_iff.2 hi, Res.ok_bind] at hx
    obtain ⟨i, hi', hx⟩ := Res.bind_eq_ok.1 hx
    rw [Ffi.okOrReturn, Res.mapErr_eq_ok, Spec.utf8] at hi'
    simp only [Call.run, Wasm.issuerGetIssuerParameters, Res.ok_bind, intoSerde, hi', Res.mapErr_ok]
    cases hx
    rfl
  | issuerNew hp hk =>
    obtain ⟨b, hx, hb⟩ := finish_nonempty hg hl
    refine ⟨_, b, ?_, rfl, hb⟩
    simp only [Ffi.issuerNewBody, slice_ok_iff.2 hp, slice_ok_iff.2 hk, Res.ok_bind] at hx
    obtain ⟨p, hp', hx⟩ := Res.bind_eq_ok.1 hx
    obtain ⟨k, hk', hx⟩ := Res.bind_eq_ok.1 hx
    rw [Ffi.okOrReturn, Res.mapErr_eq_ok, Spec.utf8] at hp' hk'
    simp only [Call.run, Wasm.issuerNew, Res.ok_bind, intoSerde, hp', hk', Res.mapErr_ok]
    cases hx
    rfl
  | issuerIssue hi hn hs =>
    obtain ⟨b, hx, hb⟩ := finish_nonempty hg hl
    refine ⟨_, b, ?_, rfl, hb⟩
    simp only [Ffi.issuerIssueBody, slice_ok_iff.2 hi, slice_ok_iff.2 hn,
      seed_ok_iff.2 ⟨_, hs, rfl⟩, Res.ok_bind] at hx
    obtain ⟨i, hi', hx⟩ := Res.bind_eq_ok.1 hx
    obtain ⟨j, hj', hx⟩ := Res.bind_eq_ok.1 hx
    rw [Ffi.okOrReturn, Res.mapErr_eq_ok] at hi' hj'
    rw [Spec.utf8] at hi'
    simp only [Call.run, Wasm.issuerIssue, wasm_seed hs, Wasm.okOrReturn, Res.ok_bind, intoSerde, hi',
      hj', Res.mapErr_ok]
    cases hx
    rfl
  | issuerVerify hi hp =>
    obtain ⟨b, hx, hb⟩ := finish_nonempty hg hl
    refine ⟨_, b, ?_, rfl, hb⟩
    simp only [Ffi.issuerVerifyBody, slice_ok_iff.2 hi, slice_ok_iff.2 hp, Res.ok_bind] at hx
    obtain ⟨i, hi', hx⟩ := Res.bind_eq_ok.1 hx
    obtain ⟨p, hp', hx⟩ := Res.bind_eq_ok.1 hx
    obtain ⟨v, hv', hx⟩ := Res.bind_eq_ok.1 hx
    rw [Ffi.okOrReturn, Res.mapErr_eq_ok] at hi' hp' hv'
    rw [Spec.utf8] at hi' hp'
    simp only [Call.run, Wasm.issuerVerify, Wasm.okOrReturn, Res.ok_bind, intoSerde, hi', hp', hv',
      Res.mapErr_ok]
    cases hx
    rfl
  | issuerVerifyRosterMembership hi hp =>
    obtain ⟨b, hx, hb⟩ := finish_nonempty hg hl
    refine ⟨_, b, ?_, rfl, hb⟩
    simp only [Ffi.issuerVerifyRosterMembershipBody, slice_ok_iff.2 hi, slice_ok_iff.2 hp,
      Res.ok_bind] at hx
    obtain ⟨i, hi', hx⟩ := Res.bind_eq_ok.1 hx
    obtain ⟨p, hp', hx⟩ := Res.bind_eq_ok.1 hx
    obtain ⟨v, hv', hx⟩ := Res.bind_eq_ok.1 hx
    rw [Ffi.okOrReturn, Res.mapErr_eq_ok] at hi' hp' hv'
    rw [Spec.utf8] at hi' hp'
    simp only [Call.run, Wasm.issuerVerifyRosterMembership, Wasm.okOrReturn, Res.ok_bind, intoSerde,
      hi', hp', hv', Res.mapErr_ok]
    cases hx
    rfl
  | userObtainFinish hn hp hip hi =>
    obtain ⟨b, hx, hb⟩ := finish_nonempty hg hl
    refine ⟨_, b, ?_, rfl, hb⟩
    simp only [Ffi.userObtainFinishBody, slice_ok_iff.2 hn, slice_ok_iff.2 hp, slice_ok_iff.2 hip,
      slice_ok_iff.2 hi, Res.ok_bind] at hx
    obtain ⟨p, hp', hx⟩ := Res.bind_eq_ok.1 hx
    obtain ⟨ip, hip', hx⟩ := Res.bind_eq_ok.1 hx
    obtain ⟨i, hi', hx⟩ := Res.bind_eq_ok.1 hx
    obtain ⟨u, hu', hx⟩ := Res.bind_eq_ok.1 hx
    obtain ⟨v, hv', hx⟩ := Res.bind_eq_ok.1 hx
    rw [Ffi.okOrReturn, Res.mapErr_eq_ok] at hp' hip' hi' hu' hv'
    rw [Spec.utf8] at hp' hip' hi'
    simp only [Call.run, Wasm.userObtainFinish, Wasm.okOrReturn, Res.ok_bind, intoSerde, hp', hip',
      hi', hu', hv', Res.mapErr_ok]
    cases hx
    rfl
  | userShow hu he hs =>
    obtain ⟨b, hx, hb⟩ := finish_nonempty hg hl
    refine ⟨_, b, ?_, rfl, hb⟩
    simp only [Ffi.userShowBody, slice_ok_iff.2 hu, slice_ok_iff.2 he, seed_ok_iff.2 ⟨_, hs, rfl⟩,
      Res.ok_bind] at hx
    obtain ⟨u, hu', hx⟩ := Res.bind_eq_ok.1 hx
    obtain ⟨e, he', hx⟩ := Res.bind_eq_ok.1 hx
    obtain ⟨v, hv', hx⟩ := Res.bind_eq_ok.1 hx
    rw [Ffi.okOrReturn, Res.mapErr_eq_ok] at hu' he' hv'
    rw [Spec.utf8] at hu' he'
    simp only [Call.run, Wasm.userShow, wasm_seed hs, Wasm.okOrReturn, Res.ok_bind, intoSerde, hu',
      he', hv', Res.mapErr_ok]
    cases hx
    rfl

/-- UTF-8 has no bytes from 248 on. -/
theorem utf8_lt (s : String) : ∀ x ∈ Spec.utf8 s, x < 248 := by
  obtain ⟨ba, ⟨l, hl⟩⟩ := s
  subst hl
  intro x hx
  have hx : x ∈ l.flatMap String.utf8EncodeChar := by
    simpa [Spec.utf8, List.utf8Encode] using hx
  obtain ⟨c, _, hc⟩ := List.mem_flatMap.1 hx
  rw [UInt8.lt_iff_toNat_lt]
  simp only [String.utf8EncodeChar] at hc
  split at hc
  · simp only [List.mem_singleton] at hc
    subst hc
    simp only [UInt8.toNat_ofNat', UInt8.toNat_ofNat]
    omega
  · split at hc
    · simp only [List.mem_cons, List.not_mem_nil, or_false] at hc
      rcases hc with rfl | rfl <;> simp only [UInt8.toNat_ofNat', UInt8.toNat_ofNat] <;> omega
    · split at hc
      · simp only [List.mem_cons, List.not_mem_nil, or_false] at hc
        rcases hc with rfl | rfl | rfl <;> simp only [UInt8.toNat_ofNat', UInt8.toNat_ofNat] <;> omega
      · simp only [List.mem_cons, List.not_mem_nil, or_false] at hc
        rcases hc with rfl | rfl | rfl | rfl <;>
          simp only [UInt8.toNat_ofNat', UInt8.toNat_ofNat] <;> omega

/-- **C57 (some values cannot be passed in any form)**: no JavaScript value at all is accepted as
system parameters, issuer parameters, keypair or issuer whose serialised form has a byte ≥ 248, as it
is then not the UTF-8 form of a string. -/
theorem C57_unrepresentable (checks : Bool) (j : Js) :
    (∀ p : SystemParameters G, (∃ x ∈ p.toBytes, 248 ≤ x) →
      intoSerde SystemParameters.fromBytes j ≠ .ok p) ∧
    (∀ k : PublicKey G, (∃ x ∈ k.toBytes, 248 ≤ x) → intoSerde PublicKey.fromBytes j ≠ .ok k) ∧
    (∀ k : Keypair G, (∃ x ∈ k.toBytes, 248 ≤ x) →
      intoSerde (Keypair.fromBytes checks) j ≠ .ok k) ∧
    (∀ i : SignalIssuer G, (∃ x ∈ i.toBytes, 248 ≤ x) →
      intoSerde (SignalIssuer.fromBytes checks) j ≠ .ok i) := by
  have key : ∀ {ε α : Type} {f : Bytes → Res ε α} {g : α → Bytes},
      (∀ {b a}, f b = .ok a → g a = b) → ∀ a, (∃ x ∈ g a, 248 ≤ x) → intoSerde f j ≠ .ok a := by
    rintro ε α f g hf a ⟨x, hx, h⟩ hj
    obtain ⟨s, rfl, hs⟩ := intoSerde_ok.1 hj
    rw [hf hs] at hx
    exact absurd (utf8_lt s x hx) (UInt8.not_lt.2 h)
  exact ⟨key C01_reserialise, key C03_reserialise, key C05_reserialise,
    key fun h => C06_reserialise (signalIssuer_ok_iff.1 h)⟩

end

/-! ## Witnesses -/

theorem toy_params_js (checks : Bool) :
    (Call.systemParametersCreate (List.replicate 32 0)).run F ToyRng toyOracle checks 1 =
      .returns (fromSerde (SystemParameters.toBytes (⟨1, 6⟩ : SystemParameters F))) := by
  simp only [Call.run, Wasm.systemParametersCreate, Wasm.csprngFromSeed, List.length_replicate,
    ne_eq, not_true, if_false, toy_hunt]

/-- C57 is false: the system parameters returned by `system_parameters_create` are refused by
`issuer_create`. -/
theorem C57_false (checks : Bool) :
    ∃ v, (Call.systemParametersCreate (List.replicate 32 0)).run F ToyRng toyOracle checks 1 =
        .returns v ∧ v ≠ .num 0 ∧
      (Call.issuerCreate v (List.replicate 32 1)).run F ToyRng toyOracle checks 1 =
        .returns (.num 0) := by
  refine ⟨_, toy_params_js checks, nofun, ?_⟩
  simp [Call.run, Wasm.issuerCreate, Wasm.csprngFromSeed, intoSerde, fromSerde, Wasm.finish]

-- the hypotheses of C57_results, C57_never and C57_success
example : ∃ v, (Call.systemParametersCreate (List.replicate 32 0)).run F ToyRng toyOracle true 1 =
    .returns v ∧ v ≠ .num 0 ∧ v ∈ Spec.jsArgs (.issuerGetIssuerParameters v) :=
  ⟨_, toy_params_js true, nofun, by simp [Spec.jsArgs]⟩

/-- A string that `issuer_create` accepts. -/
def toyString : String :=
  String.ofList ('\x01' :: List.replicate 31 '\x00' ++ '\x06' :: List.replicate 31 '\x00')

theorem toy_params_string : Spec.utf8 toyString =
    SystemParameters.toBytes (⟨1, 6⟩ : SystemParameters F) := by
  decide +kernel

-- C57_string_partial and C57_success are not void
example : ∃ s v, (Call.issuerCreate (.str s) (List.replicate 32 1)).run F ToyRng toyOracle true 1 =
    .returns v ∧ v ≠ .num 0 := by
  have h := toy_params_string
  rw [Spec.utf8] at h
  refine ⟨toyString, fromSerde ((SignalIssuer.create (⟨1, 6⟩ : SystemParameters F)
    (SeedableRng.fromSeed (List.replicate 32 1) : ToyRng)).1.issuer.keypair.toBytes), ?_, nofun⟩
  simp only [Call.run, Wasm.issuerCreate, intoSerde, h, C01_roundtrip]
  rfl

-- the hypothesis of C57_unrepresentable
example : ∃ x ∈ SystemParameters.toBytes (⟨1, 255⟩ : SystemParameters F), 248 ≤ x :=
  ⟨255, by decide +kernel, by decide⟩

end Verif
