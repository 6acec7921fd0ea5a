import Verif.Lemmas.Bytes
import Verif.Toy

/-!
# C01–C07, C12, C13: byte codecs of the basic types

Specification side: `enc` (the external point encoding) and `Scalar.toBytes`/`Reduced` (the external
scalar encoding); layouts are written out explicitly in the statements.
-/

namespace Verif

variable {G : Type} [AddCommGroup G] [Module F G] [Ristretto G]

/-! ## C01 system parameters -/

theorem C01_ok_iff (b : Bytes) (p : SystemParameters G) :
    SystemParameters.fromBytes b = .ok p ↔ b = enc p.g ++ enc p.h := by
  constructor
  · intro h
    rw [SystemParameters.fromBytes] at h
    split at h
    · cases h
    rename_i hl
    obtain ⟨x, y, rfl, hx⟩ := exists_split (b := b) (n := 32) (by omega)
    have hy : y.length = 32 := by simp at hl; omega
    rw [slice_left hx, slice_right hx (by omega)] at h
    simp only [Res.ok_bind, copyFromSlice_ok hx, copyFromSlice_ok hy, Res.bind_eq_ok,
      Res.ofOption_eq_ok, dec_eq_some] at h
    obtain ⟨g, hg, h', hh, he⟩ := h
    cases he
    rw [hg, hh]
  · rintro rfl
    rw [SystemParameters.fromBytes, if_neg (by simp), slice_left (by simp), slice_right (by simp) (by simp)]
    simp [copyFromSlice]

theorem C01_roundtrip (p : SystemParameters G) : SystemParameters.fromBytes p.toBytes = .ok p :=
  (C01_ok_iff _ _).2 rfl

theorem C01_reserialise {b : Bytes} {p : SystemParameters G}
    (h : SystemParameters.fromBytes b = .ok p) : p.toBytes = b :=
  ((C01_ok_iff _ _).1 h).symm

example : (⟨1, 5⟩ : SystemParameters F).toBytes = enc (1 : F) ++ enc (5 : F) :=
  C01_reserialise ((C01_ok_iff _ _).2 rfl)

theorem C01_wrong_length {b : Bytes} (h : b.length ≠ 64) :
    (SystemParameters.fromBytes b : Res _ (SystemParameters G)) = .err .noSystemParameters := by
  rw [SystemParameters.fromBytes, if_pos h]

example : (SystemParameters.fromBytes (List.replicate 63 0) : Res _ (SystemParameters F)) = .err .noSystemParameters :=
  C01_wrong_length (by decide)

theorem C01_bad_point {b : Bytes} (h : b.length = 64)
    (hbad : ∀ p q : G, b ≠ enc p ++ enc q) :
    (SystemParameters.fromBytes b : Res _ (SystemParameters G)) =
      .err .pointDecompressionError := by
  rw [SystemParameters.fromBytes, if_neg (by simp [h])]
  obtain ⟨x, y, rfl, hx⟩ := exists_split (b := b) (n := 32) (by omega)
  have hy : y.length = 32 := by simp at h; omega
  rw [slice_left hx, slice_right hx (by omega)]
  simp only [Res.ok_bind, copyFromSlice_ok hx, copyFromSlice_ok hy]
  cases hg : (dec x : Option G) with
  | none => simp
  | some g =>
    cases hh : (dec y : Option G) with
    | none => simp
    | some h' => exact absurd (by rw [dec_eq_some.1 hg, dec_eq_some.1 hh]) (hbad g h')

example : ∀ p q : F, List.replicate 64 (255 : UInt8) ≠ enc p ++ enc q := by
  intro p q h
  have := (C01_ok_iff _ ⟨p, q⟩).2 h
  rw [show (SystemParameters.fromBytes (List.replicate 64 255) : Res _ (SystemParameters F)) =
    .err .pointDecompressionError by decide +kernel] at this
  cases this

theorem C01_no_panic (b : Bytes) :
    (SystemParameters.fromBytes b : Res _ (SystemParameters G)) ≠ .panic := by
  by_cases hl : b.length = 64
  · by_cases hp : ∃ p q : G, b = enc p ++ enc q
    · obtain ⟨p, q, rfl⟩ := hp
      rw [(C01_ok_iff _ ⟨p, q⟩).2 rfl]; simp
    · push Not at hp
      rw [C01_bad_point hl hp]; simp
  · rw [C01_wrong_length hl]; simp

/-- Non-vacuity: 64 bytes that decode, 64 bytes that do not. -/
example : SystemParameters.fromBytes (enc (1 : F) ++ enc (5 : F)) = .ok (⟨1, 5⟩ : SystemParameters F) :=
  (C01_ok_iff _ _).2 rfl

example : (SystemParameters.fromBytes (List.replicate 64 255) : Res _ (SystemParameters F)) =
    .err .pointDecompressionError := by decide +kernel

/-! ## C02 tags -/

open Amacs

theorem C02_ok_iff (b : Bytes) (t : Tag G) :
    Tag.fromBytes b = .ok t ↔ b = enc t.nonce ++ enc t.mac := by
  constructor
  · intro h
    rw [Tag.fromBytes] at h
    split at h
    · cases h
    rename_i hl
    obtain ⟨x, y, rfl, hx⟩ := exists_split (b := b) (n := 32) (by omega)
    have hy : y.length = 32 := by simp at hl; omega
    rw [slice_left hx, slice_right hx (by omega)] at h
    simp only [Res.ok_bind, copyFromSlice_ok hx, copyFromSlice_ok hy, Res.bind_eq_ok,
      Res.ofOption_eq_ok, dec_eq_some] at h
    obtain ⟨g, hg, h', hh, he⟩ := h
    cases he
    rw [hg, hh]
  · rintro rfl
    rw [Tag.fromBytes, if_neg (by simp), slice_left (by simp), slice_right (by simp) (by simp)]
    simp [copyFromSlice]

theorem C02_roundtrip (t : Tag G) : Tag.fromBytes t.toBytes = .ok t := (C02_ok_iff _ _).2 rfl

theorem C02_reserialise {b : Bytes} {t : Tag G} (h : Tag.fromBytes b = .ok t) : t.toBytes = b :=
  ((C02_ok_iff _ _).1 h).symm

example : (⟨3, 7⟩ : Tag F).toBytes = enc (3 : F) ++ enc (7 : F) := C02_reserialise ((C02_ok_iff _ _).2 rfl)

theorem C02_otherwise {b : Bytes} (hbad : ∀ p q : G, b ≠ enc p ++ enc q) :
    (Tag.fromBytes b : Res _ (Tag G)) = .err .pointDecompressionError := by
  rw [Tag.fromBytes]
  split
  · rfl
  rename_i h
  obtain ⟨x, y, rfl, hx⟩ := exists_split (b := b) (n := 32) (by omega)
  have hy : y.length = 32 := by simp at h; omega
  rw [slice_left hx, slice_right hx (by omega)]
  simp only [Res.ok_bind, copyFromSlice_ok hx, copyFromSlice_ok hy]
  cases hg : (dec x : Option G) with
  | none => simp [MacError.ofNone]
  | some g =>
    cases hh : (dec y : Option G) with
    | none => simp [MacError.ofNone]
    | some h' => exact absurd (by rw [dec_eq_some.1 hg, dec_eq_some.1 hh]) (hbad g h')

example : (Tag.fromBytes (enc (3 : F) ++ enc (7 : F) ++ [0]) : Res _ (Tag F)) = .err .pointDecompressionError :=
  C02_otherwise fun p q h => by simpa using congrArg List.length h

theorem C02_no_panic (b : Bytes) : (Tag.fromBytes b : Res _ (Tag G)) ≠ .panic := by
  by_cases hp : ∃ p q : G, b = enc p ++ enc q
  · obtain ⟨p, q, rfl⟩ := hp
    rw [(C02_ok_iff _ ⟨p, q⟩).2 rfl]; simp
  · push Not at hp
    rw [C02_otherwise hp]; simp

example : Tag.fromBytes (enc (3 : F) ++ enc (7 : F)) = .ok (⟨3, 7⟩ : Tag F) := (C02_ok_iff _ _).2 rfl

example : (Tag.fromBytes (List.replicate 63 0) : Res _ (Tag F)) = .err .pointDecompressionError := by
  decide +kernel

/-! ## C03 issuer parameters -/

theorem pk_chunk (c : Bytes) (hc : c.length = 32) (X : G) :
    ((do
      let X ← decompressSlice c
      Res.ofOption MacError.pointDecompressionError X) : Res MacError G) = .ok X ↔
      True ∧ enc X = c := by
  rw [decompressSlice_of_length hc]
  simp [Res.ofOption_eq_ok, dec_eq_some]

theorem C03_ok_iff (b : Bytes) (k : PublicKey G) :
    PublicKey.fromBytes b = .ok k ↔ b = (k.Xn.map enc).flatten := by
  rw [PublicKey.fromBytes]
  split
  · rename_i h
    simp only [reduceCtorEq, false_iff]
    rintro rfl
    rw [flatten_map_length (n := 32) (fun a => enc_length a)] at h
    omega
  · rename_i h
    rw [Res.bind_eq_ok]
    have key := fun xs => mapM_chunks_eq_ok (ε := MacError) (e := (enc : G → Bytes))
      (P := fun _ => True) (fun a => enc_length a) pk_chunk (b := b) (by omega) (xs := xs)
    constructor
    · rintro ⟨xs, h1, h2⟩
      cases h2
      exact (((key xs).1 h1).2).symm
    · intro hb
      exact ⟨k.Xn, (key _).2 ⟨fun _ _ => trivial, hb.symm⟩, rfl⟩

theorem C03_roundtrip (k : PublicKey G) : PublicKey.fromBytes k.toBytes = .ok k :=
  (C03_ok_iff _ _).2 rfl

theorem C03_reserialise {b : Bytes} {k : PublicKey G} (h : PublicKey.fromBytes b = .ok k) :
    k.toBytes = b := ((C03_ok_iff _ _).1 h).symm

example : (⟨[3, 7]⟩ : PublicKey F).toBytes = enc (3 : F) ++ enc (7 : F) := C03_reserialise ((C03_ok_iff _ _).2 (by simp))

theorem C03_wrong_length {b : Bytes} (h : b.length % 32 ≠ 0) :
    (PublicKey.fromBytes b : Res _ (PublicKey G)) = .err (.messageLengthError b.length) := by
  rw [PublicKey.fromBytes, if_pos h]

example : (PublicKey.fromBytes (List.replicate 33 0) : Res _ (PublicKey F)) = .err (.messageLengthError 33) :=
  C03_wrong_length (b := List.replicate 33 0) (by decide)

theorem C03_bad_point {b : Bytes} (h : b.length % 32 = 0)
    (hbad : ∀ Xs : List G, b ≠ (Xs.map enc).flatten) :
    (PublicKey.fromBytes b : Res _ (PublicKey G)) = .err .pointDecompressionError := by
  have hno : ∀ k : PublicKey G, PublicKey.fromBytes b ≠ .ok k := fun k hk =>
    hbad k.Xn ((C03_ok_iff _ _).1 hk)
  rw [PublicKey.fromBytes, if_neg (by omega)] at hno ⊢
  rw [mapM_chunks_err (err := .pointDecompressionError) ?_ h ?_]
  · rfl
  · intro c hc
    rw [decompressSlice_of_length hc]
    cases hd : (dec c : Option G) <;> simp
  · intro xs hxs
    apply hno ⟨xs⟩
    rw [hxs]; rfl

example : ∀ Xs : List F, List.replicate 64 (255 : UInt8) ≠ (Xs.map enc).flatten := by
  intro Xs h
  have := (C03_ok_iff _ ⟨Xs⟩).2 h
  rw [show (PublicKey.fromBytes (List.replicate 64 255) : Res _ (PublicKey F)) = .err .pointDecompressionError by
    decide +kernel] at this
  cases this

theorem C03_no_panic (b : Bytes) : (PublicKey.fromBytes b : Res _ (PublicKey G)) ≠ .panic := by
  by_cases hl : b.length % 32 = 0
  · by_cases hp : ∃ Xs : List G, b = (Xs.map enc).flatten
    · obtain ⟨Xs, hb⟩ := hp
      rw [(C03_ok_iff _ ⟨Xs⟩).2 hb]; simp
    · push Not at hp
      rw [C03_bad_point hl hp]; simp
  · rw [C03_wrong_length hl]; simp

example : PublicKey.fromBytes (enc (3 : F) ++ enc (7 : F)) = .ok (⟨[3, 7]⟩ : PublicKey F) :=
  (C03_ok_iff _ _).2 (by simp)

example : (PublicKey.fromBytes (List.replicate 32 255) : Res _ (PublicKey F)) =
    .err .pointDecompressionError := by decide +kernel

/-! ## C04 issuer secret keys -/

theorem sk_chunk (c : Bytes) (hc : c.length = 32) (x : Scalar) :
    ((do
      let tmp ← copyFromSlice 32 c
      Res.ofOption MacError.scalarFormatError (Scalar.fromCanonical tmp)) : Res MacError Scalar) =
      .ok x ↔ x.Reduced ∧ x.toBytes = c := by
  rw [copyFromSlice_ok hc]
  simp [Res.ofOption_eq_ok, Scalar.fromCanonical_eq_some hc]

/-- `Ok` exactly on non-empty concatenations of canonical scalars, the first of which is `x0`. -/
theorem C04_ok_iff (b : Bytes) (k : SecretKey) :
    SecretKey.fromBytes b = .ok k ↔
      (k.x0.Reduced ∧ ∀ x ∈ k.xn, x.Reduced) ∧ b = ((k.x0 :: k.xn).map Scalar.toBytes).flatten := by
  rw [SecretKey.fromBytes]
  have hlen : b = ((k.x0 :: k.xn).map Scalar.toBytes).flatten →
      b.length = 32 * (k.xn.length + 1) := by
    rintro rfl
    rw [flatten_map_length (n := 32) (fun a => Scalar.toBytes_length a)]
    rfl
  split
  · rename_i h
    simp only [reduceCtorEq, false_iff, not_and]
    intro _ hb
    have := hlen hb
    omega
  rename_i h
  split
  · simp only [reduceCtorEq, false_iff, not_and]
    intro _ hb
    have := hlen hb
    omega
  rw [Res.bind_eq_ok]
  have key := fun xs => mapM_chunks_eq_ok (ε := MacError) (e := Scalar.toBytes)
    (P := Scalar.Reduced) Scalar.toBytes_length sk_chunk (b := b) (by omega) (xs := xs)
  constructor
  · rintro ⟨xs, h1, h2⟩
    obtain ⟨h3, h4⟩ := (key xs).1 h1
    cases xs with
    | nil => cases h2
    | cons x xn =>
      cases h2
      exact ⟨⟨h3 x (by simp), fun y hy => h3 y (by simp [hy])⟩, h4.symm⟩
  · rintro ⟨⟨h1, h2⟩, hb⟩
    refine ⟨k.x0 :: k.xn, (key _).2 ⟨?_, hb.symm⟩, rfl⟩
    intro x hx
    rcases List.mem_cons.1 hx with rfl | hx
    · exact h1
    · exact h2 x hx

theorem C04_roundtrip (k : SecretKey) (h0 : k.x0.Reduced) (hn : ∀ x ∈ k.xn, x.Reduced) :
    SecretKey.fromBytes k.toBytes = .ok k :=
  (C04_ok_iff _ _).2 ⟨⟨h0, hn⟩, by simp [SecretKey.toBytes]⟩

example : SecretKey.fromBytes (⟨1, [0, 1]⟩ : SecretKey).toBytes = .ok ⟨1, [0, 1]⟩ :=
  C04_roundtrip _ Scalar.reduced_one (by decide +kernel)

theorem C04_reserialise {b : Bytes} {k : SecretKey} (h : SecretKey.fromBytes b = .ok k) :
    k.toBytes = b := by
  rw [((C04_ok_iff _ _).1 h).2]; simp [SecretKey.toBytes]

example : (⟨1, [0]⟩ : SecretKey).toBytes = (1 : Scalar).toBytes ++ (0 : Scalar).toBytes :=
  C04_reserialise (by decide +kernel)

theorem C04_wrong_length {b : Bytes} (h : b.length % 32 ≠ 0) :
    SecretKey.fromBytes b = .err (.messageLengthError b.length) := by
  rw [SecretKey.fromBytes, if_pos h]

example : SecretKey.fromBytes (List.replicate 33 0) = .err (.messageLengthError 33) :=
  C04_wrong_length (b := List.replicate 33 0) (by decide)

theorem C04_bad_scalar {b : Bytes} (hne : b ≠ []) (h : b.length % 32 = 0)
    (hbad : ∀ xs : List Scalar, (∀ x ∈ xs, x.Reduced) → b ≠ (xs.map Scalar.toBytes).flatten) :
    SecretKey.fromBytes b = .err .scalarFormatError := by
  have hpos := List.length_pos_iff.2 hne
  rw [SecretKey.fromBytes, if_neg (by omega), if_neg (by omega)]
  rw [mapM_chunks_err (err := .scalarFormatError) ?_ h ?_]
  · rfl
  · intro c hc
    rw [copyFromSlice_ok hc]
    cases hd : Scalar.fromCanonical c <;> simp [hd]
  · intro xs hxs
    obtain ⟨h1, h2⟩ := (mapM_chunks_eq_ok (ε := MacError) (e := Scalar.toBytes)
      (P := Scalar.Reduced) Scalar.toBytes_length sk_chunk h).1 hxs
    exact hbad xs h1 h2.symm

example : ∀ xs : List Scalar, (∀ x ∈ xs, x.Reduced) →
    (1 : Scalar).toBytes ++ List.replicate 32 255 ≠ (xs.map Scalar.toBytes).flatten := by
  intro xs hx h
  cases xs with
  | nil => simpa using congrArg List.length h
  | cons x xs =>
    have := (C04_ok_iff _ ⟨x, xs⟩).2 ⟨⟨hx x (by simp), fun y hy => hx y (by simp [hy])⟩, h⟩
    rw [show SecretKey.fromBytes ((1 : Scalar).toBytes ++ List.replicate 32 255) = .err .scalarFormatError by
      decide +kernel] at this
    cases this

/-- The full claim "decoding never panics" is false: the empty input panics. -/
theorem C04_empty_panics : SecretKey.fromBytes [] = .panic := rfl

/-- Full claim: `∀ b, SecretKey.fromBytes b ≠ .panic`. Missing: the empty input, where it is false
(`C04_empty_panics`). -/
theorem C04_no_panic_partial {b : Bytes} (hne : b ≠ []) : SecretKey.fromBytes b ≠ .panic := by
  by_cases hl : b.length % 32 = 0
  · by_cases hp : ∃ xs : List Scalar, (∀ x ∈ xs, x.Reduced) ∧ b = (xs.map Scalar.toBytes).flatten
    · obtain ⟨xs, h1, hb⟩ := hp
      cases xs with
      | nil => simp at hb; exact absurd hb hne
      | cons x xn =>
        rw [(C04_ok_iff _ ⟨x, xn⟩).2 ⟨⟨h1 x (by simp), fun y hy => h1 y (by simp [hy])⟩, hb⟩]
        simp
    · push Not at hp
      rw [C04_bad_scalar hne hl hp]; simp
  · rw [C04_wrong_length hl]; simp

example : SecretKey.fromBytes [7] ≠ .panic := C04_no_panic_partial (by decide)

example : SecretKey.fromBytes ((1 : Scalar).toBytes ++ (0 : Scalar).toBytes) = .ok ⟨1, [0]⟩ := by
  decide +kernel

example : SecretKey.fromBytes (List.replicate 32 255) = .err .scalarFormatError := by
  decide +kernel

/-! ## C05 keypairs -/

theorem keypair_short {n M : ℕ} (h : n < 32) (hM : M = 2 ^ 64) :
    (n + M - 32) / 2 % 32 ≠ 0 ∧ ¬ (n + M - 32) / 2 ≤ n := by
  omega
/-- Without overflow checks the same inputs are rejected. -/
theorem C05_short_err {b : Bytes} (h : b.length < 32) :
    (Keypair.fromBytes false b : Res _ (Keypair G)) = .err .keypairDeserialisation := by
  obtain ⟨h1, h2⟩ := keypair_short h (M := usizeCount) (by rw [usizeCount])
  have e1 : (usizeSub false b.length 32 : Res MacError ℕ) = .ok (b.length + usizeCount - 32) := by
    rw [usizeSub, if_neg (by omega), if_neg Bool.false_ne_true]
  have e2 : (usizeSub false b.length ((b.length + usizeCount - 32) / 2) : Res MacError ℕ) =
      .ok (b.length + usizeCount - (b.length + usizeCount - 32) / 2) := by
    rw [usizeSub, if_neg h2, if_neg Bool.false_ne_true]
  rw [Keypair.fromBytes, e1, Res.ok_bind]
  generalize (b.length + usizeCount - 32) / 2 = d at *
  dsimp only
  rw [e2, Res.ok_bind]
  rw [if_pos (Or.inl h1)]

example : (Keypair.fromBytes false [1, 2, 3] : Res _ (Keypair F)) = .err .keypairDeserialisation :=
  C05_short_err (by decide)

/-- "No input panics" is false in builds with overflow checks, for every short input. -/
theorem C05_short_panics {b : Bytes} (h : b.length < 32) :
    (Keypair.fromBytes true b : Res _ (Keypair G)) = .panic := by
  have e1 : (usizeSub true b.length 32 : Res MacError ℕ) = .panic := by
    rw [usizeSub, if_neg (by omega), if_pos rfl]
  rw [Keypair.fromBytes, e1, Res.panic_bind]

example : (Keypair.fromBytes true [1, 2, 3] : Res _ (Keypair F)) = .panic := C05_short_panics (by decide)

/-- `Ok` exactly on (points) ++ (canonical scalars) with one more scalar than points, in both build
modes. -/
theorem C05_ok_iff (checks : Bool) (b : Bytes) (k : Keypair G) :
    Keypair.fromBytes checks b = .ok k ↔
      k.secretKey.xn.length = k.publicKey.Xn.length ∧
      (k.secretKey.x0.Reduced ∧ ∀ x ∈ k.secretKey.xn, x.Reduced) ∧
      b = (k.publicKey.Xn.map enc).flatten ++
        ((k.secretKey.x0 :: k.secretKey.xn).map Scalar.toBytes).flatten := by
  have hpl : ∀ Xs : List G, (Xs.map enc).flatten.length = 32 * Xs.length := fun Xs =>
    flatten_map_length (fun a => enc_length a) Xs
  have hsl : ∀ xs : List Scalar, (xs.map Scalar.toBytes).flatten.length = 32 * xs.length :=
    fun xs => flatten_map_length Scalar.toBytes_length xs
  by_cases h32 : 32 ≤ b.length
  · rw [Keypair.fromBytes, usizeSub, if_pos h32]
    simp only [Res.ok_bind]
    rw [usizeSub, if_pos (by omega)]
    simp only [Res.ok_bind]
    obtain ⟨x, y, rfl, hx⟩ := exists_split (b := b) (n := (b.length - 32) / 2) (by omega)
    rw [slice_left hx, sliceFrom_right hx]
    rw [← hx, List.length_append, Nat.add_sub_cancel_left]
    rw [List.length_append] at hx
    constructor
    · intro h
      split at h
      · cases h
      rename_i hm
      simp only [Res.ok_bind, Res.bind_eq_ok] at h
      obtain ⟨pk, h1, sk, h2, h3⟩ := h
      cases h3
      have e1 := (C03_ok_iff _ _).1 h1
      obtain ⟨e2, e3⟩ := (C04_ok_iff _ _).1 h2
      refine ⟨?_, e2, by rw [← e1, ← e3]⟩
      have l1 := hpl pk.Xn
      have l2 := hsl (sk.x0 :: sk.xn)
      rw [← e1] at l1
      rw [← e3] at l2
      simp only [List.length_cons] at l2
      simp only
      omega
    · rintro ⟨h1, h2, h3⟩
      have hlen : x.length = ((k.publicKey.Xn.map enc).flatten).length := by
        have := congrArg List.length h3
        rw [List.length_append, List.length_append, hpl, hsl, List.length_cons] at this
        rw [hpl]
        omega
      rw [append_eq_iff hlen] at h3
      obtain ⟨rfl, rfl⟩ := h3
      rw [if_neg]
      · simp only [Res.ok_bind]
        rw [(C03_ok_iff _ k.publicKey).2 rfl]
        simp only [Res.ok_bind]
        rw [(C04_ok_iff _ k.secretKey).2 ⟨h2, rfl⟩]
        rfl
      · rw [hpl, hsl]
        simp
  · constructor
    · intro h
      exfalso
      cases checks with
      | true => rw [C05_short_panics (by omega)] at h; cases h
      | false => rw [C05_short_err (by omega)] at h; cases h
    · rintro ⟨_, _, h3⟩
      have := congrArg List.length h3
      rw [List.length_append, hpl, hsl, List.length_cons] at this
      omega

theorem C05_roundtrip (checks : Bool) (k : Keypair G)
    (hlen : k.secretKey.xn.length = k.publicKey.Xn.length)
    (h0 : k.secretKey.x0.Reduced) (hn : ∀ x ∈ k.secretKey.xn, x.Reduced) :
    Keypair.fromBytes checks k.toBytes = .ok k :=
  (C05_ok_iff checks _ k).2
    ⟨hlen, ⟨h0, hn⟩, by simp [Keypair.toBytes, PublicKey.toBytes, SecretKey.toBytes]⟩

example (checks : Bool) : Keypair.fromBytes checks (⟨⟨[5, 9]⟩, ⟨1, [1, 0]⟩⟩ : Keypair F).toBytes =
    .ok (⟨⟨[5, 9]⟩, ⟨1, [1, 0]⟩⟩ : Keypair F) :=
  C05_roundtrip checks _ rfl Scalar.reduced_one (by decide +kernel)

theorem C05_reserialise {checks : Bool} {b : Bytes} {k : Keypair G}
    (h : Keypair.fromBytes checks b = .ok k) : k.toBytes = b := by
  rw [((C05_ok_iff checks b k).1 h).2.2]
  simp [Keypair.toBytes, PublicKey.toBytes, SecretKey.toBytes]

example : (⟨⟨[5]⟩, ⟨1, [1]⟩⟩ : Keypair F).toBytes = enc (5 : F) ++ (1 : Scalar).toBytes ++ (1 : Scalar).toBytes :=
  C05_reserialise (checks := true) (by decide +kernel)

/-- Full claim: `∀ checks b, Keypair.fromBytes checks b ≠ .panic`. Missing: inputs shorter than 32
bytes with overflow checks on, where it is false (`C05_short_panics`). -/
theorem C05_no_panic_partial (checks : Bool) (b : Bytes) (h : checks = false ∨ 32 ≤ b.length) :
    (Keypair.fromBytes checks b : Res _ (Keypair G)) ≠ .panic := by
  by_cases h32 : 32 ≤ b.length
  · rw [Keypair.fromBytes, usizeSub, if_pos h32]
    simp only [Res.ok_bind]
    rw [usizeSub, if_pos (by omega)]
    simp only [Res.ok_bind]
    split
    · simp
    obtain ⟨x, y, rfl, hx⟩ := exists_split (b := b) (n := (b.length - 32) / 2) (by omega)
    rw [slice_left hx, sliceFrom_right hx]
    simp only [Res.ok_bind]
    intro hp
    rw [Res.bind_eq_panic] at hp
    rcases hp with hp | ⟨pk, _, hp⟩
    · exact C03_no_panic _ hp
    rw [Res.bind_eq_panic] at hp
    rcases hp with hp | ⟨sk, _, hp⟩
    · refine C04_no_panic_partial ?_ hp
      rintro rfl
      simp at hx h32
      omega
    · cases hp
  · rcases h with rfl | h
    · rw [C05_short_err (by omega)]; simp
    · omega

example : (Keypair.fromBytes true (List.replicate 100 1) : Res _ (Keypair F)) ≠ .panic :=
  C05_no_panic_partial _ _ (.inr (by decide))

example : (Keypair.fromBytes true (⟨⟨[5]⟩, ⟨1, [1]⟩⟩ : Keypair F).toBytes : Res _ (Keypair F)) =
    .ok ⟨⟨[5]⟩, ⟨1, [1]⟩⟩ := by decide +kernel

/-! ## C06 issuers -/

/-- `Ok` exactly on system parameters followed by a keypair with at least one attribute. -/
theorem C06_ok_iff (checks : Bool) (b : Bytes) (i : Issuer G) :
    Issuer.fromBytes checks b = .ok i ↔
      (i.keypair.secretKey.xn.length = i.keypair.publicKey.Xn.length ∧
        1 ≤ i.keypair.publicKey.Xn.length) ∧
      (i.keypair.secretKey.x0.Reduced ∧ ∀ x ∈ i.keypair.secretKey.xn, x.Reduced) ∧
      b = enc i.systemParameters.g ++ enc i.systemParameters.h ++
        ((i.keypair.publicKey.Xn.map enc).flatten ++
          ((i.keypair.secretKey.x0 :: i.keypair.secretKey.xn).map Scalar.toBytes).flatten) := by
  have hpl : ∀ Xs : List G, (Xs.map enc).flatten.length = 32 * Xs.length := fun Xs =>
    flatten_map_length (fun a => enc_length a) Xs
  have hsl : ∀ xs : List Scalar, (xs.map Scalar.toBytes).flatten.length = 32 * xs.length :=
    fun xs => flatten_map_length Scalar.toBytes_length xs
  rw [Issuer.fromBytes]
  split
  · rename_i hl
    simp only [reduceCtorEq, false_iff]
    rintro ⟨⟨h1, h2⟩, _, rfl⟩
    simp only [List.length_append, enc_length, hpl, hsl, List.length_cons] at hl
    omega
  · rename_i hl
    obtain ⟨x, y, rfl, hx⟩ := exists_split (b := b) (n := 64) (by omega)
    rw [slice_left hx, sliceFrom_right hx]
    simp only [Res.ok_bind, Res.bind_eq_ok, Res.mapErr_eq_ok, C01_ok_iff, C05_ok_iff]
    constructor
    · rintro ⟨sp, rfl, kp, ⟨h1, h2, rfl⟩, h3⟩
      cases h3
      refine ⟨⟨h1, ?_⟩, h2, rfl⟩
      simp only [List.length_append, enc_length, hpl, hsl, List.length_cons] at hl
      dsimp only
      omega
    · rintro ⟨⟨h1, _⟩, h2, h3⟩
      rw [append_eq_iff (by simp [hx])] at h3
      exact ⟨_, h3.1, _, ⟨h1, h2, h3.2⟩, rfl⟩

theorem C06_roundtrip (checks : Bool) (i : Issuer G)
    (hlen : i.keypair.secretKey.xn.length = i.keypair.publicKey.Xn.length)
    (h1 : 1 ≤ i.keypair.publicKey.Xn.length)
    (h0 : i.keypair.secretKey.x0.Reduced) (hn : ∀ x ∈ i.keypair.secretKey.xn, x.Reduced) :
    Issuer.fromBytes checks i.toBytes = .ok i :=
  (C06_ok_iff checks _ i).2 ⟨⟨hlen, h1⟩, ⟨h0, hn⟩, by
    simp [Issuer.toBytes, SystemParameters.toBytes, Keypair.toBytes, PublicKey.toBytes,
      SecretKey.toBytes]⟩

example (checks : Bool) : Issuer.fromBytes checks (⟨⟨1, 5⟩, ⟨⟨[5, 9]⟩, ⟨1, [1, 0]⟩⟩⟩ : Issuer F).toBytes =
    .ok (⟨⟨1, 5⟩, ⟨⟨[5, 9]⟩, ⟨1, [1, 0]⟩⟩⟩ : Issuer F) :=
  C06_roundtrip checks _ rfl (by decide) Scalar.reduced_one (by decide +kernel)

theorem C06_reserialise {checks : Bool} {b : Bytes} {i : Issuer G}
    (h : Issuer.fromBytes checks b = .ok i) : i.toBytes = b := by
  rw [((C06_ok_iff checks b i).1 h).2.2]
  simp [Issuer.toBytes, SystemParameters.toBytes, Keypair.toBytes, PublicKey.toBytes,
      SecretKey.toBytes]

example : (⟨⟨1, 5⟩, ⟨⟨[5]⟩, ⟨1, [1]⟩⟩⟩ : Issuer F).toBytes =
    enc (1 : F) ++ enc (5 : F) ++ (enc (5 : F) ++ (1 : Scalar).toBytes ++ (1 : Scalar).toBytes) :=
  C06_reserialise (checks := true) (by decide +kernel)

theorem C06_has_key {checks : Bool} {b : Bytes} {i : Issuer G}
    (h : Issuer.fromBytes checks b = .ok i) :
    i.keypair.publicKey.Xn ≠ [] ∧ i.keypair.secretKey.xn ≠ [] := by
  obtain ⟨⟨h1, h2⟩, _⟩ := (C06_ok_iff checks b i).1 h
  constructor
  · intro h3
    simp [h3] at h2
  · intro h3
    simp [h3] at h1
    rw [← h1] at h2
    simp at h2

example : ∃ i : Issuer F, Issuer.fromBytes true i.toBytes = .ok i ∧ i.keypair.publicKey.Xn ≠ [] :=
  ⟨⟨⟨1, 5⟩, ⟨⟨[5]⟩, ⟨1, [1]⟩⟩⟩, by decide +kernel, (C06_has_key (checks := true) (b := (⟨⟨1, 5⟩, ⟨⟨[5]⟩, ⟨1, [1]⟩⟩⟩ :
    Issuer F).toBytes) (by decide +kernel)).1⟩

theorem C06_no_panic (checks : Bool) (b : Bytes) :
    (Issuer.fromBytes checks b : Res _ (Issuer G)) ≠ .panic := by
  rw [Issuer.fromBytes]
  split
  · simp
  · rename_i hl
    obtain ⟨x, y, rfl, hx⟩ := exists_split (b := b) (n := 64) (by omega)
    rw [slice_left hx, sliceFrom_right hx]
    simp only [Res.ok_bind]
    intro hp
    rw [Res.bind_eq_panic] at hp
    rcases hp with hp | ⟨sp, _, hp⟩
    · exact C01_no_panic _ hp
    rw [Res.bind_eq_panic] at hp
    rcases hp with hp | ⟨kp, _, hp⟩
    · rw [Res.mapErr_eq_panic] at hp
      refine C05_no_panic_partial checks y (Or.inr ?_) hp
      rw [List.length_append] at hl
      omega
    · cases hp

/-- The errors: short input, bad parameters, bad keypair. -/
theorem C06_errors (checks : Bool) (b : Bytes) (e : CredentialError)
    (h : (Issuer.fromBytes checks b : Res _ (Issuer G)) = .err e) :
    (b.length < 160 ∧ e = .missingData) ∨
    (160 ≤ b.length ∧ (∀ p q : G, b.take 64 ≠ enc p ++ enc q) ∧ e = .pointDecompressionError) ∨
    (160 ≤ b.length ∧ (∃ p q : G, b.take 64 = enc p ++ enc q) ∧
      ∃ me, (Keypair.fromBytes checks (b.drop 64) : Res _ (Keypair G)) = .err me ∧
        e = CredentialError.ofMac me) := by
  rw [Issuer.fromBytes] at h
  split at h
  · rename_i hl
    cases h
    exact Or.inl ⟨by omega, rfl⟩
  · rename_i hl
    right
    have hl' : 160 ≤ b.length := by omega
    obtain ⟨x, y, rfl, hx⟩ := exists_split (b := b) (n := 64) (by omega)
    rw [slice_left hx, sliceFrom_right hx] at h
    have ht : (x ++ y).take 64 = x := by
      rw [List.take_append_of_le_length (by omega), List.take_of_length_le (by omega)]
    have hd : (x ++ y).drop 64 = y := by
      rw [List.drop_append_of_le_length (by omega), List.drop_of_length_le (by omega)]; simp
    rw [ht, hd]
    simp only [Res.ok_bind] at h
    rw [Res.bind_eq_err] at h
    rcases h with h | ⟨sp, hsp, h⟩
    · left
      refine ⟨hl', ?_⟩
      by_cases hp : ∃ p q : G, x = enc p ++ enc q
      · obtain ⟨p, q, rfl⟩ := hp
        rw [(C01_ok_iff _ ⟨p, q⟩).2 rfl] at h; cases h
      · push Not at hp
        rw [C01_bad_point hx hp] at h
        cases h
        exact ⟨hp, rfl⟩
    · right
      refine ⟨hl', ⟨sp.g, sp.h, (C01_ok_iff _ _).1 hsp⟩, ?_⟩
      rw [Res.bind_eq_err] at h
      rcases h with h | ⟨kp, _, h⟩
      · obtain ⟨me, h1, h2⟩ := Res.mapErr_eq_err.1 h
        exact ⟨me, h1, h2.symm⟩
      · cases h

/-- All three kinds of error occur. -/
example : (Issuer.fromBytes true (List.replicate 159 0) : Res _ (Issuer F)) = .err .missingData ∧
    (Issuer.fromBytes true (List.replicate 160 255) : Res _ (Issuer F)) = .err .pointDecompressionError ∧
    (Issuer.fromBytes true (List.replicate 161 0) : Res _ (Issuer F)) =
      .err (CredentialError.ofMac .keypairDeserialisation) := by
  decide +kernel

/-- `SignalIssuer` behaves identically. -/
theorem C06_signal (checks : Bool) (b : Bytes) :
    (SignalIssuer.fromBytes checks b : Res _ (SignalIssuer G)) =
      (Issuer.fromBytes checks b).map SignalIssuer.mk ∧
    (∀ i : SignalIssuer G, i.toBytes = i.issuer.toBytes) := by
  refine ⟨?_, fun _ => rfl⟩
  rw [SignalIssuer.fromBytes]
  cases (Issuer.fromBytes checks b : Res _ (Issuer G)) <;> rfl

theorem C06_signal_roundtrip (checks : Bool) (i : SignalIssuer G)
    (hlen : i.issuer.keypair.secretKey.xn.length = i.issuer.keypair.publicKey.Xn.length)
    (h1 : 1 ≤ i.issuer.keypair.publicKey.Xn.length)
    (h0 : i.issuer.keypair.secretKey.x0.Reduced)
    (hn : ∀ x ∈ i.issuer.keypair.secretKey.xn, x.Reduced) :
    SignalIssuer.fromBytes checks i.toBytes = .ok i := by
  rw [SignalIssuer.fromBytes, SignalIssuer.toBytes, C06_roundtrip checks i.issuer hlen h1 h0 hn]
  rfl

example : SignalIssuer.fromBytes true (⟨⟨⟨1, 5⟩, ⟨⟨[5, 9]⟩, ⟨1, [1, 0]⟩⟩⟩⟩ : SignalIssuer F).toBytes =
    .ok (⟨⟨⟨1, 5⟩, ⟨⟨[5, 9]⟩, ⟨1, [1, 0]⟩⟩⟩⟩ : SignalIssuer F) :=
  C06_signal_roundtrip _ _ rfl (by decide) Scalar.reduced_one (by decide +kernel)

/-- An issuer meeting the hypotheses. -/
example : ∃ i : Issuer F, Issuer.fromBytes true i.toBytes = .ok i :=
  ⟨⟨⟨1, 5⟩, ⟨⟨[5]⟩, ⟨1, [1]⟩⟩⟩, by decide +kernel⟩

/-! ## C07 credentials and requests -/

theorem cred_chunk (c : Bytes) (hc : c.length = 32) (x : Scalar) :
    chunkToScalar c = .ok x ↔ x.Reduced ∧ x.toBytes = c := by
  rw [chunkToScalar, copyFromSlice_ok hc, Res.ok_bind, Res.ofOption_eq_ok,
    Scalar.fromCanonical_eq_some hc]

theorem chunkToScalar_cases (c : Bytes) (hc : c.length = 32) :
    (∃ a, chunkToScalar c = .ok a) ∨ chunkToScalar c = .err .scalarFormatError := by
  rw [chunkToScalar, copyFromSlice_ok hc, Res.ok_bind]
  cases Scalar.fromCanonical c <;> simp

theorem C07_request_ok_iff (b : Bytes) (r : CredentialRequest) :
    CredentialRequest.fromBytes b = .ok r ↔
      (∀ x ∈ r.attributesRevealed, x.Reduced) ∧
        b = (r.attributesRevealed.map Scalar.toBytes).flatten := by
  rw [CredentialRequest.fromBytes]
  split
  · rename_i h
    simp only [reduceCtorEq, false_iff, not_and]
    rintro _ rfl
    rw [flatten_map_length Scalar.toBytes_length] at h
    omega
  · rename_i h
    rw [Res.bind_eq_ok]
    have key := fun xs => mapM_chunks_eq_ok (ε := CredentialError) (e := Scalar.toBytes)
      (P := Scalar.Reduced) Scalar.toBytes_length cred_chunk (b := b) (by omega) (xs := xs)
    constructor
    · rintro ⟨xs, h1, h2⟩
      cases h2
      obtain ⟨h3, h4⟩ := (key xs).1 h1
      exact ⟨h3, h4.symm⟩
    · rintro ⟨h1, h2⟩
      exact ⟨_, (key _).2 ⟨h1, h2.symm⟩, rfl⟩

theorem C07_request_roundtrip (r : CredentialRequest) (h : ∀ x ∈ r.attributesRevealed, x.Reduced) :
    CredentialRequest.fromBytes r.toBytes = .ok r := (C07_request_ok_iff _ _).2 ⟨h, rfl⟩

example : CredentialRequest.fromBytes (⟨[1, 0, 1]⟩ : CredentialRequest).toBytes = .ok ⟨[1, 0, 1]⟩ :=
  C07_request_roundtrip _ (by decide +kernel)

theorem C07_request_wrong_length {b : Bytes} (h : b.length % 32 ≠ 0) :
    CredentialRequest.fromBytes b = .err .wrongNumberOfBytes := by
  rw [CredentialRequest.fromBytes, if_pos h]

example : CredentialRequest.fromBytes (List.replicate 33 0) = .err .wrongNumberOfBytes :=
  C07_request_wrong_length (by decide)

theorem C07_request_bad_scalar {b : Bytes} (h : b.length % 32 = 0)
    (hbad : ∀ xs : List Scalar, (∀ x ∈ xs, x.Reduced) → b ≠ (xs.map Scalar.toBytes).flatten) :
    CredentialRequest.fromBytes b = .err .scalarFormatError := by
  rw [CredentialRequest.fromBytes, if_neg (by omega),
    mapM_chunks_err (err := .scalarFormatError) chunkToScalar_cases h]
  · rfl
  · intro xs hxs
    obtain ⟨h1, h2⟩ := (mapM_chunks_eq_ok (ε := CredentialError) (e := Scalar.toBytes)
      (P := Scalar.Reduced) Scalar.toBytes_length cred_chunk h).1 hxs
    exact hbad xs h1 h2.symm

example : ∀ xs : List Scalar, (∀ x ∈ xs, x.Reduced) →
    (1 : Scalar).toBytes ++ List.replicate 32 255 ≠ (xs.map Scalar.toBytes).flatten := by
  intro xs hx h
  have := (C07_request_ok_iff _ ⟨xs⟩).2 ⟨hx, h⟩
  rw [show CredentialRequest.fromBytes ((1 : Scalar).toBytes ++ List.replicate 32 255) = .err .scalarFormatError by
    decide +kernel] at this
  cases this

theorem C07_request_no_panic (b : Bytes) : CredentialRequest.fromBytes b ≠ .panic := by
  by_cases hl : b.length % 32 = 0
  · by_cases hp : ∃ xs : List Scalar, (∀ x ∈ xs, x.Reduced) ∧ b = (xs.map Scalar.toBytes).flatten
    · obtain ⟨xs, h1, hb⟩ := hp
      rw [(C07_request_ok_iff _ ⟨xs⟩).2 ⟨h1, hb⟩]; simp
    · push Not at hp
      rw [C07_request_bad_scalar hl hp]; simp
  · rw [C07_request_wrong_length hl]; simp

theorem chunks32_one {y : Bytes} (h : y.length = 32) : chunks32 y = [y] := by
  have := chunks32_append h []
  simpa using this

/-- `Ok` exactly on nonce ‖ mac ‖ one canonical scalar. -/
theorem C07_credential_ok_iff (b : Bytes) (c : Credential G) :
    Credential.fromBytes b = .ok c ↔
      ∃ a : Scalar, a.Reduced ∧ c.attributes = [a] ∧
        b = enc c.mac.nonce ++ enc c.mac.mac ++ a.toBytes := by
  rw [Credential.fromBytes]
  by_cases hl : b.length = 96
  · rw [if_neg (by simp [hl, SIZEOF_CREDENTIAL, NUMBER_OF_ATTRIBUTES])]
    obtain ⟨x, y, rfl, hx⟩ := exists_split (b := b) (n := 64) (by omega)
    have hy : y.length = 32 := by simp at hl; omega
    rw [slice_left hx, sliceFrom_right hx]
    simp only [Res.ok_bind, Res.bind_eq_ok, Res.mapErr_eq_ok, C02_ok_iff, chunks32_one hy,
      Res.mapM_cons, Res.mapM_nil, cred_chunk y hy]
    constructor
    · rintro ⟨t, rfl, as, ⟨a, ⟨h1, rfl⟩, h3⟩, h4⟩
      cases h3; cases h4
      exact ⟨a, h1, rfl, rfl⟩
    · rintro ⟨a, h1, h2, h3⟩
      rw [append_eq_iff (by simp [hx])] at h3
      obtain ⟨rfl, rfl⟩ := h3
      refine ⟨c.mac, rfl, [a], ⟨a, ⟨h1, rfl⟩, rfl⟩, ?_⟩
      rw [← h2]
  · rw [if_pos (by right; right; simpa [SIZEOF_CREDENTIAL, NUMBER_OF_ATTRIBUTES] using hl)]
    simp only [reduceCtorEq, false_iff, not_exists, not_and]
    rintro a _ _ rfl
    simp at hl

theorem C07_credential_roundtrip (c : Credential G) (a : Scalar) (h : c.attributes = [a])
    (ha : a.Reduced) : Credential.fromBytes c.toBytes = .ok c :=
  (C07_credential_ok_iff _ _).2 ⟨a, ha, h, by simp [Credential.toBytes, Tag.toBytes, h]⟩

example : Credential.fromBytes (⟨⟨3, 7⟩, [1]⟩ : Credential F).toBytes = .ok (⟨⟨3, 7⟩, [1]⟩ : Credential F) :=
  C07_credential_roundtrip _ 1 rfl Scalar.reduced_one

theorem C07_credential_reserialise {b : Bytes} {c : Credential G}
    (h : Credential.fromBytes b = .ok c) : c.toBytes = b := by
  obtain ⟨a, _, h1, rfl⟩ := (C07_credential_ok_iff _ _).1 h
  simp [Credential.toBytes, Tag.toBytes, h1]

example : (⟨⟨3, 7⟩, [1]⟩ : Credential F).toBytes = enc (3 : F) ++ enc (7 : F) ++ (1 : Scalar).toBytes :=
  C07_credential_reserialise (by decide +kernel)

theorem C07_credential_wrong_length {b : Bytes} (h : b.length ≠ 96) :
    (Credential.fromBytes b : Res _ (Credential G)) = .err .wrongNumberOfBytes := by
  rw [Credential.fromBytes,
    if_pos (by right; right; simpa [SIZEOF_CREDENTIAL, NUMBER_OF_ATTRIBUTES] using h)]

example : (Credential.fromBytes (List.replicate 95 0) : Res _ (Credential F)) = .err .wrongNumberOfBytes :=
  C07_credential_wrong_length (by decide)

/-- A bad tag point is reported as `NoIssuerParameters` (the conversion of
`MacError::PointDecompressionError`), otherwise a bad scalar as `ScalarFormatError`. -/
theorem C07_credential_bad {b : Bytes} (h : b.length = 96) :
    ((∀ p q : G, b.take 64 ≠ enc p ++ enc q) →
      (Credential.fromBytes b : Res _ (Credential G)) =
        .err (CredentialError.ofMac .pointDecompressionError)) ∧
    ((∃ p q : G, b.take 64 = enc p ++ enc q) → (∀ a : Scalar, a.Reduced → b.drop 64 ≠ a.toBytes) →
      (Credential.fromBytes b : Res _ (Credential G)) = .err .scalarFormatError) := by
  rw [Credential.fromBytes, if_neg (by simp [h, SIZEOF_CREDENTIAL, NUMBER_OF_ATTRIBUTES])]
  obtain ⟨x, y, rfl, hx⟩ := exists_split (b := b) (n := 64) (by omega)
  have hy : y.length = 32 := by simp at h; omega
  rw [slice_left hx, sliceFrom_right hx]
  have ht : (x ++ y).take 64 = x := by
    rw [List.take_append_of_le_length (by omega), List.take_of_length_le (by omega)]
  have hd : (x ++ y).drop 64 = y := by
    rw [List.drop_append_of_le_length (by omega), List.drop_of_length_le (by omega)]; simp
  rw [ht, hd]
  simp only [Res.ok_bind, chunks32_one hy, Res.mapM_cons, Res.mapM_nil]
  constructor
  · intro hbad
    rw [C02_otherwise hbad]
    simp
  · rintro ⟨p, q, rfl⟩ hbad
    rw [(C02_ok_iff _ ⟨p, q⟩).2 rfl]
    rcases chunkToScalar_cases y hy with ⟨a, ha⟩ | he
    · obtain ⟨h1, h2⟩ := (cred_chunk y hy a).1 ha
      exact absurd h2.symm (hbad a h1)
    · simp [he]

/-- Both kinds of error occur. -/
example : (Credential.fromBytes (List.replicate 96 255) : Res _ (Credential F)) =
      .err (CredentialError.ofMac .pointDecompressionError) ∧
    (Credential.fromBytes (List.replicate 64 0 ++ List.replicate 32 255) : Res _ (Credential F)) =
      .err .scalarFormatError := by
  decide +kernel

theorem C07_credential_no_panic (b : Bytes) :
    (Credential.fromBytes b : Res _ (Credential G)) ≠ .panic := by
  by_cases hl : b.length = 96
  · by_cases h1 : ∃ p q : G, b.take 64 = enc p ++ enc q
    · by_cases h2 : ∃ a : Scalar, a.Reduced ∧ b.drop 64 = a.toBytes
      · obtain ⟨p, q, h1⟩ := h1
        obtain ⟨a, ha, h2⟩ := h2
        rw [(C07_credential_ok_iff b ⟨⟨p, q⟩, [a]⟩).2 ⟨a, ha, rfl, by
          rw [← h1, ← h2, List.take_append_drop]⟩]
        simp
      · push Not at h2
        rw [(C07_credential_bad hl).2 h1 h2]; simp
    · push Not at h1
      rw [(C07_credential_bad hl).1 h1]; simp
  · rw [C07_credential_wrong_length hl]; simp

example : (Credential.fromBytes (enc (3 : F) ++ enc (7 : F) ++ (1 : Scalar).toBytes) :
    Res _ (Credential F)) = .ok ⟨⟨3, 7⟩, [1]⟩ := by decide +kernel

example : (Credential.fromBytes (enc (3 : F) ++ enc (7 : F) ++ List.replicate 32 255) :
    Res _ (Credential F)) = .err .scalarFormatError := by decide +kernel

example : CredentialRequest.fromBytes ((1 : Scalar).toBytes ++ (0 : Scalar).toBytes) =
    .ok ⟨[1, 0]⟩ := by decide +kernel

/-! ## C12 commitments and roster entries -/

theorem pedersen_of_length {b : Bytes} (h : b.length = 32) :
    (Pedersen.fromBytes b : Res _ G) = Res.ofOption .missingData (dec b) := by
  rw [Pedersen.fromBytes, slice_all h]
  simp [copyFromSlice_ok h, CredentialError.ofNone]

/-- A commitment decodes exactly when the *first* 32 bytes are a point; the rest is ignored. -/
theorem C12_commitment_ok_iff (b : Bytes) (c : G) :
    Pedersen.fromBytes b = .ok c ↔ ∃ rest, b = enc c ++ rest := by
  by_cases h : 32 ≤ b.length
  · obtain ⟨x, y, rfl, hx⟩ := exists_split h
    rw [Pedersen.fromBytes, slice_left hx]
    simp only [Res.ok_bind, copyFromSlice_ok hx, Res.ofOption_eq_ok, dec_eq_some]
    constructor
    · rintro rfl; exact ⟨y, rfl⟩
    · rintro ⟨rest, hr⟩
      rw [append_eq_iff (by simp [hx])] at hr
      exact hr.1.symm
  · rw [Pedersen.fromBytes, slice_panic (by omega)]
    simp only [Res.panic_bind, reduceCtorEq, false_iff, not_exists]
    rintro rest rfl
    simp at h

theorem C12_commitment_roundtrip (c : G) : Pedersen.fromBytes (Pedersen.toBytes c) = .ok c :=
  (C12_commitment_ok_iff _ _).2 ⟨[], by simp [Pedersen.toBytes]⟩

theorem C12_commitment_panic_iff (b : Bytes) :
    (Pedersen.fromBytes b : Res _ G) = .panic ↔ b.length < 32 := by
  constructor
  · intro h
    by_contra hl
    obtain ⟨x, y, rfl, hx⟩ := exists_split (b := b) (n := 32) (by omega)
    rw [Pedersen.fromBytes, slice_left hx] at h
    simp only [Res.ok_bind, copyFromSlice_ok hx] at h
    exact Res.ofOption_ne_panic h
  · intro h
    rw [Pedersen.fromBytes, slice_panic (by omega)]; rfl

theorem C12_commitment_err {b : Bytes} {e : CredentialError}
    (h : (Pedersen.fromBytes b : Res _ G) = .err e) :
    e = .missingData ∧ 32 ≤ b.length ∧ ∀ p : G, b.take 32 ≠ enc p := by
  by_cases hl : 32 ≤ b.length
  · refine ⟨?_, hl, ?_⟩
    all_goals
      obtain ⟨x, y, rfl, hx⟩ := exists_split hl
      rw [Pedersen.fromBytes, slice_left hx] at h
      simp only [Res.ok_bind, copyFromSlice_ok hx, Res.ofOption_eq_err] at h
    · exact h.2.symm
    · intro p hp
      rw [List.take_append_of_le_length (by omega), List.take_of_length_le (by omega)] at hp
      rw [hp, dec_enc] at h
      simp at h
  · rw [(C12_commitment_panic_iff b).2 (by omega)] at h
    cases h

example : (Pedersen.fromBytes (List.replicate 40 255) : Res _ F) = .err .missingData := by decide +kernel

theorem C12_committed_number (b : Bytes) (c : G) :
    (CommittedPhoneNumber.fromBytes b = .ok c ↔ ∃ rest, b = enc c ++ rest) ∧
    ((CommittedPhoneNumber.fromBytes b : Res _ G) = .panic ↔ b.length < 32) ∧
    CommittedPhoneNumber.fromBytes (CommittedPhoneNumber.toBytes c) = .ok c ∧
    (∀ e, (CommittedPhoneNumber.fromBytes b : Res _ G) = .err e → e = .invalidPhoneNumber) := by
  refine ⟨?_, ?_, ?_, ?_⟩
  · rw [CommittedPhoneNumber.fromBytes, Res.mapErr_eq_ok, C12_commitment_ok_iff]
  · rw [CommittedPhoneNumber.fromBytes, Res.mapErr_eq_panic, C12_commitment_panic_iff]
  · rw [CommittedPhoneNumber.fromBytes, Res.mapErr_eq_ok]
    exact C12_commitment_roundtrip c
  · intro e h
    rw [CommittedPhoneNumber.fromBytes, Res.mapErr_eq_err] at h
    obtain ⟨e0, _, rfl⟩ := h
    cases e0 <;> rfl

/-- A roster entry decodes exactly from a point followed by 32 bytes, whose top bit is dropped. -/
theorem C12_roster_ok_iff (b : Bytes) (r : RosterEntryCommitment G) :
    RosterEntryCommitment.fromBytes b = .ok r ↔
      ∃ o : Bytes, o.length = 32 ∧ b = enc r.commitment ++ o ∧ r.opening.n = leVal o % 2 ^ 255 := by
  by_cases h : 32 ≤ b.length
  · obtain ⟨x, y, rfl, hx⟩ := exists_split h
    rw [RosterEntryCommitment.fromBytes, slice_left hx, sliceFrom_right hx]
    simp only [Res.ok_bind, Res.bind_eq_ok, (C12_committed_number _ _).1]
    constructor
    · rintro ⟨c, ⟨rest, rfl⟩, tmp, h1, h2⟩
      rw [copyFromSlice] at h1
      split at h1
      · rename_i hy
        cases h1; cases h2
        have : rest = [] := by
          apply List.length_eq_zero_iff.1
          simpa using hx
        subst this
        exact ⟨y, hy, by simp, rfl⟩
      · cases h1
    · rintro ⟨o, ho, hb, hop⟩
      rw [append_eq_iff (by simp [hx])] at hb
      obtain ⟨rfl, rfl⟩ := hb
      refine ⟨r.commitment, ⟨[], by simp⟩, y, copyFromSlice_ok ho, ?_⟩
      exact congrArg Res.ok (RosterEntryCommitment.ext rfl (Scalar.ext hop.symm))
  · rw [RosterEntryCommitment.fromBytes, slice_panic (by omega)]
    simp only [Res.panic_bind, reduceCtorEq, false_iff, not_exists]
    rintro o ⟨_, rfl, _⟩
    simp at h

theorem C12_roster_roundtrip (r : RosterEntryCommitment G) :
    RosterEntryCommitment.fromBytes r.toBytes = .ok r :=
  (C12_roster_ok_iff _ _).2 ⟨r.opening.toBytes, by simp, rfl, by
    rw [Scalar.leVal_toBytes, Nat.mod_eq_of_lt r.opening.lt]⟩

/-- The panic table: too short, or a valid point followed by anything but 32 bytes. -/
theorem C12_roster_panic_iff (b : Bytes) :
    (RosterEntryCommitment.fromBytes b : Res _ (RosterEntryCommitment G)) = .panic ↔
      b.length < 32 ∨ (b.length ≠ 64 ∧ ∃ c : G, b.take 32 = enc c) := by
  by_cases h : 32 ≤ b.length
  · obtain ⟨x, y, rfl, hx⟩ := exists_split h
    have ht : (x ++ y).take 32 = x := by
      rw [List.take_append_of_le_length (by omega), List.take_of_length_le (by omega)]
    rw [RosterEntryCommitment.fromBytes, slice_left hx, sliceFrom_right hx, ht]
    simp only [Res.ok_bind]
    rw [Res.bind_eq_panic, (C12_committed_number x (0 : G)).2.1]
    constructor
    · rintro (h1 | ⟨c, hc, h1⟩)
      · omega
      · right
        obtain ⟨rest, hr⟩ := ((C12_committed_number x c).1).1 hc
        have : rest = [] := by
          apply List.length_eq_zero_iff.1
          have := congrArg List.length hr
          simp [hx] at this
          exact List.length_eq_zero_iff.2 this
        subst this
        refine ⟨?_, c, by simpa using hr⟩
        intro hy
        rw [List.length_append, hx] at hy
        rw [copyFromSlice_ok (by omega)] at h1
        cases h1
    · rintro (h1 | ⟨h1, c, hc⟩)
      · rw [List.length_append] at h1; omega
      · right
        refine ⟨c, ((C12_committed_number x c).1).2 ⟨[], by simp [hc]⟩, ?_⟩
        rw [copyFromSlice, if_neg]
        · rfl
        · intro hy
          apply h1
          rw [List.length_append]; omega
  · rw [RosterEntryCommitment.fromBytes, slice_panic (by omega)]
    simp; omega

/-- The claim "accepts only inputs of the right length" is false for commitments: any suffix is
accepted. -/
theorem C12_commitment_accepts_suffix (c : G) (suffix : Bytes) :
    Pedersen.fromBytes (enc c ++ suffix) = .ok c := (C12_commitment_ok_iff _ _).2 ⟨suffix, rfl⟩

/-- Full claim: every input of the wrong length is rejected with an error. True (no `Ok`) for roster
entries; missing: rejection is a panic, not an error (`C12_roster_panic_iff`). -/
theorem C12_roster_length_partial {b : Bytes} {r : RosterEntryCommitment G}
    (h : RosterEntryCommitment.fromBytes b = .ok r) : b.length = 64 := by
  obtain ⟨o, ho, rfl, _⟩ := (C12_roster_ok_iff _ _).1 h
  simp [ho]

example : RosterEntryCommitment.fromBytes (enc (3 : F) ++ (1 : Scalar).toBytes) =
    .ok (⟨3, 1⟩ : RosterEntryCommitment F) := C12_roster_roundtrip ⟨3, 1⟩

example : (RosterEntryCommitment.fromBytes (enc (3 : F)) : Res _ (RosterEntryCommitment F)) = .panic := by
  decide +kernel

/-! ## C13 ElGamal keys -/

theorem C13_public_ok_iff (b : Bytes) (k : G) :
    Elgamal.PublicKey.fromBytes b = .ok k ↔ b = enc k := by
  rw [Elgamal.PublicKey.fromBytes]
  by_cases h : b.length = 32
  · simp only [Res.assert, h, if_true, Res.ok_bind, copyFromSlice_ok h, Res.ofOption_eq_ok, dec_eq_some]
    exact eq_comm
  · simp only [Res.assert, h, if_false, Res.panic_bind, reduceCtorEq, false_iff]
    rintro rfl
    simp at h

theorem C13_secret_ok_iff (b : Bytes) (s : Scalar) :
    Elgamal.SecretKey.fromBytes b = .ok s ↔ s.Reduced ∧ b = s.toBytes := by
  rw [Elgamal.SecretKey.fromBytes]
  by_cases h : b.length = 32
  · simp only [Res.assert, h, if_true, Res.ok_bind, copyFromSlice_ok h, Res.ofOption_eq_ok,
      Scalar.fromCanonical_eq_some h]
    exact and_congr_right fun _ => eq_comm
  · simp only [Res.assert, h, if_false, Res.panic_bind, reduceCtorEq, false_iff]
    rintro ⟨_, rfl⟩
    simp at h

theorem C13_keypair_ok_iff (b : Bytes) (k : Elgamal.Keypair G) :
    Elgamal.Keypair.fromBytes b = .ok k ↔
      k.secretKey.Reduced ∧ b = k.secretKey.toBytes ++ enc k.publicKey := by
  rw [Elgamal.Keypair.fromBytes]
  by_cases h : b.length = 64
  · obtain ⟨x, y, rfl, hx⟩ := exists_split (b := b) (n := 32) (by omega)
    have hy : y.length = 32 := by simp at h; omega
    rw [slice_left hx, slice_right hx (by omega)]
    simp only [Res.assert, h, if_true, Res.ok_bind, Res.bind_eq_ok, C13_secret_ok_iff,
      C13_public_ok_iff]
    constructor
    · rintro ⟨s, ⟨h1, rfl⟩, p, rfl, h2⟩
      cases h2
      exact ⟨h1, rfl⟩
    · rintro ⟨h1, h2⟩
      rw [append_eq_iff (by simp [hx])] at h2
      exact ⟨_, ⟨h1, h2.1⟩, _, h2.2, rfl⟩
  · simp only [Res.assert, h, if_false, Res.panic_bind, reduceCtorEq, false_iff]
    rintro ⟨_, rfl⟩
    simp at h

theorem C13_roundtrip (k : Elgamal.Keypair G) (h : k.secretKey.Reduced) :
    Elgamal.PublicKey.fromBytes (Elgamal.PublicKey.toBytes k.publicKey) = .ok k.publicKey ∧
    Elgamal.SecretKey.fromBytes (Elgamal.SecretKey.toBytes k.secretKey) = .ok k.secretKey ∧
    Elgamal.Keypair.fromBytes k.toBytes = .ok k :=
  ⟨(C13_public_ok_iff _ _).2 rfl, (C13_secret_ok_iff _ _).2 ⟨h, rfl⟩,
    (C13_keypair_ok_iff _ _).2 ⟨h, rfl⟩⟩

example : Elgamal.Keypair.fromBytes (⟨1, 9⟩ : Elgamal.Keypair F).toBytes = .ok (⟨1, 9⟩ : Elgamal.Keypair F) :=
  (C13_roundtrip _ Scalar.reduced_one).2.2

/-- Wrong lengths are rejected, but by a panic; right lengths never panic. -/
theorem C13_panic_iff (b : Bytes) :
    ((Elgamal.PublicKey.fromBytes b : Res _ G) = .panic ↔ b.length ≠ 32) ∧
    (Elgamal.SecretKey.fromBytes b = .panic ↔ b.length ≠ 32) ∧
    ((Elgamal.Keypair.fromBytes b : Res _ (Elgamal.Keypair G)) = .panic ↔ b.length ≠ 64) := by
  have hp : ∀ b : Bytes, (Elgamal.PublicKey.fromBytes b : Res _ G) = .panic ↔ b.length ≠ 32 := by
    intro b
    rw [Elgamal.PublicKey.fromBytes]
    by_cases h : b.length = 32
    · simp only [Res.assert, h, if_true, Res.ok_bind, copyFromSlice_ok h, ne_eq, not_true_eq_false,
        iff_false]
      exact Res.ofOption_ne_panic
    · simp [h]
  have hs : ∀ b : Bytes, Elgamal.SecretKey.fromBytes b = .panic ↔ b.length ≠ 32 := by
    intro b
    rw [Elgamal.SecretKey.fromBytes]
    by_cases h : b.length = 32
    · simp only [Res.assert, h, if_true, Res.ok_bind, copyFromSlice_ok h, ne_eq, not_true_eq_false,
        iff_false]
      exact Res.ofOption_ne_panic
    · simp [h]
  refine ⟨hp b, hs b, ?_⟩
  rw [Elgamal.Keypair.fromBytes]
  by_cases h : b.length = 64
  · obtain ⟨x, y, rfl, hx⟩ := exists_split (b := b) (n := 32) (by omega)
    have hy : y.length = 32 := by simp at h; omega
    rw [slice_left hx, slice_right hx (by omega)]
    simp only [Res.assert, h, if_true, Res.ok_bind, Res.bind_eq_panic, hp, hs, hx, hy]
    simp
  · simp [h]

/-- Errors are always `MissingData`, on exactly the right-length non-canonical inputs. -/
theorem C13_err (b : Bytes) (e : CredentialError) :
    ((Elgamal.PublicKey.fromBytes b : Res _ G) = .err e ↔
      e = .missingData ∧ b.length = 32 ∧ ∀ k : G, b ≠ enc k) ∧
    (Elgamal.SecretKey.fromBytes b = .err e ↔
      e = .missingData ∧ b.length = 32 ∧ ∀ s : Scalar, s.Reduced → b ≠ s.toBytes) := by
  constructor
  · rw [Elgamal.PublicKey.fromBytes]
    by_cases h : b.length = 32
    · simp only [Res.assert, h, if_true, Res.ok_bind, copyFromSlice_ok h, Res.ofOption_eq_err]
      constructor
      · rintro ⟨h1, rfl⟩
        refine ⟨rfl, trivial, ?_⟩
        rintro k rfl
        rw [dec_enc] at h1; cases h1
      · rintro ⟨rfl, _, h2⟩
        refine ⟨?_, rfl⟩
        cases hd : (dec b : Option G) with
        | none => rfl
        | some k => exact absurd (dec_eq_some.1 hd).symm (h2 k)
    · simp [h]
  · rw [Elgamal.SecretKey.fromBytes]
    by_cases h : b.length = 32
    · simp only [Res.assert, h, if_true, Res.ok_bind, copyFromSlice_ok h, Res.ofOption_eq_err]
      constructor
      · rintro ⟨h1, rfl⟩
        refine ⟨rfl, trivial, ?_⟩
        rintro s hs rfl
        rw [Scalar.fromCanonical_toBytes hs] at h1; cases h1
      · rintro ⟨rfl, _, h2⟩
        refine ⟨?_, rfl⟩
        cases hd : Scalar.fromCanonical b with
        | none => rfl
        | some s =>
          obtain ⟨h3, h4⟩ := (Scalar.fromCanonical_eq_some h).1 hd
          exact absurd h4.symm (h2 s h3)
    · simp [h]

example : Elgamal.Keypair.fromBytes ((1 : Scalar).toBytes ++ enc (1 : F)) =
    .ok (⟨1, 1⟩ : Elgamal.Keypair F) := (C13_keypair_ok_iff _ _).2 ⟨Scalar.reduced_one, rfl⟩

end Verif
