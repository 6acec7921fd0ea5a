import Verif.Props.Show

/-!
# Protocol histories (C61)

Any number of issuers and users, in any interleaving. Credentials reach users through `deliver`, whose
argument is arbitrary, so the network and dishonest issuers are covered.
-/

set_option maxRecDepth 100000

namespace Verif

open Amacs

variable {G : Type} [AddCommGroup G] [Module F G] [Ristretto G]

/-- One step of a history; every RNG state and entropy string is a parameter of the step. -/
inductive Action (G R : Type) where
  | createIssuer (params : SystemParameters G) (rng : R)
  | createUser (params : SystemParameters G) (issuer : PublicKey G) (key : Option (Elgamal.Keypair G))
  | issue (issuer : ℕ) (request : CredentialRequest) (rng : R) (entropy : Bytes)
  | deliver (user : ℕ) (issuance : Option (CredentialIssuance G))
  | present (user : ℕ) (nonces : List Scalar) (rng : R) (entropy : Bytes)

/-- The issuers and users in existence. -/
structure World (G : Type) where
  issuers : List (Issuer G)
  users : List (User G)

/-- What the caller of a step sees. -/
inductive Output (G : Type) where
  | none
  | issued (r : Res CredentialError (CredentialIssuance G))
  | finished (r : Res CredentialError Unit)
  | presented (r : Res CredentialError (CredentialPresentation G))

/-- Perform one step with the modelled API functions. Steps naming a missing issuer or user do
nothing. -/
def World.step {R : Type} [RngCore R] (O : Oracle) (w : World G) : Action G R → World G × Output G
  | .createIssuer params rng => ({ w with issuers := w.issuers ++ [(Issuer.create params rng).1] }, .none)
  | .createUser params issuer key => ({ w with users := w.users ++ [User.new params issuer key] }, .none)
  | .issue k request rng entropy =>
    match w.issuers[k]? with
    | none => (w, .none)
    | some i => (w, .issued (i.issue O request rng entropy).1)
  | .deliver n issuance =>
    match w.users[n]? with
    | none => (w, .none)
    | some u =>
      let r := u.obtainFinish O issuance
      ({ w with users := w.users.set n r.2 }, .finished r.1)
  | .present n nonces rng entropy =>
    match w.users[n]? with
    | none => (w, .none)
    | some u => (w, .presented (u.show O nonces rng entropy).1)

/-- The world after a history, starting from nothing. -/
def World.run {R : Type} [RngCore R] (O : Oracle) (acts : List (Action G R)) : World G :=
  acts.foldl (fun w a => (w.step O a).1) ⟨[], []⟩

/-- A user with these parameters accepts this issuance: the stated proof verifies. -/
def Spec.Accepts (O : Oracle) (u : User G) (c : CredentialIssuance G) : Prop :=
  ∃ X, u.issuerParameters.Xn[0]? = some X ∧
    IssuanceRevealed.verify O [.init "AEONFLUX ISSUANCE"] c.proof
      ⟨c.credential.mac.nonce, c.credential.mac.mac, c.secretKeyCommitment, u.systemParameters.g,
        u.systemParameters.h, X⟩ = true

/-- The number of users created in a history. -/
def Spec.usersCreated {R : Type} : List (Action G R) → ℕ
  | [] => 0
  | .createUser _ _ _ :: as => Spec.usersCreated as + 1
  | _ :: as => Spec.usersCreated as

/-- The last delivery to user `n` that this user accepted, if it existed then, carried `c`. -/
def Spec.LastAccepted {R : Type} (O : Oracle) (acts : List (Action G R)) (n : ℕ) (u : User G)
    (iss : CredentialIssuance G) : Prop :=
  ∃ pre post, acts = pre ++ .deliver n (some iss) :: post ∧ n < Spec.usersCreated pre ∧
    Spec.Accepts O u iss ∧ ∀ iss', .deliver n (some iss') ∈ post → ¬ Spec.Accepts O u iss'

omit [AddCommGroup G] [Module F G] [Ristretto G] in
theorem usersCreated_append {R : Type} : ∀ (as bs : List (Action G R)),
    Spec.usersCreated (as ++ bs) = Spec.usersCreated as + Spec.usersCreated bs
  | [], _ => by simp [Spec.usersCreated]
  | a :: as, bs => by
    cases a <;> simp only [List.cons_append, Spec.usersCreated, usersCreated_append as bs]
    omega

theorem run_append {R : Type} [RngCore R] (O : Oracle) (as : List (Action G R)) (a : Action G R) :
    World.run O (as ++ [a]) = ((World.run O as).step O a).1 := by
  simp [World.run]

theorem accepts_iff (O : Oracle) (u : User G) (c : CredentialIssuance G) :
    (u.obtainFinish O (some c)).1 = .ok () ↔ Spec.Accepts O u c := by
  rw [(C34_outcomes O u (some c)).1]
  constructor
  · rintro ⟨_, X, h1, h2, h3⟩
    cases h1
    exact ⟨X, h2, h3⟩
  · rintro ⟨X, h2, h3⟩
    exact ⟨c, X, rfl, h2, h3⟩

/-- Appending a step that delivers nothing accepted to `n` leaves the last accepted issuance alone. -/
theorem lastAccepted_append {R : Type} {O : Oracle} {acts : List (Action G R)} {n : ℕ} {u : User G}
    {iss : CredentialIssuance G} {a : Action G R}
    (ha : ∀ iss', a = .deliver n (some iss') →
      ¬ (Spec.Accepts O u iss' ∧ n < Spec.usersCreated acts)) :
    Spec.LastAccepted O (acts ++ [a]) n u iss ↔ Spec.LastAccepted O acts n u iss := by
  constructor
  · rintro ⟨pre, post, h1, h2, h3, h4⟩
    rcases List.eq_nil_or_concat post with rfl | ⟨post', b, rfl⟩
    · obtain ⟨rfl, h5⟩ := List.append_inj' h1 rfl
      cases h5
      exact absurd ⟨h3, h2⟩ (ha iss rfl)
    · have h5 : acts ++ [a] = (pre ++ .deliver n (some iss) :: post') ++ [b] := by
        rw [h1]; simp
      obtain ⟨rfl, h6⟩ := List.append_inj' h5 rfl
      exact ⟨pre, post', rfl, h2, h3, fun iss' h => h4 iss' (by simp [h])⟩
  · rintro ⟨pre, post, rfl, h2, h3, h4⟩
    refine ⟨pre, post ++ [a], by simp, h2, h3, ?_⟩
    intro iss' h
    rw [List.mem_append, List.mem_singleton] at h
    rcases h with h | h
    · exact h4 iss' h
    · intro h5
      refine ha iss' h.symm ⟨h5, ?_⟩
      rw [usersCreated_append]
      omega

/-- The number of users is the number of `createUser` steps. -/
theorem users_length {R : Type} [RngCore R] (O : Oracle) (acts : List (Action G R)) :
    (World.run O acts).users.length = Spec.usersCreated acts := by
  induction acts using List.reverseRecOn with
  | nil => rfl
  | append_singleton as a ih =>
    rw [run_append, usersCreated_append, ← ih]
    cases a with
    | createIssuer => rfl
    | createUser => simp [World.step, Spec.usersCreated]
    | issue k => simp only [World.step]; split <;> rfl
    | deliver n =>
      simp only [World.step]
      split
      · rfl
      · simp [Spec.usersCreated]
    | present n => simp only [World.step]; split <;> rfl

/-- In every history, what a user holds is exactly the credential of the last issuance delivered to
it that it accepted. In particular it holds one exactly if some delivery was accepted. -/
theorem C61_credential {R : Type} [RngCore R] (O : Oracle) (acts : List (Action G R)) :
    ∀ (n : ℕ) (u : User G), (World.run O acts).users[n]? = some u →
      ∀ c, u.credential = some c ↔ ∃ iss, Spec.LastAccepted O acts n u iss ∧ iss.credential = c := by
  induction acts using List.reverseRecOn with
  | nil => intro n u h; simp [World.run] at h
  | append_singleton as a ih =>
    intro n u hu c
    have hlen := users_length O as
    rw [run_append] at hu
    have same : (World.run O as).users[n]? = some u →
        (∀ iss', a ≠ .deliver n (some iss') ∨ ¬ Spec.Accepts O u iss') →
        (u.credential = some c ↔
          ∃ iss, Spec.LastAccepted O (as ++ [a]) n u iss ∧ iss.credential = c) := by
      intro h1 h2
      rw [ih n u h1 c]
      refine exists_congr fun iss => and_congr_left fun _ => (lastAccepted_append ?_).symm
      intro iss' h3 h4
      rcases h2 iss' with h5 | h5
      · exact h5 h3
      · exact h5 h4.1
    cases a with
    | createIssuer => exact same hu fun _ => .inl nofun
    | issue k rq rng e =>
      refine same ?_ fun _ => .inl nofun
      simp only [World.step] at hu
      split at hu <;> exact hu
    | present k z rng e =>
      refine same ?_ fun _ => .inl nofun
      simp only [World.step] at hu
      split at hu <;> exact hu
    | createUser sp ip key =>
      simp only [World.step] at hu
      by_cases hn : n < (World.run O as).users.length
      · rw [List.getElem?_append_left hn] at hu
        exact same hu fun _ => .inl nofun
      · have hn' : n = (World.run O as).users.length := by
          have := (List.getElem?_eq_some_iff.1 hu).1
          simp at this
          omega
        subst hn'
        simp at hu
        subst hu
        constructor
        · nofun
        · rintro ⟨iss, ⟨pre, post, h1, h2, _⟩, _⟩
          exfalso
          have h3 : Spec.usersCreated pre + Spec.usersCreated post = Spec.usersCreated as + 1 := by
            have := congrArg Spec.usersCreated h1
            simp only [usersCreated_append, Spec.usersCreated] at this
            omega
          have h4 : post ≠ [] := by
            rintro rfl
            obtain ⟨_, h5⟩ := List.append_inj' h1 rfl
            cases h5
          obtain ⟨post', b, rfl⟩ := (List.eq_nil_or_concat post).resolve_left h4
          have h5 : as ++ [Action.createUser sp ip key] =
              (pre ++ .deliver (World.run O as).users.length (some iss) :: post') ++ [b] := by
            rw [h1]; simp
          obtain ⟨h6, _⟩ := List.append_inj' h5 rfl
          have := congrArg Spec.usersCreated h6
          rw [usersCreated_append] at this
          omega
    | deliver k o =>
      simp only [World.step] at hu
      cases hk : (World.run O as).users[k]? with
      | none =>
        rw [hk] at hu
        refine same hu fun iss' => .inl ?_
        rintro h
        cases h
        rw [hk] at hu
        cases hu
      | some v =>
        rw [hk] at hu
        dsimp only at hu
        by_cases hnk : k = n
        · subst hnk
          have hlt := (List.getElem?_eq_some_iff.1 hk).1
          rw [List.getElem?_set_self hlt] at hu
          cases hu
          rcases C34_all_or_nothing O v o with ⟨d, rfl, h1⟩ | h1 | h1
          · rw [h1]
            have hacc : Spec.Accepts O v d := (accepts_iff O v d).1 (by rw [h1])
            constructor
            · intro h
              cases h
              exact ⟨d, ⟨as, [], rfl, by omega, hacc, by simp⟩, rfl⟩
            · rintro ⟨iss, ⟨pre, post, h2, h3, h4, h5⟩, h6⟩
              rcases List.eq_nil_or_concat post with rfl | ⟨post', b, rfl⟩
              · obtain ⟨_, h7⟩ := List.append_inj' h2 rfl
                cases h7
                rw [← h6]
              · have h7 : as ++ [Action.deliver k (some d)] =
                    (pre ++ .deliver k (some iss) :: post') ++ [b] := by
                  rw [h2]; simp
                obtain ⟨_, h8⟩ := List.append_inj' h7 rfl
                cases h8
                exact absurd hacc (h5 d (by simp))
          all_goals
            rw [h1] at same ⊢
            refine same hk fun iss' => ?_
            by_cases h2 : o = some iss'
            · right
              intro h3
              have h4 := (accepts_iff O v iss').2 h3
              rw [← h2, h1] at h4
              cases h4
            · left
              intro h3
              cases h3
              exact h2 rfl
        · rw [List.getElem?_set_ne hnk] at hu
          refine same hu fun iss' => .inl ?_
          intro h
          cases h
          exact hnk rfl

/-- A user's parameters and ElGamal key never change, and users never disappear. -/
theorem C61_parameters_fixed {R : Type} [RngCore R] (O : Oracle) (acts more : List (Action G R))
    (n : ℕ) (u : User G) (hu : (World.run O acts).users[n]? = some u) :
    ∃ u', (World.run O (acts ++ more)).users[n]? = some u' ∧
      u'.systemParameters = u.systemParameters ∧ u'.issuerParameters = u.issuerParameters ∧
      u'.key = u.key := by
  induction more using List.reverseRecOn with
  | nil => exact ⟨u, by simpa using hu, rfl, rfl, rfl⟩
  | append_singleton as a ih =>
    obtain ⟨v, h1, h2⟩ := ih
    rw [← List.append_assoc, run_append]
    have hlt := (List.getElem?_eq_some_iff.1 h1).1
    cases a with
    | createIssuer => exact ⟨v, h1, h2⟩
    | createUser => exact ⟨v, by simp only [World.step]; rw [List.getElem?_append_left hlt, h1], h2⟩
    | issue => refine ⟨v, ?_, h2⟩; simp only [World.step]; split <;> exact h1
    | present => refine ⟨v, ?_, h2⟩; simp only [World.step]; split <;> exact h1
    | deliver k o =>
      simp only [World.step]
      cases hk : (World.run O (acts ++ as)).users[k]? with
      | none => exact ⟨v, h1, h2⟩
      | some x =>
        dsimp only
        by_cases hnk : k = n
        · subst hnk
          rw [hk] at h1
          cases h1
          refine ⟨_, List.getElem?_set_self hlt, ?_⟩
          rcases C34_all_or_nothing O v o with ⟨d, rfl, h3⟩ | h3 | h3 <;> rw [h3] <;> exact h2
        · exact ⟨v, by rw [List.getElem?_set_ne hnk, h1], h2⟩

/-- Every issuer in existence was made by `Issuer::create`, so its public key matches its secret. -/
theorem C61_issuers_match {R : Type} [RngCore R] (O : Oracle) (acts : List (Action G R)) :
    ∀ i ∈ (World.run O acts).issuers, Spec.KeypairMatches i := by
  induction acts using List.reverseRecOn with
  | nil => intro i h; simp [World.run] at h
  | append_singleton as a ih =>
    rw [run_append]
    cases a with
    | createIssuer sp r =>
      intro i hi
      simp only [World.step, List.mem_append, List.mem_singleton] at hi
      rcases hi with hi | rfl
      · exact ih i hi
      · exact (C33_created_matches sp r).1
    | createUser => exact ih
    | issue => simp only [World.step]; split <;> exact ih
    | deliver => simp only [World.step]; split <;> exact ih
    | present => simp only [World.step]; split <;> exact ih

/-- At any time in any history: a user who holds a credential and was only ever sent issuances made
by issuer `i` (for one attribute) presents successfully, and `i` accepts. Nothing is assumed about
what other users were sent. -/
theorem C61_present {R : Type} [RngCore R] (O : Oracle) (acts : List (Action G R)) (n : ℕ) (u : User G)
    (hu : (World.run O acts).users[n]? = some u) (i : Issuer G) (hi : i ∈ (World.run O acts).issuers)
    (hsp : u.systemParameters = i.systemParameters)
    (hip : u.issuerParameters = i.getIssuerParameters)
    (honest : ∀ iss, .deliver n (some iss) ∈ acts →
      ∃ (m : Scalar) (rng : R) (e : Bytes), (i.issue O ⟨[m]⟩ rng e).1 = .ok iss)
    (hc : u.credential ≠ none) (z : Scalar) (rng : R) (e : Bytes) :
    ∃ p, ((World.run O acts).step O (.present n [z] rng e)).2 = .presented (.ok p) ∧
      i.verify O p = .ok ⟨p⟩ := by
  obtain ⟨c, hc⟩ := Option.ne_none_iff_exists'.1 hc
  obtain ⟨iss, ⟨pre, post, h1, h2, h3, h4⟩, h5⟩ := (C61_credential O acts n u hu c).1 hc
  obtain ⟨m, rng0, e0, h6⟩ := honest iss (by rw [h1]; simp)
  have hm := C61_issuers_match O acts i hi
  obtain ⟨d, h7, _, _, h8⟩ := C33_honest_accepted O hm m rng0 e0 u hsp hip
  rw [h6] at h7
  cases h7
  have hu' : { u with credential := some iss.credential } = u := by
    rw [h5, ← hc]
  rw [hu'] at h8
  obtain ⟨p, h9, h10⟩ := C38_issued O O hm hsp hip m rng0 e0 h6 h8 z rng e
  refine ⟨p, ?_, h10⟩
  simp only [World.step, hu, h9]

/-- Presenting changes nothing, even a failed one; nor does issuing. -/
theorem C61_read_only {R : Type} [RngCore R] (O : Oracle) (w : World G) (n : ℕ) (zs : List Scalar)
    (rq : CredentialRequest) (rng : R) (e : Bytes) :
    (w.step O (.present n zs rng e)).1 = w ∧ (w.step O (.issue n rq rng e)).1 = w := by
  simp only [World.step]
  constructor <;> split <;> rfl

/-- A delivery to one user never affects another. -/
theorem C61_isolated {R : Type} [RngCore R] (O : Oracle) (w : World G) (n k : ℕ) (hnk : n ≠ k)
    (o : Option (CredentialIssuance G)) :
    (w.step O (.deliver n o : Action G R)).1.users[k]? = w.users[k]? := by
  simp only [World.step]
  split
  · rfl
  · exact List.getElem?_set_ne hnk

/-- A concrete history: two users, one issuance, a junk delivery to each. -/
example : ∃ (acts : List (Action F ToyRng)) (u v : User F) (i : Issuer F),
    (World.run toyOracle acts).users[0]? = some u ∧ (World.run toyOracle acts).users[1]? = some v ∧
    i ∈ (World.run toyOracle acts).issuers ∧ u.credential ≠ none ∧ v.credential = none := by
  obtain ⟨i, hi⟩ : ∃ i, i = (Issuer.create (⟨1, 2⟩ : SystemParameters F) (⟨0⟩ : ToyRng)).1 := ⟨_, rfl⟩
  obtain ⟨u0, hu0⟩ : ∃ u0, u0 = User.new i.systemParameters i.getIssuerParameters none := ⟨_, rfl⟩
  obtain ⟨c, h1, _, _, h2⟩ := C33_honest_accepted toyOracle (i := i)
    (by rw [hi]; exact (C33_created_matches _ _).1)
    ⟨5, by decide⟩ (⟨0⟩ : ToyRng) [] u0 (by rw [hu0]; rfl) (by rw [hu0]; rfl)
  have h3 : User.obtainFinish toyOracle u0 none = (.err .credentialIssuance, u0) := rfl
  have h4 : u0.credential = none := by rw [hu0]; rfl
  refine ⟨[.createIssuer ⟨1, 2⟩ ⟨0⟩, .createUser i.systemParameters i.getIssuerParameters none,
    .createUser i.systemParameters i.getIssuerParameters none, .deliver 0 (some c),
    .deliver 1 none], { u0 with credential := some c.credential }, u0, i, ?_⟩
  simp only [World.run, List.foldl_cons, List.foldl_nil, World.step, List.nil_append,
    List.cons_append, List.getElem?_cons_zero, ← hu0, h2, List.set_cons_zero, ← hi,
    List.getElem?_cons_succ, h3, List.set_cons_succ]
  exact ⟨trivial, trivial, List.mem_singleton.2 rfl, nofun, h4⟩

end Verif
