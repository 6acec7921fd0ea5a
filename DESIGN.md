# Design: a machine-checked model of signal-anonymous-credentials

Source: `/repo` (Rust, pinned commit; read as text, never built).
Model and proofs: `/verif/lean` (Lean 4.33.0, Mathlib modules imported one at a time).
Property list: `/verif/properties.jsonl`. Status per property: `/verif/MANIFEST.json`.

This file was written before the proofs. Sections marked *(updated)* are kept current afterwards.

## 1. What the system does

`aeonflux` is a keyed-verification anonymous credential library (CMZ'13 `MAC_GGM`).
An issuer holds a secret key `(x0, x1..xn)` and publishes `Xi = xi*h`. It issues a MAC
`(P, Q) = (P, (x0 + sum xi*mi)*P)` on attributes `mi`, with a Schnorr proof. A user stores it and
later presents it: it rerandomises the MAC, commits to the attribute, and proves knowledge.
`signal-credential` specialises this to one attribute, a phone number, and adds roster entries
(Pedersen commitments to numbers) and a proof that the number in the roster is the credential's.
`ffi`, `wasm` and `swift` wrap these as byte-buffer APIs.

## 2. Model

### 2.1 Conventions

* `Res e a` = `ok a | err e | panic`. Rust `Result` becomes `ok/err`; every panic (slice index,
  `copy_from_slice`, `assert!`, `unwrap`, arithmetic overflow in debug builds, capacity overflow)
  becomes the explicit value `panic`. Proving `f x ≠ panic` is proving absence of panics.
* Bytes are `List UInt8`. `&mut` arguments become returned values. Functions that draw from an RNG
  return the new RNG state.
* The model is written function by function; each definition's doc comment cites file and lines.

### 2.2 External code: parameters and hypotheses (never axioms)

| external | model | assumed |
|---|---|---|
| curve25519-dalek `Scalar` | a number `< 2^255` (the 32-byte little-endian representation), with arithmetic through `ZMod l` and reduced results | group order `l` is proved prime in Lean |
| curve25519-dalek `RistrettoPoint` | class `Ristretto G`: an abelian group with a `ZMod l`-module structure, generator `base ≠ 0` spanning `G`, `enc`/`dec` | `enc` gives 32 bytes; `dec (enc p) = some p`; `dec b = some p -> enc p = b`; `enc 0 = 0^32` |
| merlin `Transcript` | list of operations; class `Merlin` = an arbitrary function from the operation list to challenge bytes / RNG bytes of the requested length | only the output length |
| `RngCore` implementors | class with arbitrary `fill : R -> Nat -> Bytes × R` | only the output length |
| `rand::thread_rng()` inside `Proof::create` | an explicit universally quantified entropy argument | nothing |
| `ChaChaRng::from_seed` (ffi `SignalRng`) | an arbitrary function `seed -> R` | nothing |
| bincode 1 + serde derive | modelled explicitly (8-byte LE length prefix + bytes for scalars; fields in order; trailing bytes ignored by `bincode::deserialize`) | this is how bincode 1 and dalek's serde impl behave |
| `subtle`, `clear_on_drop` | constant-time equality = equality; `clear()` writes zero | — |

The hypotheses are consistent: a toy instance `G = ZMod l` with a concrete transcript oracle and
RNG is given in Lean, and `example`s next to the theorems instantiate them.

The hypotheses on the group hold of the real one *(updated)*. `Verif/Curve` constructs Ristretto255 from
the field of `2^255 - 19` elements up: the curve and its group law, the number of its points, the
encoding and decoding algorithms, and `instance : Ristretto Ristretto255`. So every theorem about an
arbitrary `G` is also a theorem about Ristretto255, with no hypothesis left. C72 says what the accepted
byte strings are.

### 2.2.1 Checking the model against the repository's own data *(updated)*

`Verif/Concrete` has executable versions of merlin 0.2 (Keccak, STROBE-128) and ChaCha20, and
`Verif/Curve/Pt.lean` an executable copy of Ristretto255. `Verif/Vectors` runs the model of the C
interface with these, inside the kernel, on the byte arrays in the tests of `ffi/src/c.rs:290-377`:

* `SEED` gives `SYSTEM_PARAMETERS`, `ISSUER_KEYPAIR` and `ISSUER_PARAMETERS`;
* `issuer_issue` gives the first 128 bytes of `ISSUANCE`, and `user_show` with
  `roster_entry_commitment_create` the first 128 bytes of `PRESENTATION` (the proofs after that depend
  on operating-system entropy), both of the right total length;
* `user_obtain_finish` accepts `ISSUANCE` and gives `USER_WITH_CREDENTIAL`;
* `issuer_verify` and `issuer_verify_roster_membership` accept `PRESENTATION`, and reject it with a bit
  changed.

These are tests, not proofs of properties; they are not in the manifest. What they test is the hand
translation: the order and labels of transcript items, the field layout, endianness, which generator
goes with which scalar, and how many random bytes are drawn where. The arrays were made by the Rust code.

### 2.3 Which code is modelled

| file | modelled | not modelled |
|---|---|---|
| `aeonflux/src/amacs.rs` | Message, Tag, PublicKey, SecretKey, Keypair, Rerandomization, all functions incl. Drop and the conversions (SHA-512 is a parameter, C75) | Debug/Clone |
| `aeonflux/src/credential.rs` | all codecs and types | blinded-issuance types without functions |
| `aeonflux/src/issuer.rs` | all | — |
| `aeonflux/src/user.rs` | from_bytes, to_bytes, new, obtain, obtain_finish, show | `blind_request` (unfinished: the body does not typecheck at this commit, so the crate as pinned does not build with it) |
| `aeonflux/src/nonces.rs`, `pedersen.rs`, `parameters.rs`, `elgamal.rs`, `errors.rs` | all functions and operators | Debug/Clone |
| `aeonflux/src/proofs.rs` | five proof systems, create and verify, transcript order included | serde visitor details beyond bincode layout |
| `aeonflux/src/proofs_macros.rs` | the declared statements, as an independent specification | macro mechanics |
| `aeonflux/src/macros.rs` | the serde impls through bincode (`Serde`, C69) and through JSON (C57) | other serde formats |
| `signal-credential/src/*.rs` | all codecs, issuer, user, phone numbers, roster entries | — |
| `ffi/src/c.rs`, `macros.rs` | all 12 exported functions, over a memory model; what they print (`Print`, C102) | — |
| `wasm/src/js.rs` | all nine functions; values pass through the JSON data model (C57) | wasm-bindgen internals |
| `wasm/src/credential.js` | the handle table and the nine wrappers (C79, C80) | module loading (`init`) |
| `swift/Credential/Credential.swift` | all initialisers and functions, calling the C model (C58) | Foundation types beyond byte arrays |
| the tests in `aeonflux/src`, `signal-credential/src`, `signal-credential/tests`, `build-test/maths` | all, as programs (`Tests`, C98) | — |
| `build-test` (`maths`, `alloc`, `ios` with its Swift classes) | all functions (`BuildTest`, C99) | UIKit; `electron` (shows the same point with `alert`) |
| `signal-credential/benches` | no (they measure time, and use types and functions the pinned code does not have) | |
| java, JNI, `build-test/aos` | no (empty or scaffolding) | |

Out of scope everywhere: timing/side channels, compiler behaviour, the curve and hash
implementations inside the external crates, memory exhaustion (allocation failure, except in C99), integer width of `usize` except where a
computation can wrap (`Keypair::from_bytes`, taken as 64-bit, and the same for other sizes by `C05_width`; what wraps is in `C05_wraps`).

### 2.4 Module layout

* `Verif/Basic.lean` — `Res`, bytes, little-endian numbers, slices.
* `Verif/Prime.lean` — `l` is prime (kernel-checked certificate).
* `Verif/Scalar.lean`, `Group.lean`, `Merlin.lean` — externals.
* `Verif/Model/*.lean` — the code: `Amacs`, `Parameters` (with pedersen, elgamal, nonces), `Proofs`,
  `Bincode`, `Credential`, `Issuer`, `User`, `PhoneNumber`, `Signal`, `Errors`, `Memory` (Drop), `Print` (`println!`), `Width` (`usize` of other sizes),
  `Ffi` (C interface over a memory), `Wasm`, `Glue` (the generated JavaScript), `Swift`, `Serde`, `Conversions` (error texts, `From`, `Index`, `len`),
  `BuildTest`, `Tests` (the repository's tests).
* `Verif/Lemmas/*.lean` — helper lemmas.
* `Verif/Toy.lean` — concrete instance for non-vacuity examples.
* `Verif/Curve/*.lean` — Ristretto255; `Verif/Concrete/*.lean` — merlin and ChaCha20, executable;
  `Verif/Vectors/*.lean` — the repository's test data (2.2.1).
* `Verif/Props/*.lean` — the property theorems, with `example`s:
  `CodecBasic`, `CodecComposite`, `CodecTables` (C01–C15), `Phone` (C16–C20), `Mac` (C21–C25),
  `Commit` (C26–C28), `Nizk`, `NizkQuery`, `NizkWi` (C29–C32, C63, C64), `Issuance` (C33–C36, C46),
  `Show` (C37–C40, C47), `Soundness` (C41, C42, C45), `Unlinkable` (C43, C44), `Params` (C48–C50),
  `FfiArgs`, `FfiBuffers`, `FfiChain`, `FfiPanic` (C51–C56, C65), `Wasm` (C57), `Swift` (C58),
  `Erase` (C59), `Errors` (C60), `History` (C61), `Unforge` (C62), `ProofRng` (C66), `Draws` (C67),
  `BlindIssuance` (C68), `Serde` (C69), `PresentAgm` (C70), `Persist` (C71),
  `Group255` (C72), `Hunt` (C73), `Conversions` (C74, C75), `Reveal` (C76), `Faithful` (C77),
  `Knowledge` (C78, with the forking lemma in `Lemmas/Forking`), `Glue` (C79, C80),
  `ZeroKnowledge` (C81, with the game in `Lemmas/Simulation`), `Simulatable` (C82, C83),
  `Attack` (C84), `Tagging` (C85, C86), `Coins` (C87, with `Lemmas/Bias`),
  `Code` (C88, with `Lemmas/Program`), `Forge` (C89), `Ddh` (C90), `Replay` (C91), `Reseed` (C92),
  `Reduction`, `Intruder` (C93), `Watching`, `Deputy`, `Echo`, `Onlooker`, `Spy` (C94),
  `Setup` (C95), `Sketch`, `Applicant`, `Agent` (C96), `Generic` (C97), `Tests` (C98), `BuildTest` (C99),
  `Shared` (C100), `Equality` (C101), `Print` (C102), `Theft`, `Gang`, `Heist` (C103), `Mint`, `Bystander`, `Coiner` (C104),
  `Consortium`, `Syndicate`, `Guild`, `Cartel` (C105), `Texts` (C106), `Crowd` (C107), `Denial` (C108), `Recall` (C109),
  `Width` (C05 for other sizes of `usize`).

## 3. Per-property plan

Notation: "refute" = the property as stated is false of the code; a theorem with a concrete witness
shows the negation, and a `_partial` theorem gives the strongest true weakening.

* **C01–C03** iff characterisations of `Ok`, exact error value otherwise, `≠ panic`; from the point
  codec laws and a chunking lemma.
* **C04** iff; refuted at the empty input (`with_capacity(0/32 - 1)`): panics; partial: every
  non-empty input.
* **C05** with a `Bool` for overflow checks; refuted for inputs shorter than 32 bytes in debug builds
  and (secret part) see C04; characterisation of the accepted lengths (32+64a).
* **C06** total, iff; **C07** iff with a specification of the 96-byte layout.
* **C08, C09, C10** bincode layout; iff "begins with a serialisation" (trailing bytes are ignored);
  panics for short inputs refute the no-panic half for C08 and C09; C10 total.
* **C11** round-trip iff the key blocks are non-zero and the sizes are one; refuted in general by the
  all-zero sentinel; for phone-number users proved via C18.
* **C12, C13** iff characterisations, panics characterised by length.
* **C14** refuted by exact panic tables per decoder, partial: the total decoders.
* **C15** refuted by trailing bytes / high bit; partial: list of injective decoders.
* **C16** exact classification by length (refuted at 28..32: panic). **C17, C18** arithmetic: layout
  value `< 2^l`-bounds and a mod-`l` argument. **C19** exact range 1..26; refuted at 0 and 27.
  **C20** injective on digit strings; refuted for non-digits (all map to 15).
* **C21** accepts iff nonce ≠ basepoint; refuted at nonce scalar 1. **C22** iff. **C23** refuted
  (identity tag, wrong length). **C24** module algebra. **C25** refuted: same seed shares the nonce,
  explicit forgery formula. **C26–C28** module algebra; hiding as a bijection/PMF equality.
* **C29–C31, C63** per proof module, then against an independent generic "linear relation" spec
  taken from the macros. Special soundness with two oracles agreeing on all but the last query.
* **C32** injectivity of the operation list.
* **C33–C35** composition; C35's extraction via C30; attribute binding refuted with a malicious
  issuance. **C36** refuted with two keys with the same published parameters.
* **C37–C40** composition. **C41** refuted by the identity-nonce forgery; partial: extraction when
  `P ≠ 0`. **C42** extraction. **C43** bijection on random tapes, lifted to distributions.
  **C44** algebra. **C45** refuted. **C46–C49** case analysis. **C50** counting.
* **C51–C56** over a memory model with allocation/deallocation. **C57, C58** small models; refuted.
* **C59, C60** direct; **C61** inductive invariant over a transition system; **C62** polynomial
  identity argument with symbolic keys and nonces.
* **C66, C67** equality with an independent list of generator reads. **C68** refuted by an explicit
  malicious issuer; algebra for the repaired statement. **C70** as C62, with hash queries answered from a
  random tape: for each query at most one answer allows a bad presentation, by comparing coefficients. **C69** from C01–C13 by a framing lemma.
  **C71** simulation between two worlds that share one step function and differ in how objects are kept.
* **C72** from the construction of Ristretto255: the decoder accepts exactly the strings that satisfy the
  defining equations, counted through the bijection with the group. **C73** counting random tapes; two
  outcomes are exchanged by a permutation of the blocks.
* **C74, C75** case tables; refuted where a text names the wrong fact. **C76** exact description of `verify`
  on every presentation; refuted by a forged one. **C77** every call of the three outer interfaces answers a
  request of an independent list, by case analysis over the calls.
* **C78** the forking lemma by counting tapes: a spliced tape is as uniform as a tape, Cauchy–Schwarz gives the
  square, C50 the probability of a repeated challenge. For two proofs at once, successes that are rarely
  repeated are rare ("heavy rows"). C30 turns the two runs into secrets, C32 makes their publics equal.
* **C79** invariant of the handle table (its free list is a path through all free entries that ends at the
  length). **C80** the nine wrappers have one common form; then induction over arguments.
* **C81** one proof at a time is replaced: for each challenge the honest coins and the simulated responses are in
  bijection (C31), and no query is more likely than `1/l`, so it is rarely an old one; induction over the observer.
  **C82, C83** C81 for each proof, then a bijection of the blinding values with uniform points.
* **C84** the honest provers are replaced by simulators as in C82, C83 (at most `n(2q+2n)/l`, where a query is now
  old with small probability because logarithms of the elements are polynomials in the unknowns); then as C70, but
  over queries that contain the adversary's combinations, each of which is decided by its coefficients or has
  few roots.
* **C85** C76 says which query each issuer makes; by C32 equal queries have equal public values, and these contain
  the key. **C86** refute: C36 for the users' acceptance, and the game of C82 with an observer that repeats the
  check of C85; its query is new unless the blinding is zero. The rest is C82 for each fitting key.
* **C87** C50 gives the distance for one scalar; it adds up over independent draws and over the steps of the games
  of C81–C84 and C86.
* **C88** write the two functions as programs of draws, reads of generators and hash queries; show that the model's
  functions are these programs for every hash and generator; no program repeats a read, and each read has a key that
  nobody knows, so it gives fresh bytes unless a key is guessed or two keys collide; then C87, C82, C83.
* **C89** the programs of C88 in the game of C84, as there replaced by fresh uniform scalars. C84 draws all unknowns
  first and knows no generators; drawing each unknown when it is first used changes no probability, and neither does
  packing both random functions into one, so that a read is a hash query that no prover or verifier makes.
* **C90** from one Diffie–Hellman triple make a new one with the same first element for each encryption; random triples
  give random ciphertexts. The converse uses an encryption of the identity, or of a random element, as the triple.
* **C91** refute: a message that was seen is sent again; completeness (C29) says that it is accepted. Partial: C84,
  where without issuances only the exact copy remains.
* **C92** refute: the blinding values depend on the seed only, so a repeated seed gives repeated elements. Partial:
  replace the proofs by simulated ones for given blinding values, then average over the values of each seed.
* **C93** issuances are replaced by simulated ones made from MACs; all randomness is put on a tape with one cell per
  step; fork twice (`Fork.double`), at the query that decides the presentation proof and at the one that decides the
  roster proof. The algorithm cannot compute the first query (it contains the issuer's secret key), so
  it guesses both places. From the two extracted openings: a MAC on the number, or a multiple of `h` that equals `P`
  and turns the MAC into one on the number, or two openings of the roster entry. The converse presents the forged MAC.
  For the code with its own generators: C88 for the issuer, and reads packed into hash queries as in C89.
* **C94** two kinds of success. If the claim's roster proof does not use the hash query of a presentation that was seen,
  presentations are replaced by ones for a number of the adversary's own: the adversary gets a number outside `V`
  issued, proves possession of it honestly, and simulates the roster proof (`Deputy`); C93 applies. If it does use such a
  query, the nonce and the commitment are those of a presentation, for which the algorithm knows a
  representation; fork once at the query of the first proof, and compare the openings (`Echo`): the logarithm of `h`,
  or the claim is a copy. There the presentations are simulated altogether, from random representations in `g` and
  `h`, with the issuer's secret key, which the algorithm chooses itself.
* **C95** count the tapes on which `hunt_and_peck` returns each element (C73); swap the identity and the base point to
  pass from elements other than the base point to elements other than the identity; C50 for the keys; then C94.
* **C96** the issuer's answers to submitted bytes depend on two hash queries only, of which the first contains two elements
  of the form `x0·U + x1·C + W` with known `U`, `C`, `W`. So the algorithms of C94 run the adversary with transcripts
  that are known up to the key (`Sketch`), and compare them, where needed, by asking for the truth of equations in the
  key. If the answers are right this is C94 for an adversary that knows the key, to which the lemmas behind C93 and C94
  apply, as they let the adversary depend on the key.
* **C97** follow the answers that comparisons and equations have for almost all keys (polynomials in the hidden logarithms,
  as in C62, of degree two and three); the tags' nonces are drawn at the beginning instead of one by one.
* **C98** write the tests as programs whose failing assertions panic, with the generator's state before each call as a
  parameter; compute each of them with the theorems on MACs (C21, C22), codecs (C01, C09–C11), completeness (C33, C38, C39).
  The bytes in the tests are decoded in the constructed group (C72).
* **C99** memory as in C53, with `malloc` as any function that returns blocks not in use. Refute that the calls can be
  repeated: the number of addresses in use grows by 33 with each.
* **C100** for separate seeds as C82, with random entries too. For one seed, put a triple into entry and presentation as in
  C90; proofs are simulated by the algorithm itself, which keeps the list of hash queries.
* **C101** the blocks have fixed lengths, so equal encodings are equal lists of blocks. Refute it where two lists follow each
  other without a count (key pairs, presentations), where zeros stand for "none" (users) and where scalars are reduced
  (proofs), give the exact relation there, and prove it for values that were decoded.
* **C102** repeat the functions on the way to a `println!` with the lines as part of the result, and show that the results are
  those of the model without printing. Then a property of lines that is preserved by sequencing. Refute the claim
  with arguments passed in the wrong place.
* **C103** an adversary is one of C94 that knows the key and presents for the entry of the member that it watches. As there, a
  success either uses the second hash query of a presentation that was seen, which gives the logarithm of `h` (`Echo`), or it
  does not; then fork at that query, with presentations simulated from the entry alone, and extract an opening. The converse
  makes a MAC with the issuer's key. For `N` users, guess whose entry will be used and play the others, which is possible
  as the adversary knows the issuer's key; success is at most the sum over the guesses. For the program as a whole: C88 for
  the owners, C50 for the openings, C95 for parameters and keys.
* **C104** an adversary of C93 that sends an issuance. Either the user's hash query is that of an issuance that was received;
  then the public values are the same, and two different sets of responses give the logarithm of `h` to the base `g`. Or it is
  not; then fork at that query, with tags made from the public key and issuances simulated from the tags, and extract `x1`.
  Presentations that the adversary watches are acted: from `x0`, the public key and the roster entry, with the answers to
  their two hash queries fixed. As these are not queries of issuances, the fork is not affected. For the program as a whole:
  C88, C95.
* **C105** guess the issuer that will be attacked, play the other issuers and their users with keys of one's own, and give up
  if the guess was wrong or that issuer is corrupted; the success is at most the sum over the guesses of that in C94 or C104.
  For the program as a whole: C88 for the programs of all parties, C95 for parameters and `N` keys. With presentations that
  get checked: the checks of the other issuers are played as well, and those of that issuer are the ones of C96.
* **C106** write out the texts and compare each with an independent condition on the input, from the tables of C01 to C07, C22,
  C34, C37, C46, C47 and C60; refuted where the text names the wrong fact.
* **C107** shift the openings by the differences of the numbers times the logarithm of `h`, which keeps the entries and their
  distribution. For the same entries apply C88 to the presentations. The openings from 64 bytes are almost uniform (C87).
* **C108** a forgery is a crowd with the same keys, so C107 applies; its credentials are those of C33, accepted as in C40.
* **C109** the blinded attribute is a point plus the coin times `h`, so two of them agree with probability 1/ℓ, whatever the
  users; then a union bound over pairs. The server that remembers is part of the specification, the code has none.

## 4. Trusted base *(updated)*

* The Lean 4 kernel; the axioms `propext`, `Classical.choice`, `Quot.sound` (checked with
  `#print axioms`; no others are used, no `native_decide`, no `sorry`).
* The hypotheses in 2.2 (type class fields, visible in each theorem's instance arguments). Those about
  the group are proved for Ristretto255 (`Verif/Curve`); what is trusted is that curve25519-dalek computes
  that group. Those about the hash and the generators are only output lengths.
* The hand translation of the Rust (and Swift) functions in 2.3 into `Verif/Model`; 2.2.1 tests it.
* The behaviour of libraries as modelled: bincode 1, serde_json, `slice::from_raw_parts`,
  `Box`/`Vec` allocation in `Ffi` (a platform record with arbitrary allocator and word size), and
  Swift's array-to-pointer passing (`Swift.Runtime`). In `Glue` the WebAssembly calls made by
  wasm-bindgen's generated Rust code (reading, dropping and making handles) are as its documentation says.
* In C78, C81–C84 and C86 merlin's challenges are a random oracle: 64 fresh uniform bytes for each new transcript (in
  C81–C84 and C86 chosen by the simulator for its own proofs). C30, C35,
  C41, C42 assume the two runs that C78 produces.
* In distribution statements (C27, C28, C31, C43, C44, C62, C64, C70, C81–C84, C86; C73 for bytes) scalars drawn by the code are taken as
  uniform over `ZMod l`; the code reduces 64 random bytes modulo `l`. C50 bounds the difference, and C87 has the
  statements of C81–C84 and C86 for scalars drawn that way, so that only the bytes are taken as uniform. In C88
  and C89 only the bytes drawn from the outside are; the transcript generators of merlin are there a second
  random function, apart from the challenges, that the observer can evaluate.
* In C62, C70, C84 and C89 the adversary is algebraic: it gets at group elements only by linear combination,
  equality, verification, and (C84, C89) hash queries and reads of generators, in which each item is fixed bytes or
  the encoding of one combination. The scalars in the proofs that come with issuances and with other users'
  presentations are not part of its view in C62 and C70, but are in C84 and C89. In C70 hash answers are uniform over
  `ZMod l`.
* In C91 the assumptions are those of C84. In C92 the hash is a random oracle; the scalars in the proofs are uniform, and the
  blinding values are uniform for each seed, but the same for presentations with the same seed.
* In C93–C96 the adversary is not algebraic, it is any decision tree over hash answers and what it receives. The hash is a
  random oracle (64 fresh uniform bytes for each new transcript). In `C93_code`, `C94_code`, C95, `C96_code` and
  `C96_setup_bound` only bytes drawn from the
  outside are uniform, and transcript generators are a second random function. The assumptions on MACs and
  discrete logarithms are explicit hypotheses on the success probability of algorithms that are given in the statement.
  In C96 the algorithm that forges may also ask for the truth of equations `W = x0·U + x1·C` in the key, which is more than
  in C93 and C94. C97 shows these hypotheses for algorithms that use the group generically; that there are no better ones is
  the assumption. In C90 the Diffie–Hellman assumption is treated in the same way.

## 4a. Testing the theorems with wrong programs

`seeded/LOG.jsonl` has one line per edit of the model in a scratch copy. `failed_theorems` are the theorems
of properties that are no longer proved, `proofs_with_errors` those (and lemmas) in whose own proof Lean
reports the error; the others depend on them. `built` names the modules that were rebuilt when it was not
all of them; theorems elsewhere were then not tried. A failing proof does not by itself show that the
statement became false: a script can break on a harmless change. So a hit is weaker evidence than a
survival: a theorem that is still proved although its claim became false is certainly too weak, and these
are the lines with `tightened`. Lines where a claim was expected to fail and rightly did not have a `note`.
The lines `au…` are from a script that goes through the definitions of the model and tries one small edit of each (a
constant, a comparison, an operator, two arguments exchanged), stopping at the first module that no longer builds; only
proofs of that module are listed. Four edits of this kind survived at first: the limit of the handle table (now
`C79_limit`), what the phone number zero is shown as (now `C19_display`), the text of an error (now `C106_checks`), and a
conversion of errors that nothing calls (now `C106_converted`).
`th…`, `ga…`, `he…`, `mt…`, `by…`, `co…`, `sy…`, `gu…` and `ca…` edit the games of C103 to C105, `cr…`, `dn…` and `rc…` those of C107 to C109, and `tx…`
the texts of C106; `cv…`, `wi…`, `bt2…`, `pr2…`, `sw2…`, `te…` and `gl2…` edit definitions of the model that no other line edits. Of `tx…`, the limit of the length of phone numbers survived (now `C106_phone_partial`).

## 5. Findings about the code *(updated)*

The theorems behind each item are named in the manifest under the property in brackets. Roughly by severity.

Protocol:

1. **Anyone can pass verification** [C41]. `Issuer::verify` does not reject the identity as
   rerandomised nonce. With public parameters only, one can make a presentation that verifies, and that
   passes roster membership for any roster entry whose opening is known. `Verif/Vectors/Attack.lean`
   has such a presentation as 448 bytes for the issuer of the repository's tests, accepted in the kernel.
2. **Seed reuse forges** [C25]. Two issuances with the same RNG seed (the C, WASM and Swift interfaces
   take the seed from the caller) share the nonce, and then tags on any number follow by linear algebra.
3. **The issuer can tag users** [C36, C43, C86]. `x0` has no published counterpart that users compare: an
   issuer can use a different `x0` for each user, its proofs all verify, and presentations are linkable: each is
   recognised with one hash query and error at most `3/l`. Nothing else can be seen (`C86_leak_partial`).
   **Presentations can be replayed** [C91]: neither `show` nor `verify` involves a challenge, a time or the other
   party, so whoever has seen a presentation can send it again and is accepted, also as a member of the group. A copy
   must be exact, though (C84), so a server that remembers what it has accepted can refuse copies, and hardly ever
   refuses an honest user (C109). It must compare what was decoded, since `from_bytes` ignores bytes that follow.
   **A repeated seed links presentations** [C92]: the generator of `show` is keyed with the caller's bytes alone, not
   with the credential, so the same seed gives the same three group elements, and whoever knows the seed computes
   the holder's tag from a presentation. The generators of the proofs, keyed with the secrets and with system
   entropy, show how to avoid it.
4. **`obtain_finish` does not bind the attributes** [C35]. The attributes carried in an issuance are
   stored unchecked; the proof only speaks about the tag.
5. **`VerifiedSignalCredential::from_bytes` verifies nothing** [C45]: a "verified" credential can be made
   from bytes, and `verify_roster_membership` does not check the presentation again.
6. **Identity `h` is accepted as a parameter** [C44, C48]; roster entries then open to every number.
7. `attributes_blinded` never uses its nonce secret (`C30_nonce_unused`). `issuance_blinded` has two
   copies of `T0` that nothing forces to be equal, and uses `X0` where `X1` is needed, so its proof says
   nothing about what the user decrypts [C68]; the corrected statement does (`C68_repaired`).
8. Tags with the basepoint as nonce are rejected although valid [C21, C22]; identity tags are accepted on
   every message, and so are messages of the wrong length [C23].
   `Issuer::verify` counts the first revealed and the first blinded attribute for the same key element, so
   a user with a credential on any number can reveal any other value [C76]. Decoded presentations have no
   revealed attributes, so this needs a caller that passes presentations in memory.

Encodings:

9. Phone numbers of 28 to 32 bytes panic [C16], through every layer [C46, C56].
10. `SecretKey::from_bytes` panics on the empty input, `Keypair`, `CredentialIssuance`,
    `CredentialPresentation` and others on short ones [C04, C05, C08, C09, C14].
11. Trailing bytes are ignored by all bincode decoders [C08–C10, C15].
12. A user's saved state uses all-zero blocks for "absent": a zero ElGamal key, or a credential with
    zero tag and attribute, is lost on save [C11, C40]. An issuer can make a user accept the latter, who
    then can present if kept in memory and cannot if kept as bytes [C71].
13. Non-digits all map to 15, so different strings give the same number [C20].
14. Deserialising an empty byte string through serde panics for six of the types [C69].
    Errors are lost on conversion: distinct causes become one error [C60]. Error texts are wrong: the
    length a rejected key "must" have is the length it has, short phone numbers "cannot be more than 32
    bytes", and undecodable commitments are a failed "proof of roster membership" [C74]. Scalars from `l` on are said to
    have the "high-bit set" also if it is clear; a credential of 128 bytes "was not a multiple of 32 bytes"; a credential with
    an undecodable tag means that "the issuer … has no parameters", a byte too many after an issuer that it "has no secret key",
    a number or a user that is too long that data "was missing", and a byte after a tag that a point cannot be decompressed;
    a message with the wrong number of attributes "must be 2 bytes in length" if it must have 2 attributes [C106].

C interface:

15. **Every returned buffer has already been freed** [C53]: the callee drops the vector after taking
    its pointer.
16. Failure is reported by length 0 with a non-null pointer [C54].
17. The documented length for roster membership is wrong [C52]. `user_show` without a roster entry panics
    on a user shorter than 32 bytes, and `user_obtain_finish` without a number panics on a truncated
    issuance, instead of reporting the missing argument [C51]. Panics cross the C boundary [C56]. On
    32-bit platforms lengths are cut to 32 bits on the way in [C65].

WASM and Swift:

18. Values returned to JavaScript are arrays, but arguments must be strings, so no result can be passed
    back [C57]; and most encodings are not UTF-8, so no string can carry them.
19. Swift initialisers of wrong size give zero bytes rather than nil; a rejected presentation gives a
    "verified" credential of zero bytes; the size check of `IssuerParameters` uses the wrong constant, so
    real parameters become the identity and honest issuance fails [C58].

20. A call from JavaScript that panics loses the table entries of its arguments for ever, so that repeated
    bad calls exhaust the handles; `user_show` on an empty string is such a call [C80].

21. The iOS build experiment never frees the buffers it gets, and force-unwraps a null pointer, so it crashes
    when memory is used up; the zero that ends the buffer is of no use, since encodings contain zeros [C99].

Seeds, continued:

22. With the same seed for `roster_entry_commitment_create` and `user_show`, the opening of the entry blinds the attribute
    too, and who knows the logarithm of `h` can test numbers. Neither the documentation nor the types say that
    seeds must differ [C100; see also C92 for seeds used twice by `user_show`].

Encodings, continued:

23. `to_bytes` does not determine the value: key pairs and presentations do not record where one list of blocks ends and the
    next begins, saved users do not tell "none" from all zeros. Decoded values are not affected [C101].

Printing:

24. `SystemParameters::from_bytes` prints the 32 bytes that do not decode. Given a saved user instead of an issuer, that is the
    phone number, for every number of at most 26 bytes; given a roster entry instead of system parameters, it is the
    opening, if odd. `String::from(PhoneNumber)` prints, digit by digit, a number that was read in ASCII with
    `try_from_bytes`, and returns the empty string [C102].

Not findings, but positive results worth having: honest runs succeed on every path, through bytes too
(C33, C38–C40, C55); accepted presentations with a non-identity nonce come from a valid tag (C41, C42);
presentations of honestly issued credentials are unlinkable, perfectly (C43); tags cannot be forged by an
algebraic adversary, with an explicit bound (C62), and neither can presentations and roster proofs with
a non-identity nonce, also after watching other users (C70, and C84 with the proofs that users and the
issuer send); invariants hold in every history (C61),
and apart from all-zero values it makes no difference whether objects are kept as bytes (C71).
