import Verif.Concrete.Strobe

/-!
# ChaCha20 as a random number generator (external crate rand_chacha)

`ChaCha20Rng::from_seed(seed)`: 20 rounds, a 64-bit block counter from 0 and a zero nonce. Words are
handed out in order; a draw of `n` bytes consumes `⌈n / 4⌉` words.
-/

namespace Verif.Concrete

namespace ChaCha

def mask : ℕ := 2 ^ 32

def rol (a r : ℕ) : ℕ := (a <<< r ||| a >>> (32 - r)) % mask

/-- The quarter round. -/
def quarter {α : Type} (a b c d : ℕ) (k : ℕ → ℕ → ℕ → ℕ → α) : α :=
  force ((a + b) % mask) fun a =>
  force (rol (d ^^^ a) 16) fun d =>
  force ((c + d) % mask) fun c =>
  force (rol (b ^^^ c) 12) fun b =>
  force ((a + b) % mask) fun a =>
  force (rol (d ^^^ a) 8) fun d =>
  force ((c + d) % mask) fun c =>
  force (rol (b ^^^ c) 7) fun b =>
  k a b c d

/-- `n` double rounds on the sixteen words. -/
def rounds : ℕ → List ℕ → List ℕ
  | n + 1, [a0, a1, a2, a3, b0, b1, b2, b3, c0, c1, c2, c3, d0, d1, d2, d3] =>
    quarter a0 b0 c0 d0 fun a0 b0 c0 d0 =>
    quarter a1 b1 c1 d1 fun a1 b1 c1 d1 =>
    quarter a2 b2 c2 d2 fun a2 b2 c2 d2 =>
    quarter a3 b3 c3 d3 fun a3 b3 c3 d3 =>
    quarter a0 b1 c2 d3 fun a0 b1 c2 d3 =>
    quarter a1 b2 c3 d0 fun a1 b2 c3 d0 =>
    quarter a2 b3 c0 d1 fun a2 b3 c0 d1 =>
    quarter a3 b0 c1 d2 fun a3 b0 c1 d2 =>
    rounds n [a0, a1, a2, a3, b0, b1, b2, b3, c0, c1, c2, c3, d0, d1, d2, d3]
  | _, ws => ws

/-- Sums of corresponding words, evaluated. -/
def addWords : List ℕ → List ℕ → List ℕ → List ℕ
  | a :: as, b :: bs, acc => force ((a + b) % mask) fun c => addWords as bs (acc ++ [c])
  | _, _, acc => acc

/-- One 64-byte block of key stream, as sixteen words. -/
def block (seed : Bytes) (ctr : ℕ) : List ℕ :=
  let key := (List.range 8).map fun j => leVal ((seed.drop (4 * j)).take 4)
  let init := [0x61707865, 0x3320646e, 0x79622d32, 0x6b206574] ++ key
    ++ [ctr % mask, ctr / mask, 0, 0]
  addWords (rounds 10 init) init []

/-- `k` blocks of key stream from block `ctr`. -/
def blocks (seed : Bytes) (ctr : ℕ) : ℕ → List ℕ
  | 0 => []
  | k + 1 => block seed ctr ++ blocks seed (ctr + 1) k

/-- `k` words of key stream from word `pos`. -/
def words (seed : Bytes) (pos k : ℕ) : List ℕ :=
  ((blocks seed (pos / 16) ((pos % 16 + k + 15) / 16)).drop (pos % 16)).take k

/-- The first `n` bytes of a list of words, padded with zeros if there are too few. -/
def bytes (n : ℕ) : List ℕ → Bytes
  | [] => List.replicate n 0
  | w :: ws => (leBytes 4 w).take n ++ bytes (n - 4) ws

theorem bytes_length : ∀ (ws : List ℕ) (n : ℕ), (bytes n ws).length = n
  | [], n => by simp [bytes]
  | w :: ws, n => by
    rw [bytes, List.length_append, bytes_length ws, List.length_take, leBytes_length]
    omega

end ChaCha

/-- `rand_chacha::ChaCha20Rng`. -/
structure ChaChaRng where
  seed : Bytes
  pos : ℕ

instance : RngCore ChaChaRng where
  fill r n :=
    (ChaCha.bytes n (ChaCha.words r.seed r.pos ((n + 3) / 4)), ⟨r.seed, r.pos + (n + 3) / 4⟩)
  fill_length _ _ := ChaCha.bytes_length _ _

end Verif.Concrete
