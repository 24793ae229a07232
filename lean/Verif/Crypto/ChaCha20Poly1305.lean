import Verif.Basic.Bytes

/-!
# ChaCha20 and Poly1305 (RFC 8439), as computed by the crate `chacha20poly1305`

With the all-zero nonce and empty associated data, as `zcash_note_encryption` uses them.  Words are natural
numbers below `2^32`; byte strings are their little-endian integers.  Not in `/repo`.
-/

namespace Orchard.ChaCha

/-- Addition modulo `2^32`. -/
def add32 (a b : ℕ) : ℕ := (a + b) % 4294967296

/-- Rotation to the left by `r` of a 32-bit word. -/
def rotl (r x : ℕ) : ℕ := ((x <<< r) % 4294967296) ||| (x >>> (32 - r))

/-- Four words of the state. -/
structure Row where
  a : ℕ
  b : ℕ
  c : ℕ
  d : ℕ

/-- Quarter round, RFC 8439 § 2.1. -/
def quarter (s : Row) : Row :=
  let a := add32 s.a s.b
  let d := rotl 16 (s.d ^^^ a)
  let c := add32 s.c d
  let b := rotl 12 (s.b ^^^ c)
  let a := add32 a b
  let d := rotl 8 (d ^^^ a)
  let c := add32 c d
  let b := rotl 7 (b ^^^ c)
  ⟨a, b, c, d⟩

/-- The state, by columns: column `i` holds the words `i`, `i + 4`, `i + 8`, `i + 12`. -/
structure State where
  c0 : Row
  c1 : Row
  c2 : Row
  c3 : Row

/-- Two rounds: the columns, then the diagonals (RFC 8439 § 2.3.1 `inner_block`). -/
def doubleRound (s : State) : State :=
  let c0 := quarter s.c0
  let c1 := quarter s.c1
  let c2 := quarter s.c2
  let c3 := quarter s.c3
  let d0 := quarter ⟨c0.a, c1.b, c2.c, c3.d⟩
  let d1 := quarter ⟨c1.a, c2.b, c3.c, c0.d⟩
  let d2 := quarter ⟨c2.a, c3.b, c0.c, c1.d⟩
  let d3 := quarter ⟨c3.a, c0.b, c1.c, c2.d⟩
  ⟨⟨d0.a, d3.b, d2.c, d1.d⟩, ⟨d1.a, d0.b, d3.c, d2.d⟩, ⟨d2.a, d1.b, d0.c, d3.d⟩, ⟨d3.a, d2.b, d1.c, d0.d⟩⟩

/-- Word `i` of a little-endian integer. -/
def word (n i : ℕ) : ℕ := (n >>> (32 * i)) % 4294967296

/-- The initial state: constants, key, block counter, zero nonce (RFC 8439 § 2.3). -/
def init (key ctr : ℕ) : State :=
  ⟨⟨0x61707865, word key 0, word key 4, ctr⟩, ⟨0x3320646e, word key 1, word key 5, 0⟩,
    ⟨0x79622d32, word key 2, word key 6, 0⟩, ⟨0x6b206574, word key 3, word key 7, 0⟩⟩

/-- The rounds. -/
def rounds : ℕ → State → State
  | 0, s => s
  | n + 1, s => rounds n (doubleRound s)

/-- The words of a state, in order, as one little-endian integer. -/
def serialize (s t : State) : ℕ :=
  [add32 s.c0.a t.c0.a, add32 s.c1.a t.c1.a, add32 s.c2.a t.c2.a, add32 s.c3.a t.c3.a,
   add32 s.c0.b t.c0.b, add32 s.c1.b t.c1.b, add32 s.c2.b t.c2.b, add32 s.c3.b t.c3.b,
   add32 s.c0.c t.c0.c, add32 s.c1.c t.c1.c, add32 s.c2.c t.c2.c, add32 s.c3.c t.c3.c,
   add32 s.c0.d t.c0.d, add32 s.c1.d t.c1.d, add32 s.c2.d t.c2.d, add32 s.c3.d t.c3.d].foldr
    (fun w n => w + 4294967296 * n) 0

/-- The 64 bytes of block `ctr` (RFC 8439 § 2.3), as a little-endian integer. -/
def block (key ctr : ℕ) : ℕ := serialize (rounds 10 (init key ctr)) (init key ctr)

/-- Byte `i` of the keystream, which starts at block 1. -/
def keystream (key i : ℕ) : UInt8 := UInt8.ofNat (block key (1 + i / 64) >>> (8 * (i % 64)))

/-- The multiplier of Poly1305, clamped, RFC 8439 § 2.5. -/
def polyR (key : ℕ) : ℕ := (block key 0 % 2 ^ 128) &&& 0x0ffffffc0ffffffc0ffffffc0fffffff

/-- The final summand of Poly1305. -/
def polyS (key : ℕ) : ℕ := (block key 0 >>> 128) % 2 ^ 128

/-- One step: add a block with the bit above it, multiply. -/
def polyStep (r acc b : ℕ) : ℕ := ((acc + (b + 2 ^ 128)) * r) % (2 ^ 130 - 5)

/-- The tag of a ciphertext of `len` bytes (RFC 8439 § 2.8): its blocks, padded with zeros, then the lengths of
the associated data (zero) and of the ciphertext. -/
def tag (key ct len : ℕ) : ℕ :=
  let acc := (List.range ((len + 15) / 16)).foldl
    (fun acc i => polyStep (polyR key) acc ((ct >>> (128 * i)) % 2 ^ 128)) 0
  (polyStep (polyR key) acc (2 ^ 64 * len) + polyS key) % 2 ^ 128

end Orchard.ChaCha
