import Verif.Basic.Bytes

/-!
# BLAKE2b (RFC 7693), as computed by crate `blake2b_simd`

Unkeyed, unsalted, sequential mode with a 16-byte personalisation.  Words are natural numbers below
`2^64`.  Not in `/repo`; used through `Params::new().hash_length(..).personal(..)` in
`bundle/commitments.rs:12-14`, `note_encryption.rs:23-41`, `zip32.rs:36-44` and inside the crates `zcash_spec`
and `pasta_curves`.
-/

namespace Orchard.Blake2b

/-- Addition modulo `2^64`. -/
def add64 (a b : ℕ) : ℕ := (a + b) % 18446744073709551616

/-- Rotation to the right by `r` of a 64-bit word. -/
def rotr (r x : ℕ) : ℕ := (x >>> r) ||| ((x <<< (64 - r)) % 18446744073709551616)

/-- Initialisation vector, RFC 7693 § 2.6. -/
def iv : List ℕ :=
  [0x6a09e667f3bcc908, 0xbb67ae8584caa73b, 0x3c6ef372fe94f82b, 0xa54ff53a5f1d36f1,
   0x510e527fade682d1, 0x9b05688c2b3e6c1f, 0x1f83d9abfb41bd6b, 0x5be0cd19137e2179]

/-- Message schedule, RFC 7693 § 2.7 (rounds 10 and 11 repeat rounds 0 and 1). -/
def sigma : List (List ℕ) :=
  [[0, 1, 2, 3, 4, 5, 6, 7, 8, 9, 10, 11, 12, 13, 14, 15],
   [14, 10, 4, 8, 9, 15, 13, 6, 1, 12, 0, 2, 11, 7, 5, 3],
   [11, 8, 12, 0, 5, 2, 15, 13, 10, 14, 3, 6, 7, 1, 9, 4],
   [7, 9, 3, 1, 13, 12, 11, 14, 2, 6, 5, 10, 4, 0, 15, 8],
   [9, 0, 5, 7, 2, 4, 10, 15, 14, 1, 11, 12, 6, 8, 3, 13],
   [2, 12, 6, 10, 0, 11, 8, 3, 4, 13, 7, 5, 15, 14, 1, 9],
   [12, 5, 1, 15, 14, 13, 4, 10, 0, 7, 6, 3, 9, 2, 8, 11],
   [13, 11, 7, 14, 12, 1, 3, 9, 5, 0, 15, 4, 8, 6, 2, 10],
   [6, 15, 14, 9, 11, 3, 0, 8, 12, 2, 13, 7, 1, 4, 10, 5],
   [10, 2, 8, 4, 7, 6, 1, 5, 15, 11, 9, 14, 3, 12, 13, 0],
   [0, 1, 2, 3, 4, 5, 6, 7, 8, 9, 10, 11, 12, 13, 14, 15],
   [14, 10, 4, 8, 9, 15, 13, 6, 1, 12, 0, 2, 11, 7, 5, 3]]

/-- A row of the working vector. -/
structure Row where
  a : ℕ
  b : ℕ
  c : ℕ
  d : ℕ

/-- Mixing function `G`, RFC 7693 § 3.1. -/
def mix (r : Row) (x y : ℕ) : Row :=
  let a := add64 (add64 r.a r.b) x
  let d := rotr 32 (r.d ^^^ a)
  let c := add64 r.c d
  let b := rotr 24 (r.b ^^^ c)
  let a := add64 (add64 a b) y
  let d := rotr 16 (d ^^^ a)
  let c := add64 c d
  let b := rotr 63 (b ^^^ c)
  ⟨a, b, c, d⟩

/-- The working vector `v[0..16]` as four columns: column `i` is `v[i], v[i+4], v[i+8], v[i+12]`. -/
structure Work where
  c0 : Row
  c1 : Row
  c2 : Row
  c3 : Row

/-- One round: mix the columns, then the diagonals, with the message words in schedule order. -/
def round (w : Work) (m : ℕ → ℕ) : Work :=
  let c0 := mix w.c0 (m 0) (m 1)
  let c1 := mix w.c1 (m 2) (m 3)
  let c2 := mix w.c2 (m 4) (m 5)
  let c3 := mix w.c3 (m 6) (m 7)
  let d0 := mix ⟨c0.a, c1.b, c2.c, c3.d⟩ (m 8) (m 9)
  let d1 := mix ⟨c1.a, c2.b, c3.c, c0.d⟩ (m 10) (m 11)
  let d2 := mix ⟨c2.a, c3.b, c0.c, c1.d⟩ (m 12) (m 13)
  let d3 := mix ⟨c3.a, c0.b, c1.c, c2.d⟩ (m 14) (m 15)
  ⟨⟨d0.a, d3.b, d2.c, d1.d⟩, ⟨d1.a, d0.b, d3.c, d2.d⟩, ⟨d2.a, d1.b, d0.c, d3.d⟩,
    ⟨d3.a, d2.b, d1.c, d0.d⟩⟩

/-- Compression function `F`, RFC 7693 § 3.2: chaining value, message words, byte counter, last? -/
def compress (h m : List ℕ) (t : ℕ) (last : Bool) : List ℕ :=
  let g := fun i => h.getD i 0
  let k := fun i => iv.getD i 0
  let w : Work :=
    ⟨⟨g 0, g 4, k 0, k 4 ^^^ (t % 2 ^ 64)⟩, ⟨g 1, g 5, k 1, k 5 ^^^ (t / 2 ^ 64)⟩,
      ⟨g 2, g 6, k 2, if last then k 6 ^^^ (2 ^ 64 - 1) else k 6⟩, ⟨g 3, g 7, k 3, k 7⟩⟩
  let w := sigma.foldl (fun w s => round w fun i => m.getD (s.getD i 0) 0) w
  [g 0 ^^^ w.c0.a ^^^ w.c0.c, g 1 ^^^ w.c1.a ^^^ w.c1.c, g 2 ^^^ w.c2.a ^^^ w.c2.c,
   g 3 ^^^ w.c3.a ^^^ w.c3.c, g 4 ^^^ w.c0.b ^^^ w.c0.d, g 5 ^^^ w.c1.b ^^^ w.c1.d,
   g 6 ^^^ w.c2.b ^^^ w.c2.d, g 7 ^^^ w.c3.b ^^^ w.c3.d]

/-- The sixteen little-endian words of a block (short blocks are padded with zeros). -/
def words (b : List UInt8) : List ℕ := (List.range 16).map fun i => leNat ((b.drop (8 * i)).take 8)

/-- Hash the remaining message; `done` bytes have been hashed.  `fuel` bounds the recursion. -/
def blocks : ℕ → List ℕ → ℕ → List UInt8 → List ℕ
  | 0, h, _, _ => h
  | fuel + 1, h, done, m =>
    if m.length ≤ 128 then compress h (words m) (done + m.length) true
    else blocks fuel (compress h (words (m.take 128)) (done + 128) false) (done + 128) (m.drop 128)

/-- Parameter block xored into the initialisation vector: digest length, fan-out and depth one, and
the personalisation in the last two words. -/
def init (outLen : ℕ) (personal : List UInt8) : List ℕ :=
  [iv.getD 0 0 ^^^ (0x01010000 + outLen), iv.getD 1 0, iv.getD 2 0, iv.getD 3 0, iv.getD 4 0,
   iv.getD 5 0, iv.getD 6 0 ^^^ leNat (personal.take 8), iv.getD 7 0 ^^^ leNat ((personal.drop 8).take 8)]

/-- The final chaining value. -/
def digest (outLen : ℕ) (personal m : List UInt8) : List ℕ :=
  blocks (m.length / 128 + 1) (init outLen personal) 0 m

/-- The final chaining value as one little-endian integer. -/
def digestNat (outLen : ℕ) (personal m : List UInt8) : ℕ :=
  (digest outLen personal m).foldr (fun w n => w + 2 ^ 64 * n) 0

/-- BLAKE2b with an output of `n` bytes. -/
def hash (n : ℕ) (personal m : List UInt8) : Bytes n := Bytes.ofNat n (digestNat n personal m)

end Orchard.Blake2b
