import Verif.Basic.Bytes

/-!
# AES-256 (FIPS 197) and the round function of FF1 (NIST SP 800-38G), as computed by the crates `aes` and `fpe`

Bytes are natural numbers below 256.  Not in `/repo`; used through `FF1::<Aes256>::new(&self.0, 2)` in
`keys.rs:481-499`.
-/

namespace Orchard.Aes

/-- Multiplication by `x` in GF(2^8) modulo `x^8 + x^4 + x^3 + x + 1`. -/
def xtime (a : ℕ) : ℕ := if a < 128 then 2 * a else (2 * a) ^^^ 0x11b

/-- The S-box; byte `i` of this number, from the least significant one, is the image of `i`. -/
def sboxTable : ℕ :=
  0x16bb54b00f2d99416842e6bf0d89a18cdf2855cee9871e9b948ed9691198f8e19e1dc186b95735610ef6034866b53e708a8bbd4b1f74dde8c6b4a61c2e2578ba08ae7a65eaf4566ca94ed58d6d37c8e779e4959162acd3c25c2406490a3a32e0db0b5ede14b8ee4688902a22dc4f816073195d643d7ea7c41744975fec130ccdd2f3ff1021dab6bcf5389d928f40a351a89f3c507f02f94585334d43fbaaefd0cf584c4a39becb6a5bb1fc20ed00d153842fe329b3d63b52a05a6e1b1a2c830975b227ebe28012079a059618c323c7041531d871f1e5a534ccf73f362693fdb7c072a49cafa2d4adf04759fa7dc982ca76abd7fe2b670130c56f6bf27b777c63

/-- The S-box, FIPS 197 § 5.1.1. -/
def sbox (a : ℕ) : ℕ := (sboxTable >>> (8 * a)) % 256

/-- Multiplication in GF(2^8), by the bits of the second factor. -/
def gmul : ℕ → ℕ → ℕ → ℕ
  | 0, _, _ => 0
  | fuel + 1, a, b => (if b % 2 = 1 then a else 0) ^^^ gmul fuel (xtime a) (b / 2)

/-- Rotation of a byte to the left. -/
def rotl8 (r a : ℕ) : ℕ := (a <<< r ||| a >>> (8 - r)) % 256

/-- The affine map of the S-box. -/
def affine (b : ℕ) : ℕ := b ^^^ rotl8 1 b ^^^ rotl8 2 b ^^^ rotl8 3 b ^^^ rotl8 4 b ^^^ 0x63

/-- Its inverse. -/
def affineInv (b : ℕ) : ℕ := rotl8 1 b ^^^ rotl8 3 b ^^^ rotl8 6 b ^^^ 0x05

/-- Check of one entry of the table. -/
def sboxCheck (a : ℕ) : Bool :=
  Nat.beq (sbox a) (affine (affineInv (sbox a))) &&
    (Nat.beq (gmul 8 a (affineInv (sbox a))) 1 || (Nat.beq a 0 && Nat.beq (affineInv (sbox a)) 0))

set_option maxRecDepth 10000 in
theorem sboxCheck_all : (List.range 256).all sboxCheck = true := by decide +kernel

/-- The table is the S-box of FIPS 197: the inverse in GF(2^8) (with `0 ↦ 0`) followed by the affine map. -/
theorem sbox_spec (a : ℕ) (ha : a < 256) :
    ∃ b, sbox a = affine b ∧ (gmul 8 a b = 1 ∨ (a = 0 ∧ b = 0)) := by
  have h := List.all_eq_true.1 sboxCheck_all a (List.mem_range.2 ha)
  unfold sboxCheck at h
  rw [Bool.and_eq_true, Bool.or_eq_true, Bool.and_eq_true, Nat.beq_eq, Nat.beq_eq, Nat.beq_eq, Nat.beq_eq] at h
  exact ⟨_, h.1, h.2⟩

/-- Exclusive or of byte strings. -/
def xor (a b : List ℕ) : List ℕ := List.zipWith (· ^^^ ·) a b

/-- `x^i`, FIPS 197 § 5.2 `Rcon`. -/
def rcon : ℕ → ℕ
  | 0 => 1
  | n + 1 => xtime (rcon n)

/-- One word of the key schedule for 256-bit keys; the words so far are listed last first. -/
def nextWord (ws : List (List ℕ)) (i : ℕ) : List (List ℕ) :=
  let t := ws.getD 0 []
  let t :=
    if i % 8 = 0 then xor ((t.drop 1 ++ t.take 1).map sbox) [rcon (i / 8 - 1), 0, 0, 0]
    else if i % 8 = 4 then t.map sbox
    else t
  xor (ws.getD 7 []) t :: ws

/-- The first words of the key schedule, last first. -/
def keyWords (key : List ℕ) : List (List ℕ) :=
  ((List.range 8).map fun i => (key.drop (4 * i)).take 4).reverse

/-- Key expansion, FIPS 197 § 5.2: the 240 bytes of the fifteen round keys. -/
def expandKey (key : List ℕ) : List ℕ :=
  ((List.range' 8 52).foldl nextWord (keyWords key)).reverse.flatten

/-- The round key `r`. -/
def roundKey (ks : List ℕ) (r : ℕ) : List ℕ := (ks.drop (16 * r)).take 16

/-- `ShiftRows`; byte `4c + r` of the state is row `r` of column `c`. -/
def shiftRows (s : List ℕ) : List ℕ :=
  [0, 5, 10, 15, 4, 9, 14, 3, 8, 13, 2, 7, 12, 1, 6, 11].map fun i => s.getD i 0

/-- `MixColumns` on one column. -/
def mixColumn (a b c d : ℕ) : List ℕ :=
  [xtime a ^^^ (xtime b ^^^ b) ^^^ c ^^^ d, a ^^^ xtime b ^^^ (xtime c ^^^ c) ^^^ d,
   a ^^^ b ^^^ xtime c ^^^ (xtime d ^^^ d), (xtime a ^^^ a) ^^^ b ^^^ c ^^^ xtime d]

/-- `MixColumns`. -/
def mixColumns : List ℕ → List ℕ
  | a :: b :: c :: d :: s => mixColumn a b c d ++ mixColumns s
  | _ => []

/-- A round other than the last. -/
def round (ks : List ℕ) (s : List ℕ) (r : ℕ) : List ℕ :=
  xor (mixColumns (shiftRows (s.map sbox))) (roundKey ks r)

/-- The cipher, FIPS 197 § 5.1, with 14 rounds. -/
def encrypt (key block : List ℕ) : List ℕ :=
  let ks := expandKey key
  let s := (List.range' 1 13).foldl (round ks) (xor block (roundKey ks 0))
  xor (shiftRows (s.map sbox)) (roundKey ks 14)

/-- The `n` bytes of `x`, most significant first. -/
def beBytes (n x : ℕ) : List ℕ := (List.range n).map fun i => x / 256 ^ (n - 1 - i) % 256

/-- The integer with the given bytes, most significant first. -/
def beNat (l : List ℕ) : ℕ := l.foldl (fun n b => 256 * n + b) 0

/-- The number `NUM_2` of a string of bits, most significant first. -/
def numBits (l : List Bool) : ℕ := l.foldl (fun n b => 2 * n + b.toNat) 0

/-- First block of FF1 for radix 2, 88 numerals, empty tweak (SP 800-38G § 5.1 step 5). -/
def ff1P : List ℕ := [1, 2, 1, 0, 0, 2, 10, 44, 0, 0, 0, 88, 0, 0, 0, 0]

/-- Second block: nine zero bytes pad the empty tweak, then the round number and the half on 6 bytes. -/
def ff1Q (i : ℕ) (half : List Bool) : List ℕ := List.replicate 9 0 ++ [i] ++ beBytes 6 (numBits half)

/-- The round function of FF1 (steps 6i to 6iv): CBC-MAC of both blocks; `d = 12` bytes are used. -/
def ff1Round (key : List ℕ) (i : ℕ) (half : List Bool) : ℕ :=
  beNat ((encrypt key (xor (encrypt key ff1P) (ff1Q i half))).take 12)

end Orchard.Aes
