import Mathlib.Data.List.Basic
import Mathlib.Data.Nat.Bits
import Mathlib.Tactic.Ring
import Mathlib.Tactic.Linarith

/-!
# Byte strings and bit strings

`Bytes n` models `[u8; n]`; `List UInt8` models `&[u8]` and `Vec<u8>`.
All integers in the crate are serialised little-endian.
-/

namespace Orchard

/-! ### Little-endian base-256 -/

/-- Integer denoted by a little-endian byte string. -/
def leNat : List UInt8 → ℕ
  | [] => 0
  | b :: bs => b.toNat + 256 * leNat bs

/-- The `n` low-order bytes of `x`, little-endian. -/
def leBytes : ℕ → ℕ → List UInt8
  | 0, _ => []
  | n + 1, x => UInt8.ofNat x :: leBytes n (x / 256)

@[simp] theorem length_leBytes (n x : ℕ) : (leBytes n x).length = n := by
  induction n generalizing x with
  | zero => rfl
  | succ n ih => simp [leBytes, ih]

theorem leNat_lt (l : List UInt8) : leNat l < 256 ^ l.length := by
  induction l with
  | nil => simp [leNat]
  | cons b bs ih =>
    have hb := b.toNat_lt
    simp only [leNat, List.length_cons, pow_succ]
    have : (2:ℕ) ^ 8 = 256 := by norm_num
    omega

theorem leNat_leBytes (n x : ℕ) : leNat (leBytes n x) = x % 256 ^ n := by
  induction n generalizing x with
  | zero => simp [leBytes, leNat, Nat.mod_one]
  | succ n ih =>
    simp only [leBytes, leNat, ih, UInt8.toNat_ofNat']
    rw [show (256:ℕ) ^ (n + 1) = 256 * 256 ^ n by rw [pow_succ, mul_comm], Nat.mod_mul]

theorem leNat_leBytes_of_lt {n x : ℕ} (h : x < 256 ^ n) : leNat (leBytes n x) = x := by
  rw [leNat_leBytes, Nat.mod_eq_of_lt h]

theorem leBytes_leNat (l : List UInt8) : leBytes l.length (leNat l) = l := by
  induction l with
  | nil => rfl
  | cons b bs ih =>
    have hb := b.toNat_lt
    simp only [List.length_cons, leBytes, leNat]
    have h1 : (b.toNat + 256 * leNat bs) / 256 = leNat bs := by omega
    rw [h1, ih]
    congr 1
    apply UInt8.toNat_inj.1
    rw [UInt8.toNat_ofNat']
    omega

theorem leNat_inj {l l' : List UInt8} (hl : l.length = l'.length) (h : leNat l = leNat l') :
    l = l' := by
  rw [← leBytes_leNat l, ← leBytes_leNat l', hl, h]

theorem leNat_append (l l' : List UInt8) :
    leNat (l ++ l') = leNat l + 256 ^ l.length * leNat l' := by
  induction l with
  | nil => simp [leNat]
  | cons b bs ih => simp [leNat, ih, pow_succ]; ring

/-! ### Fixed-length byte arrays -/

/-- `[u8; n]`. -/
def Bytes (n : ℕ) : Type := { l : List UInt8 // l.length = n }

namespace Bytes

instance (n : ℕ) : DecidableEq (Bytes n) := inferInstanceAs (DecidableEq { l : List UInt8 // l.length = n })

instance (n : ℕ) : Inhabited (Bytes n) := ⟨⟨List.replicate n 0, by simp⟩⟩

/-- The underlying byte list (`&bytes[..]`). -/
def toList {n : ℕ} (b : Bytes n) : List UInt8 := b.1

@[simp] theorem length_toList {n : ℕ} (b : Bytes n) : b.toList.length = n := b.2

@[ext] theorem ext {n : ℕ} {a b : Bytes n} (h : a.toList = b.toList) : a = b := Subtype.ext h

theorem toList_injective {n : ℕ} : Function.Injective (toList : Bytes n → List UInt8) :=
  fun _ _ h => ext h

/-- `[b; n]`. -/
def replicate (n : ℕ) (b : UInt8) : Bytes n := ⟨List.replicate n b, by simp⟩

/-- `TryFrom<&[u8]> for [u8; n]`. -/
def ofList? (n : ℕ) (l : List UInt8) : Option (Bytes n) :=
  if h : l.length = n then some ⟨l, h⟩ else none

/-- `bytes[start..start+len].try_into().unwrap()` for an in-range constant slice. -/
def slice {n : ℕ} (b : Bytes n) (start len : ℕ) (h : start + len ≤ n) : Bytes len :=
  ⟨(b.1.drop start).take len, by
    have := b.2
    simp only [List.length_take, List.length_drop]; omega⟩

/-- Concatenation. -/
def append {m n : ℕ} (a : Bytes m) (b : Bytes n) : Bytes (m + n) :=
  ⟨a.1 ++ b.1, by simp [a.2, b.2]⟩

@[simp] theorem toList_append {m n : ℕ} (a : Bytes m) (b : Bytes n) :
    (a.append b).toList = a.toList ++ b.toList := rfl

@[simp] theorem toList_mk {n : ℕ} (l : List UInt8) (h : l.length = n) :
    toList (⟨l, h⟩ : Bytes n) = l := rfl

/-- Little-endian integer of a byte array. -/
def toNat {n : ℕ} (b : Bytes n) : ℕ := leNat b.toList

/-- The `n`-byte little-endian encoding of `x` (reduced modulo `256 ^ n`). -/
def ofNat (n x : ℕ) : Bytes n := ⟨leBytes n x, length_leBytes n x⟩

theorem toNat_lt {n : ℕ} (b : Bytes n) : b.toNat < 256 ^ n := by
  have := leNat_lt b.toList; rwa [length_toList] at this

theorem toNat_ofNat {n x : ℕ} (h : x < 256 ^ n) : (ofNat n x).toNat = x :=
  leNat_leBytes_of_lt h

theorem ofNat_toNat {n : ℕ} (b : Bytes n) : ofNat n b.toNat = b := by
  apply ext
  have := leBytes_leNat b.toList
  rw [length_toList] at this
  exact this

theorem toNat_injective {n : ℕ} : Function.Injective (toNat : Bytes n → ℕ) := by
  intro a b h
  rw [← ofNat_toNat a, ← ofNat_toNat b, h]

theorem ofNat_inj {n x y : ℕ} (hx : x < 256 ^ n) (hy : y < 256 ^ n) (h : ofNat n x = ofNat n y) :
    x = y := by
  rw [← toNat_ofNat hx, ← toNat_ofNat hy, h]

theorem toList_slice {n : ℕ} (b : Bytes n) (s l : ℕ) (h : s + l ≤ n) :
    (b.slice s l h).toList = (b.toList.drop s).take l := rfl

theorem slice_append_left {m n l : ℕ} (a : Bytes m) (b : Bytes n) (s : ℕ) (h : s + l ≤ m)
    (h' : s + l ≤ m + n) : (a.append b).slice s l h' = a.slice s l h := by
  apply ext
  have ha := a.length_toList
  rw [toList_slice, toList_slice, toList_append, List.drop_append_of_le_length (by omega),
    List.take_append_of_le_length (by rw [List.length_drop]; omega)]

theorem slice_append_right {m n l : ℕ} (a : Bytes m) (b : Bytes n) (s : ℕ) (hs : m ≤ s)
    (h : (s - m) + l ≤ n) (h' : s + l ≤ m + n) :
    (a.append b).slice s l h' = b.slice (s - m) l h := by
  apply ext
  have ha := a.length_toList
  rw [toList_slice, toList_slice, toList_append, List.drop_append, List.drop_of_length_le (by omega),
    List.nil_append, ha]

theorem slice_all {n : ℕ} (b : Bytes n) (h : 0 + n ≤ n) : b.slice 0 n h = b := by
  apply ext
  rw [toList_slice, List.drop_zero, List.take_of_length_le (by simp)]

theorem append_slice {m n : ℕ} (b : Bytes (m + n)) (h : 0 + m ≤ m + n) (h' : m + n ≤ m + n) :
    (b.slice 0 m h).append (b.slice m n h') = b := by
  apply ext
  rw [toList_append, toList_slice, toList_slice, List.drop_zero]
  rw [List.take_of_length_le (l := b.toList.drop m) (by rw [List.length_drop]; simp),
    List.take_append_drop]

theorem append_inj {m n : ℕ} {a a' : Bytes m} {b b' : Bytes n} :
    a.append b = a'.append b' ↔ a = a' ∧ b = b' := by
  constructor
  · intro h
    have h1 := congrArg toList h
    simp only [toList_append] at h1
    have h2 := List.append_inj h1 (by simp)
    exact ⟨ext h2.1, ext h2.2⟩
  · rintro ⟨rfl, rfl⟩; rfl

end Bytes

/-! ### Bit strings -/

/-- Integer denoted by a little-endian bit string. -/
def bitsNat : List Bool → ℕ
  | [] => 0
  | b :: bs => b.toNat + 2 * bitsNat bs

/-- The `n` low-order bits of `x`, little-endian. -/
def leBits : ℕ → ℕ → List Bool
  | 0, _ => []
  | n + 1, x => (x % 2 == 1) :: leBits n (x / 2)

@[simp] theorem length_leBits (n x : ℕ) : (leBits n x).length = n := by
  induction n generalizing x with
  | zero => rfl
  | succ n ih => simp [leBits, ih]

theorem bitsNat_lt (l : List Bool) : bitsNat l < 2 ^ l.length := by
  induction l with
  | nil => simp [bitsNat]
  | cons b bs ih =>
    simp only [bitsNat, List.length_cons, pow_succ]
    cases b <;> simp <;> omega

theorem bitsNat_leBits (n x : ℕ) : bitsNat (leBits n x) = x % 2 ^ n := by
  induction n generalizing x with
  | zero => simp [leBits, bitsNat, Nat.mod_one]
  | succ n ih =>
    simp only [leBits, bitsNat, ih]
    rw [pow_succ, mul_comm (2 ^ n) 2, Nat.mod_mul]
    congr 1
    rcases Nat.mod_two_eq_zero_or_one x with h | h <;> simp [h]

theorem bitsNat_leBits_of_lt {n x : ℕ} (h : x < 2 ^ n) : bitsNat (leBits n x) = x := by
  rw [bitsNat_leBits, Nat.mod_eq_of_lt h]

theorem leBits_bitsNat (l : List Bool) : leBits l.length (bitsNat l) = l := by
  induction l with
  | nil => rfl
  | cons b bs ih =>
    simp only [List.length_cons, leBits, bitsNat]
    have h1 : (b.toNat + 2 * bitsNat bs) / 2 = bitsNat bs := by cases b <;> simp; omega
    rw [h1, ih]
    congr 1
    cases b <;> simp

theorem bitsNat_inj {l l' : List Bool} (hl : l.length = l'.length) (h : bitsNat l = bitsNat l') :
    l = l' := by
  rw [← leBits_bitsNat l, ← leBits_bitsNat l', hl, h]

theorem bitsNat_append (l l' : List Bool) :
    bitsNat (l ++ l') = bitsNat l + 2 ^ l.length * bitsNat l' := by
  induction l with
  | nil => simp [bitsNat]
  | cons b bs ih => simp [bitsNat, ih, pow_succ]; ring

theorem leBits_inj {n x y : ℕ} (hx : x < 2 ^ n) (hy : y < 2 ^ n) (h : leBits n x = leBits n y) :
    x = y := by
  rw [← bitsNat_leBits_of_lt hx, ← bitsNat_leBits_of_lt hy, h]

theorem leBits_append (m n x : ℕ) : leBits (m + n) x = leBits m x ++ leBits n (x / 2 ^ m) := by
  induction m generalizing x with
  | zero => simp [leBits]
  | succ m ih =>
    rw [Nat.succ_add]
    simp only [leBits, ih, List.cons_append, Nat.div_div_eq_div_mul, pow_succ, mul_comm]

end Orchard
