import Verif.Model.Constants

/-!
# Model of `/repo/src/value.rs`

`u64` is Lean's `UInt64`; `i128` is `ℤ` with every overflow check of the Rust code explicit; `i64`
is the subtype of `ℤ` of the values that fit.  For functions that can panic the result is an
`Option` whose `none` is the panic; this is said in the comment of each such function.
-/

namespace Orchard

/-- `i64`. For instance `value.rs:208`. -/
@[ext] structure I64 where
  val : ℤ
  range : -(2 ^ 63) ≤ val ∧ val < 2 ^ 63
  deriving DecidableEq

/-- An integer literal as `i64`. For instance `value.rs:208`. -/
def I64.mk' (z : ℤ) (h : -(2 ^ 63) ≤ z ∧ z < 2 ^ 63 := by norm_num) : I64 := ⟨z, h⟩

/-- `i64::try_from(z)` for an `i128` `z`. Called at `value.rs:209`. -/
def I64.ofInt? (z : ℤ) : Option I64 :=
  if h : -(2 ^ 63) ≤ z ∧ z < 2 ^ 63 then some ⟨z, h⟩ else none

/-- The range check of checked `i128` arithmetic. For instance `value.rs:184-196`. -/
def i128Check (z : ℤ) : Option ℤ := if -(2 ^ 127) ≤ z ∧ z < 2 ^ 127 then some z else none

/-- `u64::try_from(z)` for an `i128` `z`. Called at `value.rs:174`, `315`. -/
def u64OfInt? (z : ℤ) : Option UInt64 :=
  if 0 ≤ z ∧ z < 2 ^ 64 then some (UInt64.ofNat z.toNat) else none

/-- `value.rs:63` `MAX_NOTE_VALUE` (as an `i128`). -/
def MAX_NOTE_VALUE : ℤ := 2 ^ 64 - 1

/-- `value.rs:70-71` `VALUE_SUM_RANGE.contains(v)`. -/
def valueSumRange (v : ℤ) : Bool := decide (-MAX_NOTE_VALUE ≤ v) && decide (v ≤ MAX_NOTE_VALUE)

/-- `value.rs:75` `OverflowError`. -/
inductive OverflowError | overflow
  deriving DecidableEq, Repr

/-- `value.rs:87` `NoteValue(u64)`. -/
structure NoteValue where
  inner : UInt64
  deriving DecidableEq

namespace NoteValue

/-- `value.rs:90-93`. -/
def zero : NoteValue := ⟨0⟩

/-- `value.rs:104-106`. -/
def fromRaw (v : UInt64) : NoteValue := ⟨v⟩

/-- `value.rs:112-114` `to_bytes`: `u64::to_le_bytes`. -/
def toBytes (v : NoteValue) : Bytes 8 := Bytes.ofNat 8 v.inner.toNat

/-- `value.rs:108-110` `from_bytes`: `u64::from_le_bytes`. -/
def fromBytes (b : Bytes 8) : NoteValue := ⟨UInt64.ofNat b.toNat⟩

/-- `value.rs:116-118` `to_le_bits`. -/
def toLeBits (v : NoteValue) : List Bool := leBits 64 v.inner.toNat

end NoteValue

/-- `value.rs:148` `ValueSum(i128)`. -/
structure ValueSum where
  inner : ℤ
  deriving DecidableEq

/-- `value.rs:127-139` `NoteValue - NoteValue`; `none` is the `expect` panic. -/
def NoteValue.sub (a b : NoteValue) : Option ValueSum :=
  ((i128Check ((a.inner.toNat : ℤ) - (b.inner.toNat : ℤ))).filter valueSumRange).map ValueSum.mk

/-- `value.rs:141-144`. -/
inductive Sign | positive | negative
  deriving DecidableEq, Repr

namespace ValueSum

/-- `value.rs:151-154`. -/
def zero : ValueSum := ⟨0⟩

/-- `value.rs:162-164` (total: every `i64` is an `i128`). -/
def fromRaw (v : I64) : ValueSum := ⟨v.1⟩

/-- `value.rs:167-178`; `none` is a panic (`expect`, or negation overflow in `i128`). -/
def magnitudeSign (v : ValueSum) : Option (UInt64 × Sign) :=
  if v.inner < 0 then
    (i128Check (-v.inner)).bind fun m => (u64OfInt? m).map fun m => (m, Sign.negative)
  else
    (u64OfInt? v.inner).map fun m => (m, Sign.positive)

/-- `value.rs:181-191` `ValueSum + ValueSum`; `none` is the returned `None`. -/
def add (a b : ValueSum) : Option ValueSum :=
  ((i128Check (a.inner + b.inner)).filter valueSumRange).map ValueSum.mk

/-- The fold step of `value.rs:193-203`: `(acc? + v).ok_or(OverflowError)`. -/
def addResult (acc : Except OverflowError ValueSum) (v : ValueSum) :
    Except OverflowError ValueSum :=
  match acc with
  | .error e => .error e
  | .ok a => match a.add v with
    | some s => .ok s
    | none => .error .overflow

/-- `value.rs:193-203` `Sum for Result<ValueSum, OverflowError>`. -/
def sum (l : List ValueSum) : Except OverflowError ValueSum := l.foldl addResult (.ok ⟨0⟩)

/-- `value.rs:205-211` `TryFrom<ValueSum> for i64`. -/
def toI64 (v : ValueSum) : Except OverflowError I64 :=
  match I64.ofInt? v.inner with
  | some z => .ok z
  | none => .error .overflow

end ValueSum

/-- `value.rs:215` `ValueCommitTrapdoor(pallas::Scalar)`. -/
structure ValueCommitTrapdoor where
  inner : Fq
  deriving DecidableEq

namespace ValueCommitTrapdoor

/-- `value.rs:232-234`. -/
def fromBytes (b : Bytes 32) : Option ValueCommitTrapdoor := (Fq.fromRepr b).map .mk

/-- `value.rs:237-243`. -/
def add (a b : ValueCommitTrapdoor) : ValueCommitTrapdoor := ⟨a.inner + b.inner⟩

/-- `value.rs:258-260`. -/
def zero : ValueCommitTrapdoor := ⟨0⟩

/-- `value.rs:245-249` `Sum`. -/
def sum (l : List ValueCommitTrapdoor) : ValueCommitTrapdoor := l.foldl add zero

end ValueCommitTrapdoor

/-- `value.rs:270` `ValueCommitment(pallas::Point)`. -/
structure ValueCommitment where
  inner : Point
  deriving DecidableEq

namespace ValueCommitment

/-- `value.rs:272-278`. -/
noncomputable def add (a b : ValueCommitment) : ValueCommitment := ⟨a.inner + b.inner⟩

/-- `value.rs:280-286`. -/
noncomputable def sub (a b : ValueCommitment) : ValueCommitment := ⟨a.inner - b.inner⟩

/-- `value.rs:288-302` `Sum`. -/
noncomputable def sum (l : List ValueCommitment) : ValueCommitment := l.foldl add ⟨0⟩

/-- `value.rs:311-324`; `none` is a panic (`abs` overflow or `expect`).  The generators are the
tabulated ones instead of a call to `hash_to_curve`. -/
noncomputable def derive (value : ValueSum) (rcv : ValueCommitTrapdoor) : Option ValueCommitment :=
  (i128Check |value.inner|).bind fun a =>
    (u64OfInt? a).map fun absValue =>
      let s : Fq := if value.inner < 0 then -(absValue.toNat : Fq) else (absValue.toNat : Fq)
      ⟨s • Constants.valueCommitV + rcv.inner • Constants.valueCommitR⟩

/-- `value.rs:332-334`. -/
noncomputable def fromBytes (b : Bytes 32) : Option ValueCommitment := (Point.fromBytes b).map .mk

/-- `value.rs:337-339`. -/
def toBytes (c : ValueCommitment) : Bytes 32 := Point.toBytes c.inner

/-- `value.rs:342-348`. -/
def x (c : ValueCommitment) : Fp :=
  match c.inner with
  | .zero => 0
  | .some x _ _ => x

/-- `value.rs:351-357`. -/
def y (c : ValueCommitment) : Fp :=
  match c.inner with
  | .zero => 0
  | .some _ y _ => y

end ValueCommitment

end Orchard
