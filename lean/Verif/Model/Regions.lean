import Verif.Spec.Pinned
import Verif.Crypto.Poseidon

/-!
# How the gadgets place their rows (dependency `halo2_gadgets`)

The gates and lookups of the circuit are the pinned ones (`/repo/src/circuit_description`).  What a gadget adds is
which selectors and fixed cells it sets on the rows of its regions, and which cells it makes equal to constants or
to other cells.  Here this is described for each gadget that `circuit.rs` calls, for a region that begins on row
`s` of the table `T` with fixed columns `F`.  Written from memory of `halo2_gadgets`; its source is not in `/repo`.
-/

namespace Orchard.Regions

open Halo2 Layout Pinned Spec

/-! ### `utilities/lookup_range_check.rs` -/

/-- `range_check`: selectors `q_lookup` (fixed column 14) and `q_running` (15) on the rows of the `n` words.
Configured at `circuit.rs:299`. -/
structure RangeCheckRegion (F : FixedTable) (n s : ℕ) : Prop where
  fits : s + n < usableRows
  lookup : ∀ i < n, F 14 (s + i) = 1
  running : ∀ i < n, F 15 (s + i) = 1

/-- `short_range_check`: the word and the shifted word are looked up; `q_bitshift` is on on the row of the shifted
word, and the row after it contains the constant `2^-bits`. Configured at `circuit.rs:299`. -/
structure ShortCheckRegion (T : Table) (F : FixedTable) (bits s : ℕ) : Prop where
  fits : s + 2 < usableRows
  lookup : F 14 s = 1 ∧ F 14 (s + 1) = 1
  running : F 15 s = 0 ∧ F 15 (s + 1) = 0
  bitshift : On F ⟨18, 3, 6⟩ (s + 1)
  inverse : T (9, s + 2) = ((2 : Fp) ^ bits)⁻¹

/-! ### `sinsemilla/chip.rs`, `sinsemilla/chip/hash_to_point.rs` -/

/-- Columns and selectors of a Sinsemilla and Merkle chip. Chips configured at `circuit.rs:321-351`. -/
structure HashChip where
  /-- The first of the five advice columns. -/
  col : ℕ
  /-- Fixed columns of `y_Q`, `q_s1` and `q_s2`. -/
  yQ : ℕ
  qS1 : ℕ
  qS2 : ℕ
  /-- `q_s4`, `q_swap` and `q_decompose`. -/
  qS4 : SelectorCode
  qSwap : SelectorCode
  qDecompose : SelectorCode

/-- `sinsemilla_config_1` and `merkle_config_1` (`circuit.rs:321-333`). -/
def hashChip1 : HashChip := ⟨0, 3, 16, 12, ⟨24, 3, 4⟩, ⟨24, 4, 4⟩, ⟨25, 1, 6⟩⟩

/-- `sinsemilla_config_2` and `merkle_config_2` (`circuit.rs:339-351`). -/
def hashChip2 : HashChip := ⟨5, 4, 17, 13, ⟨25, 2, 6⟩, ⟨26, 1, 7⟩, ⟨26, 2, 7⟩⟩

/-- `q_s2` on the rows of a message with pieces of these numbers of words: 1 within a piece, 0 on the last
row of a piece, 2 on the last row of the message. Chips configured at `circuit.rs:321-351`. -/
def qS2Values : List ℕ → List ℕ
  | [] => []
  | [n] => List.replicate (n - 1) 1 ++ [2]
  | n :: ns => List.replicate (n - 1) 1 ++ [0] ++ qS2Values ns

/-- `hash_message`: one row for each word, `Q` on the first row.
Chips configured at `circuit.rs:321-351`. -/
structure HashRegion (T : Table) (F : FixedTable) (chip : HashChip) (Q : Point) (ns : List ℕ) (s : ℕ) :
    Prop where
  fits : s + ns.sum < usableRows
  qS1 : ∀ i < ns.sum, F chip.qS1 (s + i) = 1
  qS2 : ∀ i v, (qS2Values ns)[i]? = some v → F chip.qS2 (s + i) = (v : ℕ)
  qS4 : On F chip.qS4 s
  yQ : F chip.yQ s = cellY Q
  xQ : T (chip.col, s) = extractP Q

/-- The pieces of the message: the running sum of each piece is on its rows, and ends with zero.
Chips configured at `circuit.rs:321-351`. -/
def hashPieces (T : Table) (chip : HashChip) : List ℕ → ℕ → List Piece
  | [], _ => []
  | n :: ns, s => ⟨n, fun i => if i < n then T (chip.col + 2, s + i) else 0⟩ :: hashPieces T chip ns (s + n)

/-- The cells of the result, on the row after the last word. Chips configured at `circuit.rs:321-351`. -/
def hashResult (T : Table) (chip : HashChip) (ns : List ℕ) (s : ℕ) : Fp × Fp :=
  (T (chip.col, s + ns.sum), T (chip.col + 3, s + ns.sum))

/-! ### `sinsemilla/merkle.rs`, `sinsemilla/merkle/chip.rs`, `utilities/cond_swap.rs` -/

/-- Where the regions of a layer begin: the swap, the hash, the decomposition check, and the short range checks of
`b_1` and `b_2`; and the chip that hashes the layer. Chips configured at `circuit.rs:321-351`. -/
structure LayerRows where
  chip : HashChip
  swap : ℕ
  hash : ℕ
  decompose : ℕ
  b1 : ℕ
  b2 : ℕ

/-- `MerkleChip::hash_layer` for layer `l` (pieces of 25, 2 and 25 words) after `MerkleChip::swap`, with the node
from the layer before. Chips configured at `circuit.rs:321-351`. -/
structure LayerRegion (T : Table) (F : FixedTable) (k : LayerRows) (l : ℕ) (node : Fp) : Prop where
  chip : k.chip = hashChip1 ∨ k.chip = hashChip2
  fits : k.swap < usableRows ∧ k.decompose + 1 < usableRows
  swapOn : On F k.chip.qSwap k.swap
  swapNode : T (k.chip.col, k.swap) = node
  hash : HashRegion T F k.chip Constants.qMerkleCrh [25, 2, 25] k.hash
  decomposeOn : On F k.chip.qDecompose k.decompose
  a : T (k.chip.col, k.decompose) = T (k.chip.col + 2, k.hash)
  b : T (k.chip.col + 1, k.decompose) = T (k.chip.col + 2, k.hash + 25)
  c : T (k.chip.col + 2, k.decompose) = T (k.chip.col + 2, k.hash + 27)
  left : T (k.chip.col + 3, k.decompose) = T (k.chip.col + 2, k.swap)
  right : T (k.chip.col + 4, k.decompose) = T (k.chip.col + 3, k.swap)
  z1a : T (k.chip.col, k.decompose + 1) = T (k.chip.col + 2, k.hash + 1)
  z1b : T (k.chip.col + 1, k.decompose + 1) = T (k.chip.col + 2, k.hash + 26)
  b1Check : ShortCheckRegion T F 5 k.b1
  b1 : T (k.chip.col + 2, k.decompose + 1) = T (9, k.b1)
  b2Check : ShortCheckRegion T F 5 k.b2
  b2 : T (k.chip.col + 3, k.decompose + 1) = T (9, k.b2)
  l : T (k.chip.col + 4, k.decompose + 1) = (l : ℕ)

/-- The node a layer results in. Chips configured at `circuit.rs:321-351`. -/
def LayerRows.next (T : Table) (k : LayerRows) : Fp := T (k.chip.col, k.hash + 52)

/-- The sibling of a layer. Chips configured at `circuit.rs:321-351`. -/
def LayerRows.sibling (k : LayerRows) : Cell := (k.chip.col + 1, k.swap)

/-- The bit of the position in a layer. Chips configured at `circuit.rs:321-351`. -/
def LayerRows.bit (k : LayerRows) : Cell := (k.chip.col + 4, k.swap)

/-- The node below layer `l`. Chips configured at `circuit.rs:321-351`. -/
def merkleNode (T : Table) (rows : ℕ → LayerRows) (leaf : Fp) : ℕ → Fp
  | 0 => leaf
  | l + 1 => (rows l).next T

/-- `MerklePath::calculate_root`, `n` layers. Called at `circuit.rs:470`. -/
def MerkleRegion (T : Table) (F : FixedTable) (rows : ℕ → LayerRows) (n : ℕ) (leaf : Fp) : Prop :=
  ∀ l < n, LayerRegion T F (rows l) l (merkleNode T rows leaf l)

/-! ### `poseidon.rs`, `poseidon/pow5.rs` -/

/-- The state columns on a row. Chip configured at `circuit.rs:306-313`. -/
def stateAt (T : Table) (row : ℕ) : Fp × Fp × Fp := (T (6, row), T (7, row), T (8, row))

/-- The fixed columns `rc_a` on a row. Chip configured at `circuit.rs:306-313`. -/
def rcA (F : FixedTable) (row : ℕ) : Fp × Fp × Fp := (F 5 row, F 6 row, F 7 row)

/-- The fixed columns `rc_b` on a row. Chip configured at `circuit.rs:306-313`. -/
def rcB (F : FixedTable) (row : ℕ) : Fp × Fp × Fp := (F 8 row, F 9 row, F 10 row)

/-- The constants of a round. Chip configured at `circuit.rs:306-313`. -/
def roundConstant (r : ℕ) : Fp × Fp × Fp :=
  let c := Poseidon.roundConstants.getD r (0, 0, 0)
  ((c.1 : ℕ), (c.2.1 : ℕ), (c.2.2 : ℕ))

/-- `Hash::hash` for `ConstantLength<2>`: the initial state, the inputs and the padded state on the rows from `s0`
on (`initial_state` has a region of its own, from which it is copied), and the permutation from `s` on.
Called at `circuit/gadget.rs:167-175`. -/
structure PoseidonRegion (T : Table) (F : FixedTable) (s0 s : ℕ) (x y : Fp) : Prop where
  fits : s0 + 2 < usableRows ∧ s + 36 < usableRows
  initial : stateAt T s0 = (0, 0, 2 * 2 ^ 64)
  padOn : On F ⟨24, 2, 4⟩ (s0 + 1)
  input : T (6, s0 + 1) = x ∧ T (7, s0 + 1) = y
  load : stateAt T s = stateAt T (s0 + 2)
  firstOn : ∀ r < 4, On F ⟨21, 4, 4⟩ (s + r) ∧ rcA F (s + r) = roundConstant r
  partialOn : ∀ r < 28, On F ⟨24, 1, 4⟩ (s + 4 + r) ∧ rcA F (s + 4 + r) = roundConstant (4 + 2 * r) ∧
    rcB F (s + 4 + r) = roundConstant (4 + 2 * r + 1)
  lastOn : ∀ r < 4, On F ⟨21, 4, 4⟩ (s + 32 + r) ∧ rcA F (s + 32 + r) = roundConstant (60 + r)

/-! ### `ecc/chip/witness_point.rs`, `ecc/chip/add.rs` -/

/-- The cells of a point, in two neighbouring columns. Chip configured at `circuit.rs:303-304`. -/
def pointAt (T : Table) (c row : ℕ) : Fp × Fp := (T (c, row), T (c + 1, row))

/-- `witness_point::Config::point`: the point is in columns 0 and 1. Called at `circuit.rs:413`. -/
structure WitnessPointRegion (F : FixedTable) (s : ℕ) : Prop where
  fits : s < usableRows
  pointOn : On F ⟨19, 1, 4⟩ s

/-- `witness_point::Config::point_non_id`. Called at `circuit.rs:420`, `428`, `605`, `649`, `659`. -/
structure WitnessNonIdRegion (F : FixedTable) (s : ℕ) : Prop where
  fits : s < usableRows
  pointOn : On F ⟨19, 2, 4⟩ s

/-- `add::Config::assign_region`: the operands are in columns 0 to 3, the sum in columns 2 and 3 of the next row.
Called at `circuit.rs:563`, `circuit/gadget.rs:141`, `198`. -/
structure AddRegion (T : Table) (F : FixedTable) (s : ℕ) (a b : Fp × Fp) : Prop where
  fits : s + 1 < usableRows
  addOn : On F ⟨19, 4, 4⟩ s
  left : pointAt T 0 s = a
  right : pointAt T 2 s = b

/-! ### `ecc/chip/mul_fixed.rs` -/

/-- `assign_region_inner` and the addition of the last window: windows on the rows from `s` on, their points in
columns 0 and 1, accumulator in columns 2 and 3, last addition on row `e`.
Chip configured at `circuit.rs:303-304`. -/
structure WindowsRegion (T : Table) (F : FixedTable) (B : FixedBase) (n s e : ℕ) : Prop where
  fits : s + n < usableRows
  coeffs : ∀ w < n, ∀ i < fixedBaseH, F (3 + i) (s + w) = lagrangeCoeffs B.generator n w i
  z : ∀ w < n, F 11 (s + w) = (B.z.getD w 0 : ℕ)
  first : pointAt T 2 (s + 1) = pointAt T 0 s
  addOn : ∀ w, 0 < w → w + 1 < n → On F ⟨19, 3, 4⟩ (s + w)
  last : AddRegion T F e (pointAt T 0 (s + (n - 1))) (pointAt T 2 (s + (n - 1)))

/-- `mul_fixed/full_width.rs`. Chip configured at `circuit.rs:303-304`. -/
structure MulFullRegion (T : Table) (F : FixedTable) (B : FixedBase) (s e : ℕ) : Prop where
  windows : WindowsRegion T F B numWindows s e
  windowsOn : ∀ w < numWindows, On F ⟨23, 1, 1⟩ (s + w)

/-- Running sum of windows in column 4, strict. Chip configured at `circuit.rs:303-304`. -/
structure DecomposeRegion (T : Table) (F : FixedTable) (n s : ℕ) (scalar : Fp) : Prop where
  windowsOn : ∀ w < n, On F ⟨22, 1, 1⟩ (s + w)
  scalar : T (4, s) = scalar
  final : T (4, s + n) = 0

/-- `mul_fixed/short.rs`: the sign and the last window are on the row of the sum of the last addition.
Chip configured at `circuit.rs:303-304`. -/
structure MulShortRegion (T : Table) (F : FixedTable) (B : FixedBase) (s e : ℕ) (magnitude sign : Fp) :
    Prop where
  windows : WindowsRegion T F B numWindowsShort s e
  decompose : DecomposeRegion T F numWindowsShort s magnitude
  shortOn : On F ⟨21, 2, 4⟩ (e + 1)
  sign : T (4, e + 1) = sign
  lastWindow : T (5, e + 1) = T (4, s + (numWindowsShort - 1))

/-- `mul_fixed/base_field_elem.rs`: canonicity checks on the rows from `k` on, with the range check of `α₀'` from
`t` on. Chip configured at `circuit.rs:303-304`. -/
structure MulBaseRegion (T : Table) (F : FixedTable) (B : FixedBase) (s e k t : ℕ) (scalar : Fp) : Prop where
  windows : WindowsRegion T F B numWindows s e
  decompose : DecomposeRegion T F numWindows s scalar
  fits : k + 2 < usableRows
  canonOn : On F ⟨21, 3, 4⟩ (k + 1)
  alpha : T (6, k) = T (4, s)
  z84 : T (8, k) = T (4, s + 84)
  z44 : T (7, k + 2) = T (4, s + 44)
  z43 : T (8, k + 2) = T (4, s + 43)
  range : RangeCheckRegion F 13 t
  alpha0 : T (6, k + 1) = T (9, t)
  z13 : T (6, k + 2) = T (9, t + 13)

/-! ### `ecc/chip/mul.rs` -/

/-- `incomplete.rs` `double_and_add`, first half: 125 bits, with the running sum in column 9, the accumulator in
columns 3 and 4, the base in columns 0 and 1. -/
structure MulHiRegion (T : Table) (F : FixedTable) (s : ℕ) (base acc : Fp × Fp) : Prop where
  initOn : On F ⟨18, 4, 6⟩ (s + 1)
  stepOn : ∀ i < 124, On F ⟨18, 5, 6⟩ (s + 2 + i)
  lastOn : On F ⟨18, 6, 6⟩ (s + 126)
  z : T (9, s + 1) = 0
  acc : (T (3, s + 2), T (4, s + 1)) = acc
  base : pointAt T 0 (s + 2) = base

/-- `incomplete.rs` `double_and_add`, second half: 126 bits, with the running sum in column 6, the accumulator in
columns 7 and 8, the base in columns 0 and 1. -/
structure MulLoRegion (T : Table) (F : FixedTable) (s : ℕ) (z : Fp) (acc : Fp × Fp) : Prop where
  initOn : On F ⟨20, 1, 5⟩ (s + 1)
  stepOn : ∀ i < 125, On F ⟨20, 2, 5⟩ (s + 2 + i)
  lastOn : On F ⟨20, 3, 5⟩ (s + 127)
  z : T (6, s + 1) = z
  acc : (T (7, s + 2), T (8, s + 1)) = acc

/-- `complete.rs` `assign_region`: three bits, two rows and two complete additions each, with the running sum in
column 9. -/
structure MulCompleteRegion (T : Table) (F : FixedTable) (s : ℕ) (base : Fp × Fp) (z : Fp) (acc : Fp × Fp) :
    Prop where
  z : T (9, s) = z
  acc : pointAt T 2 s = acc
  bitOn : ∀ i < 3, On F ⟨20, 4, 5⟩ (s + 2 * i + 1)
  baseY : ∀ i < 3, T (9, s + 2 * i + 1) = base.2
  baseX : ∀ i < 3, T (0, s + 2 * i) = base.1
  addBase : ∀ i < 3, AddRegion T F (s + 2 * i) (pointAt T 0 (s + 2 * i)) (pointAt T 2 (s + 2 * i))
  addAcc : ∀ i < 3, AddRegion T F (s + 2 * i + 1) (pointAt T 2 (s + 2 * i)) (pointAt T 2 (s + 2 * i + 1))

/-- `overflow.rs` `overflow_check`, on the rows from `o` on; `s = α + k₂₅₄ 2^130` is decomposed into 13 words on the
rows from `t` on. -/
structure MulOverflowRegion (T : Table) (F : FixedTable) (o t : ℕ) (z0 z130 k254 alpha : Fp) : Prop where
  fits : o + 2 < usableRows
  checkOn : On F ⟨20, 5, 5⟩ (o + 1)
  z0 : T (6, o) = z0
  z130 : T (6, o + 1) = z130
  k254 : T (7, o) = k254
  alpha : T (7, o + 1) = alpha
  s : T (8, o + 1) = T (9, t)
  sMinusLo : T (7, o + 2) = T (9, t + 13)
  range : RangeCheckRegion F 13 t

/-- `mul.rs` `assign`: from row `s` on, the accumulator `[2] base`, both halves of the incomplete additions, the three
bits with complete additions, and the last bit; the overflow check is elsewhere. -/
structure MulVarRegion (T : Table) (F : FixedTable) (s o t : ℕ) (base : Fp × Fp) (alpha : Fp) : Prop where
  double : AddRegion T F s base base
  hi : MulHiRegion T F s base (pointAt T 2 (s + 1))
  lo : MulLoRegion T F s (T (9, s + 126)) (T (3, s + 127), T (4, s + 127))
  complete : MulCompleteRegion T F (s + 129) base (T (6, s + 127)) (T (7, s + 128), T (8, s + 128))
  lsbOn : On F ⟨21, 1, 4⟩ (s + 135)
  lsbBase : pointAt T 0 (s + 136) = base
  lsbAdd : AddRegion T F (s + 135) (pointAt T 0 (s + 135)) (pointAt T 2 (s + 135))
  overflow : MulOverflowRegion T F o t (T (9, s + 136)) (T (9, s + 126)) (T (9, s + 2)) alpha

/-! ### The calls of `circuit.rs` -/

/-- The contents of a pair of cells. Chip configured at `circuit.rs:303-304`. -/
def pairAt (T : Table) (c : Cell × Cell) : Fp × Fp := (T c.1, T c.2)

/-- The cells of the running sums of the pieces are those of the rows of the hash, or copies of them.
Chips configured at `circuit.rs:321-351`. -/
def PiecesAt (T : Table) (chip : HashChip) : List (ℕ × (ℕ → Cell)) → ℕ → Prop
  | [], _ => True
  | m :: ms, s => (∀ i < m.1, T (m.2 i) = T (chip.col + 2, s + i)) ∧ PiecesAt T chip ms (s + m.1)

/-- A gadget call of `circuit.rs` has its regions in the table, on some rows.  The cells that it returns are cells of
its regions or copies of them; the cells that it takes are copied into its regions. For `circuit.rs:385-704`. -/
def Placed (P : Prims) (T : Table) (F : FixedTable) : GadgetCall → Prop
  | .witnessPoint c => ∃ s, WitnessPointRegion F s ∧ pairAt T c = pointAt T 0 s
  | .witnessNonIdentity c => ∃ s, WitnessNonIdRegion F s ∧ pairAt T c = pointAt T 0 s
  | .add a b c => ∃ s, AddRegion T F s (pairAt T a) (pairAt T b) ∧ pairAt T c = pointAt T 2 (s + 1)
  | .mulFixed base c => ∃ b : FixedBasesFull, b.point.generator = base ∧
    ∃ s e, MulFullRegion T F b.point s e ∧ pairAt T c = pointAt T 2 (e + 1)
  | .mulFixedShort base magnitude sign c => base = Constants.valueCommitV ∧
    ∃ s e, MulShortRegion T F valueCommitVPoint s e (T magnitude) (T sign) ∧
      pairAt T c = (T (2, e + 1), T (1, e + 1))
  | .mulFixedBase base scalar c => base = Constants.nullifierK ∧
    ∃ s e k t, MulBaseRegion T F nullifierKPoint s e k t (T scalar) ∧ pairAt T c = pointAt T 2 (e + 1)
  | .mulVar base scalar c => ∃ s o t, MulVarRegion T F s o t (pairAt T base) (T scalar) ∧
    pairAt T c = pointAt T 2 (s + 136)
  | .poseidon P' x y c => P' = P ∧ ∃ s0 s, PoseidonRegion T F s0 s (T x) (T y) ∧ T c = T (6, s + 36)
  | .shortCheck bits c => bits ≤ 10 ∧ ∃ s, ShortCheckRegion T F bits s ∧ T c = T (9, s)
  | .rangeCheck n strict z => ∃ s, RangeCheckRegion F n s ∧ (∀ i ≤ n, T (z i) = T (9, s + i)) ∧
    (strict = true → T (z n) = 0)
  | .messagePiece _ => True
  | .commit P' Q R pieces c => P' = P ∧ pieces ≠ [] ∧ (∀ m ∈ pieces, 0 < m.1) ∧
    ∃ chip s, (chip = hashChip1 ∨ chip = hashChip2) ∧ HashRegion T F chip Q (pieces.map Prod.fst) s ∧
      PiecesAt T chip pieces s ∧
      ∃ b : FixedBasesFull, b.point.generator = R ∧ ∃ s' e a, MulFullRegion T F b.point s' e ∧
        AddRegion T F a (hashResult T chip (pieces.map Prod.fst) s) (pointAt T 2 (e + 1)) ∧
        pairAt T c = pointAt T 2 (a + 1)
  | .merkleRoot P' leaf sibling bit root => P' = P ∧ ∃ rows : ℕ → LayerRows, MerkleRegion T F rows 32 (T leaf) ∧
    (∀ l < 32, T (sibling l) = T (rows l).sibling ∧ T (bit l) = T (rows l).bit) ∧
    T root = merkleNode T rows (T leaf) 32

end Orchard.Regions
