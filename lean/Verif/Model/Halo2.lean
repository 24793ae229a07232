import Verif.Model.Spec

/-!
# The `halo2_gadgets` the Action circuit is built from (dependency)

The gadgets are not in `/repo`.  Each definition states what the constraints of a gadget say about
the values of its cells; these are the contracts on which the circuit properties (C51–C55) rest.

A cell holds an element of `Fp`.  A cell pair of the ECC chip that is constrained to be on the curve
is a `Point`; its coordinates are `extractP` and `cellY`, with `(0, 0)` for the identity.
A full-width fixed-base scalar (`ScalarFixed`, 85 windows of 3 bits, not constrained to be canonical)
only enters as a multiplier of points and is an `Fq`.

`strict` says how an exceptional case `⊥` of Sinsemilla's incomplete addition is treated.  The
constraints may be satisfiable with an arbitrary result then, so for soundness (`strict = false`)
any result is allowed; witness generation fails then, so for completeness (`strict = true`) nothing
is allowed.
-/

namespace Orchard

namespace Halo2

/-- A custom gate is a list of polynomials; on a row where its selector is enabled all of them have
to vanish (`Constraints::with_selector`). Used for instance at `circuit.rs:217-263`. -/
def Gate (polys : List Fp) : Prop := ∀ e ∈ polys, e = 0

/-- `utilities::bool_check`: `x (1 - x)`. Used for instance at `circuit/commit_ivk.rs:113-114`. -/
def boolCheck (x : Fp) : Fp := x * (1 - x)

/-- The lookup table `0, ..., 2^10 - 1`. Loaded at `circuit.rs:391`. -/
def InTable (x : Fp) : Prop := ∃ w : ℕ, w < 2 ^ 10 ∧ x = (w : Fp)

/-- A running sum `z_0, ..., z_n`: every `z_i - 2^10 z_{i+1}` is in the table.
Configured at `circuit.rs:299`. -/
def RunningSum (n : ℕ) (z : ℕ → Fp) : Prop := ∀ i < n, InTable (z i - 2 ^ 10 * z (i + 1))

/-- `LookupRangeCheckConfig::witness_check(value, num_words, strict)`; `value` is `z_0`, and a strict
check also has `z_n = 0`. Called for instance at `circuit/commit_ivk.rs:426`. -/
def RangeCheck (n : ℕ) (strict : Bool) (z : ℕ → Fp) : Prop :=
  RunningSum n z ∧ (strict = true → z n = 0)

/-- `RangeConstrained::witness_short` with a range of `bits < 10` bits: the value and the value
shifted by `10 - bits` are in the table. Called for instance at `circuit/commit_ivk.rs:280`. -/
def ShortCheck (bits : ℕ) (x : Fp) : Prop := InTable x ∧ InTable (2 ^ (10 - bits) * x)

/-- A Sinsemilla message piece: its number of 10-bit words and its running sum.  `z 0` is the piece;
after the last word the sum is zero. Made for instance at `circuit/commit_ivk.rs:270`. -/
structure Piece where
  words : ℕ
  z : ℕ → Fp

/-- The constraints of the Sinsemilla chip on one piece. Chips configured at `circuit.rs:321-351`. -/
def Piece.Ok (m : Piece) : Prop := RunningSum m.words m.z ∧ m.z m.words = 0

/-- The words of a piece: the values looked up in the generator table.
Chips configured at `circuit.rs:321-351`. -/
def Piece.wordList (m : Piece) : List ℕ :=
  (List.range m.words).map fun i => (m.z i - 2 ^ 10 * m.z (i + 1)).val

/-- The words of a message. Chips configured at `circuit.rs:321-351`. -/
def messageWords (ms : List Piece) : List ℕ := ms.flatMap Piece.wordList

/-- `y` coordinate cell of a point; the `x` coordinate cell is `extractP`. For instance `circuit.rs:525`. -/
def cellY : Point → Fp
  | .zero => 0
  | .some _ y _ => y

/-- The two cells of a point. For instance `circuit.rs:524-525`. -/
def cells (A : Point) : Fp × Fp := (extractP A, cellY A)

/-- What the output cells of a gadget with incomplete additions contain, given the value of the
function it computes.  In the exceptional case they need not even be the coordinates of a point.
For instance `circuit.rs:470`. -/
def Returns (strict : Bool) (h : Option Point) (out : Fp × Fp) : Prop :=
  (∃ A, h = some A ∧ out = cells A) ∨ (strict = false ∧ h = none)

/-- `CommitDomain::commit` (sinsemilla gadget): hash the pieces from `Q`, then add `[r] R` with
complete addition. Called at `circuit/note_commit.rs:1670-1675`, `circuit/commit_ivk.rs:345-347`. -/
def SinsemillaCommit (P : Prims) (strict : Bool) (Q R : Point) (ms : List Piece) (r : Fq)
    (out : Fp × Fp) : Prop :=
  (∀ m ∈ ms, m.Ok) ∧
    Returns strict (((messageWords ms).foldlM (sinsemillaStep P) Q).map fun h => h + r • R) out

/-- One layer of `MerklePath::calculate_root`: the Sinsemilla hash in the Merkle domain of the
10-bit layer number and the 255-bit encodings `enc` of `left` and `right` (the values of the message
pieces).  The gadget does not enforce that the encodings are canonical. Called at `circuit.rs:470`. -/
def MerkleLayer (P : Prims) (strict : Bool) (l : ℕ) (enc : ℕ × ℕ) (left right out : Fp) : Prop :=
  enc.1 < 2 ^ 255 ∧ enc.2 < 2 ^ 255 ∧ (enc.1 : Fp) = left ∧ (enc.2 : Fp) = right ∧
    ∃ y, Returns strict (sinsemillaHashToPoint P Constants.qMerkleCrh
        (leBits 10 l ++ leBits 255 enc.1 ++ leBits 255 enc.2)) (out, y)

/-- `MerklePath::calculate_root` from layer `l` on: at each layer the running node and the sibling
are swapped if the layer's bit of the position is set. Called at `circuit.rs:470`. -/
def MerkleRoot (P : Prims) (strict : Bool) (pos : ℕ) : ℕ → List Fp → List (ℕ × ℕ) → Fp → Fp → Prop
  | _, [], [], node, root => root = node
  | l, s :: path, enc :: encs, node, root => ∃ next,
    (if pos.testBit l then MerkleLayer P strict l enc s node next
      else MerkleLayer P strict l enc node s next) ∧
    MerkleRoot P strict pos (l + 1) path encs next root
  | _, _, _, _, _ => False

/-- `NonIdentityPoint::new`: the witnessed coordinates are on the curve, and not the identity.
Called at `circuit.rs:420`, `428`, `605`, `649`, `659`. -/
def NonIdentity (A : Point) : Prop := A ≠ 0

/-- `FixedPoint::mul` with a full-width scalar.
Called at `circuit.rs:553-560`, `circuit/gadget.rs:133-138`. -/
def MulFixed (base : Point) (scalar : Fq) (out : Point) : Prop := out = scalar • base

/-- `ScalarFixedShort::new` and `FixedPointShort::mul`: the magnitude is decomposed into 64 bits, the
sign is `1` or `-1`, and the result is negated for sign `-1`.
Called at `circuit.rs:505-509`, `circuit/gadget.rs:126-130`. -/
def MulFixedShort (base : Point) (magnitude sign : Fp) (out : Point) : Prop :=
  magnitude.val < 2 ^ 64 ∧
    ((sign = 1 ∧ out = (magnitude.val : Fq) • base) ∨
      (sign = -1 ∧ out = -((magnitude.val : Fq) • base)))

/-- `FixedPointBaseField::mul`: the scalar is a base field element, decomposed canonically.
Called at `circuit/gadget.rs:188-195`. -/
def MulFixedBase (base : Point) (scalar : Fp) (out : Point) : Prop :=
  out = (scalar.val : Fq) • base

/-- `ScalarVar::from_base` and `NonIdentityPoint::mul`: variable-base multiplication by the canonical
representative of a base field element. Called at `circuit.rs:590-602`. -/
def MulVar (base : Point) (scalar : Fp) (out : Point) : Prop := out = (scalar.val : Fq) • base

/-- `Point::add`: complete addition. Called at `circuit.rs:563`, `circuit/gadget.rs:141`, `198`. -/
def Add (A B out : Point) : Prop := out = A + B

/-- `poseidon::Hash::hash` on two elements. Called at `circuit/gadget.rs:167-175`. -/
def Poseidon (P : Prims) (x y out : Fp) : Prop := out = P.poseidon x y

/-! ### Witness generation in the gadgets -/

/-- `RangeConstrained::bitrange_of(x, start..stop)`: the value of those bits of `x`.
Called for instance at `circuit/commit_ivk.rs:273`. -/
def bitrange (x : Fp) (start stop : ℕ) : Fp := ((x.val / 2 ^ start % 2 ^ (stop - start) : ℕ) : Fp)

/-- The running sum that witness generation assigns to a value. Configured at `circuit.rs:299`. -/
def runningSumOf (x : Fp) : ℕ → Fp := fun i => ((x.val / 2 ^ (10 * i) : ℕ) : Fp)

/-- `MessagePiece::from_subpieces`: the value of the concatenated subpieces, each given by its number
of bits and its value. Called for instance at `circuit/commit_ivk.rs:270`. -/
def fromSubpieces : List (ℕ × Fp) → Fp
  | [] => 0
  | (n, x) :: l => x + 2 ^ n * fromSubpieces l

/-- The point `CommitDomain::commit` computes; `none` if an exceptional case occurs (witness
generation then fails). Called at `circuit/note_commit.rs:1670-1675`, `circuit/commit_ivk.rs:345-347`. -/
noncomputable def sinsemillaCommitOf (P : Prims) (Q R : Point) (ms : List Piece) (r : Fq) :
    Option Point :=
  ((messageWords ms).foldlM (sinsemillaStep P) Q).map fun h => h + r • R

/-- The encodings and the root `MerklePath::calculate_root` assigns from layer `l` on; the encodings
are canonical.  `none` if an exceptional case occurs. Called at `circuit.rs:470`. -/
noncomputable def merkleRootOf (P : Prims) (pos : ℕ) :
    ℕ → List Fp → Fp → Option (List (ℕ × ℕ) × Fp)
  | _, [], node => some ([], node)
  | l, s :: path, node =>
    let left := if pos.testBit l then s else node
    let right := if pos.testBit l then node else s
    (sinsemillaHash P Constants.qMerkleCrh
      (leBits 10 l ++ leBits 255 left.val ++ leBits 255 right.val)).bind fun next =>
        (merkleRootOf P pos (l + 1) path next).map fun r => ((left.val, right.val) :: r.1, r.2)

end Halo2

end Orchard
