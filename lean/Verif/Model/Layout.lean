import Verif.Model.Synthesize

/-!
# The Action circuit as a table: columns, rows, selectors, copies

Model of `Circuit::configure` and `Circuit::synthesize` (`/repo/src/circuit.rs:197-753`) and of the
chips of this crate at the level of the `halo2_proofs` interface: gates query columns at rotations,
regions assign cells at columns and offsets, enable selectors and copy cells.

* A cell is an advice column and a row.  Columns and selectors are numbered in the order of creation;
  only the selectors of this crate's gates are counted.
* The floor planner (`floor_planner::V1`, dependency) decides where regions start: a parameter.
* The gadgets of `halo2_gadgets` (dependency) put their cells anywhere (parameter) and contribute their
  contracts from `Verif/Model/Halo2.lean`, stated about the contents of those cells (`GadgetCall.Contract`).
  That their own gates and lookups imply the contracts is the subject of `Verif/Model/Regions.lean`.
* Values are computed along with the cells, as `Value` does.  Where synthesis would fail for a witness
  (an exceptional case in an incomplete addition, a panic), the model goes on with the value 0 or the
  identity; the theorem on honest witnesses assumes that it does not fail.
-/

namespace Orchard

namespace Layout

open Halo2

/-! ### `halo2_proofs::plonk::ConstraintSystem` -/

/-- An advice column, by its number. Created at `circuit.rs:199-210`. -/
abbrev Column := ℕ

/-- A selector, by its number. Created for instance at `circuit.rs:216`. -/
abbrev Selector := ℕ

/-- `Rotation::cur()` and `Rotation::next()`; no gate of this crate uses another one.
For instance `circuit.rs:219-228`. -/
inductive Rotation
  | cur
  | next

/-- How many rows further a query looks. For instance `circuit.rs:219-228`. -/
def Rotation.rows : Rotation → ℕ
  | cur => 0
  | next => 1

/-- What `meta.query_advice(column, rotation)` evaluates to on a row. For instance `circuit.rs:219-228`. -/
abbrev Query := Column → Rotation → Fp

/-- `plonk::ConstraintSystem`: what `configure` (`circuit.rs:197-383`) leaves behind; columns other than advice columns
are left out (C81 compares with all of them). -/
structure ConstraintSystem where
  selectors : ℕ
  advices : ℕ
  /-- a selector, and the polynomials multiplied with it (`Constraints::with_selector`) -/
  gates : List (Selector × (Query → List Fp))
  /-- the advice columns in the permutation argument -/
  equality : List Column

/-- `configure` has `meta: &mut plonk::ConstraintSystem` (`circuit.rs:197`). -/
abbrev ConfigureM := StateM ConstraintSystem

/-- `meta.selector()`. Called for instance at `circuit.rs:216`. -/
def newSelector : ConfigureM Selector := fun cs =>
  (cs.selectors, { cs with selectors := cs.selectors + 1 })

/-- `meta.advice_column()`. Called at `circuit.rs:200-209`. -/
def adviceColumn : ConfigureM Column := fun cs =>
  (cs.advices, { cs with advices := cs.advices + 1 })

/-- `meta.create_gate(..)` with `Constraints::with_selector(selector, polys)`.
Called for instance at `circuit.rs:217-263`. -/
def createGate (s : Selector) (polys : Query → List Fp) : ConfigureM Unit := fun cs =>
  ((), { cs with gates := cs.gates ++ [(s, polys)] })

/-- `meta.enable_equality(column)`. Called at `circuit.rs:272`. -/
def enableEquality (c : Column) : ConfigureM Unit := fun cs =>
  ((), { cs with equality := cs.equality ++ [c] })

/-! ### `halo2_proofs::circuit::Layouter` -/

/-- Advice column and row. For instance `circuit.rs:524`. -/
abbrev Cell := Column × ℕ

/-- The contents of the advice columns. For instance `circuit.rs:705-755`. -/
abbrev Table := Cell → Fp

/-- `AssignedCell`: a position and a value. For instance `circuit.rs:400-406`. -/
structure Assigned where
  cell : Cell
  value : Fp

/-- Where the floor planner puts the `n`-th region of this crate, and the `i`-th cell of the `n`-th
gadget call. `circuit.rs:191`: the planner is `floor_planner::V1`; the model takes any. -/
structure Plan where
  start : ℕ → ℕ
  gadget : ℕ → ℕ → Cell

/-- A pair of cells holds the coordinates of the point. For instance `circuit.rs:524-525`. -/
def HoldsPoint (T : Table) (c : Cell × Cell) (A : Point) : Prop := T c.1 = extractP A ∧ T c.2 = cellY A

/-- A call of a gadget of `halo2_gadgets`, with the cells that it takes and those that it returns (last).
Called in `circuit.rs:385-754` and the gadgets it uses. -/
inductive GadgetCall
  /-- `Point::new` -/
  | witnessPoint (c : Cell × Cell)
  /-- `NonIdentityPoint::new` -/
  | witnessNonIdentity (c : Cell × Cell)
  /-- `Point::add` -/
  | add (a b c : Cell × Cell)
  /-- `ScalarFixed::new` and `FixedPoint::mul` -/
  | mulFixed (base : Point) (c : Cell × Cell)
  /-- `ScalarFixedShort::new` and `FixedPointShort::mul` -/
  | mulFixedShort (base : Point) (magnitude sign : Cell) (c : Cell × Cell)
  /-- `FixedPointBaseField::mul` -/
  | mulFixedBase (base : Point) (scalar : Cell) (c : Cell × Cell)
  /-- `ScalarVar::from_base` and `NonIdentityPoint::mul` -/
  | mulVar (base : Cell × Cell) (scalar : Cell) (c : Cell × Cell)
  /-- `poseidon::Hash::hash` -/
  | poseidon (P : Prims) (x y c : Cell)
  /-- `RangeConstrained::witness_short` -/
  | shortCheck (bits : ℕ) (c : Cell)
  /-- `LookupRangeCheckConfig::witness_check` -/
  | rangeCheck (n : ℕ) (strict : Bool) (z : ℕ → Cell)
  /-- `MessagePiece::from_subpieces` -/
  | messagePiece (c : Cell)
  /-- `CommitDomain::commit`: the pieces by number of words and cells of the running sum. -/
  | commit (P : Prims) (Q R : Point) (pieces : List (ℕ × (ℕ → Cell))) (c : Cell × Cell)
  /-- `MerklePath::calculate_root`, depth 32 -/
  | merkleRoot (P : Prims) (leaf : Cell) (sibling bit : ℕ → Cell) (root : Cell)

/-- The running sum of a piece.  After the last word there is no cell; the sum is zero.
For instance `circuit/note_commit.rs:1680-1686`. -/
def pieceAt (T : Table) (m : ℕ × (ℕ → Cell)) : Piece := ⟨m.1, fun i => if i < m.1 then T (m.2 i) else 0⟩

/-- What the constraints of the gadget say about its cells. The gadgets called in `circuit.rs:385-754`. -/
def GadgetCall.Contract (T : Table) : GadgetCall → Prop
  | .witnessPoint c => ∃ A, HoldsPoint T c A
  | .witnessNonIdentity c => ∃ A, HoldsPoint T c A ∧ NonIdentity A
  | .add a b c => ∀ A B, HoldsPoint T a A → HoldsPoint T b B → ∃ out, HoldsPoint T c out ∧ Add A B out
  | .mulFixed base c => ∃ r out, HoldsPoint T c out ∧ MulFixed base r out
  | .mulFixedShort base magnitude sign c =>
    ∃ out, HoldsPoint T c out ∧ MulFixedShort base (T magnitude) (T sign) out
  | .mulFixedBase base scalar c => ∃ out, HoldsPoint T c out ∧ MulFixedBase base (T scalar) out
  | .mulVar base scalar c => ∀ B, HoldsPoint T base B → NonIdentity B →
    ∃ out, HoldsPoint T c out ∧ MulVar B (T scalar) out
  | .poseidon P x y c => Poseidon P (T x) (T y) (T c)
  | .shortCheck bits c => ShortCheck bits (T c)
  | .rangeCheck n strict z => RangeCheck n strict fun i => T (z i)
  | .messagePiece _ => True
  | .commit P Q R pieces c => ∃ r, SinsemillaCommit P false Q R (pieces.map (pieceAt T)) r (T c.1, T c.2)
  | .merkleRoot P leaf sibling bit root => ∃ pos encs, pos < 2 ^ 32 ∧
    (∀ l < 32, T (bit l) = if pos.testBit l then 1 else 0) ∧
    MerkleRoot P false pos 0 ((List.range 32).map fun l => T (sibling l)) encs (T leaf) (T root)

/-- What synthesis leaves behind. For `circuit.rs:385-754`. -/
inductive Event
  /-- the selector is enabled on the row -/
  | enable (s : Selector) (row : ℕ)
  /-- copy constraint -/
  | equal (a b : Cell)
  /-- copy constraint with a row of the instance column -/
  | instance (a : Cell) (row : ℕ)
  /-- the constraints of a gadget -/
  | gadget (g : GadgetCall)
  /-- the prover puts a value into a cell -/
  | write (c : Cell) (v : Fp)

/-- What synthesis is given: the floor plan (`circuit.rs:191`) and the public inputs. -/
structure Env where
  plan : Plan
  /-- the instance column, as the prover knows it -/
  inst : ℕ → Fp

/-- How many regions and gadget calls synthesis (`circuit.rs:385-754`) has made so far. -/
structure Counters where
  regions : ℕ
  gadgets : ℕ

/-- Synthesis: a result, and the events. For `circuit.rs:385-754`. -/
def LayoutM (α : Type) := Env → Counters → (α × Counters) × List Event

/-- Synthesis steps follow one another, as the statements in `circuit.rs:385-754` do. -/
instance : Monad LayoutM where
  pure x := fun _ s => ((x, s), [])
  bind m f := fun env s =>
    let r := m env s
    let r' := f r.1.1 env r.1.2
    (r'.1, r.2 ++ r'.2)

/-- Log an event. For `circuit.rs:385-754`. -/
def emit (l : List Event) : LayoutM Unit := fun _ s => (((), s), l)

/-- A region: its first row. For instance `circuit.rs:705-707`. -/
abbrev Region := ℕ

/-- `layouter.assign_region(|| name, |region| ...)`. Called for instance at `circuit.rs:705`. -/
def assignRegion {α : Type} (f : Region → LayoutM α) : LayoutM α := fun env s =>
  f (env.plan.start s.regions) env { s with regions := s.regions + 1 }

/-- `selector.enable(&mut region, offset)`. Called for instance at `circuit.rs:748`. -/
def enable (s : Selector) (region : Region) (offset : ℕ) : LayoutM Unit :=
  emit [.enable s (region + offset)]

/-- `region.assign_advice(|| name, column, offset, || value)`.
Called for instance at `circuit/gadget.rs:103-106`. -/
def assignAdvice (region : Region) (c : Column) (offset : ℕ) (v : Fp) : LayoutM Assigned := do
  emit [.write (c, region + offset) v]
  pure ⟨(c, region + offset), v⟩

/-- `cell.copy_advice(|| name, &mut region, column, offset)`. Called for instance at `circuit.rs:708`. -/
def copyAdvice (a : Assigned) (region : Region) (c : Column) (offset : ℕ) : LayoutM Assigned := do
  emit [.write (c, region + offset) a.value, .equal a.cell (c, region + offset)]
  pure ⟨(c, region + offset), a.value⟩

/-- `region.assign_advice_from_instance(|| name, primary, row, column, offset)`.
Called at `circuit.rs:724-746`. -/
def assignAdviceFromInstance (row : ℕ) (region : Region) (c : Column) (offset : ℕ) :
    LayoutM Assigned := fun env s =>
  ((⟨(c, region + offset), env.inst row⟩, s),
    [.write (c, region + offset) (env.inst row), .instance (c, region + offset) row])

/-- `layouter.constrain_instance(cell, primary, row)`. Called for instance at `circuit.rs:524`. -/
def constrainInstance (c : Cell) (row : ℕ) : LayoutM Unit := emit [.instance c row]

/-- `region.constrain_equal(a, b)`. Called through `circuit.rs:611`, `641`. -/
def constrainEqual (a b : Cell) : LayoutM Unit := emit [.equal a b]

/-- A gadget call: the values it puts into its cells, by number.
For the gadgets called in `circuit.rs:385-754`. -/
def gadget (values : List (ℕ × Fp)) (call : (ℕ → Cell) → GadgetCall) : LayoutM (ℕ → Cell) :=
  fun env s =>
    let cells := env.plan.gadget s.gadgets
    ((cells, { s with gadgets := s.gadgets + 1 }),
      values.map (fun x => .write (cells x.1) x.2) ++ [.gadget (call cells)])

/-! ### What a proof shows -/

/-- The gates of a selector. For instance `circuit.rs:217-263`. -/
def ConstraintSystem.gatesOf (cs : ConstraintSystem) (s : Selector) : List (Query → List Fp) :=
  (cs.gates.filter fun g => g.1 == s).map Prod.snd

/-- The constraint of an event holds: the polynomials of the gates of an enabled selector vanish,
copied cells are equal. For `circuit.rs:385-754`. -/
def Event.Holds (cs : ConstraintSystem) (T : Table) (inst : List Fp) : Event → Prop
  | .enable s row => ∀ polys ∈ cs.gatesOf s, Gate (polys fun c rot => T (c, row + rot.rows))
  | .equal a b => T a = T b
  | .instance a row => inst[row]? = some (T a)
  | .gadget g => g.Contract T
  | .write _ _ => True

/-- Copy constraints are only possible between columns for which equality is enabled; otherwise
synthesis fails (`Error::ColumnNotInPermutation`). Equality is enabled at `circuit.rs:268-273`. -/
def Event.Permitted (cs : ConstraintSystem) : Event → Prop
  | .equal a b => a.1 ∈ cs.equality ∧ b.1 ∈ cs.equality
  | .instance a _ => a.1 ∈ cs.equality
  | _ => True

/-! ### The gadgets of `halo2_gadgets` -/

/-- Cells of a point of the ECC chip, with its value. For instance `circuit.rs:413-418`. -/
structure PointCells where
  x : Cell
  y : Cell
  value : Point

/-- The cells hold the coordinates of the point. For instance `circuit.rs:413-418`. -/
def IsPoint (T : Table) (c : PointCells) (A : Point) : Prop := T c.x = extractP A ∧ T c.y = cellY A

/-- The pair of cells. For instance `circuit.rs:413-418`. -/
def PointCells.pair (c : PointCells) : Cell × Cell := (c.x, c.y)

/-- The `x` coordinate of a point, for instance `circuit.rs:524`. -/
def PointCells.xCell (c : PointCells) : Assigned := ⟨c.x, extractP c.value⟩

/-- The `y` coordinate of a point, for instance `circuit.rs:525`. -/
def PointCells.yCell (c : PointCells) : Assigned := ⟨c.y, cellY c.value⟩

/-- A gadget that returns a point. For instance `circuit.rs:413-418`. -/
def pointGadget (A : Point) (call : Cell × Cell → GadgetCall) : LayoutM PointCells := do
  let cells ← gadget [(0, extractP A), (1, cellY A)] fun cells => call (cells 0, cells 1)
  pure ⟨cells 0, cells 1, A⟩

/-- `Point::new`. Called at `circuit.rs:413`. -/
def witnessPoint (A : Point) : LayoutM PointCells :=
  pointGadget A .witnessPoint

/-- `NonIdentityPoint::new`. Called at `circuit.rs:420`, `428`, `605`, `649`, `659`. -/
def witnessNonIdentity (A : Point) : LayoutM PointCells :=
  pointGadget A .witnessNonIdentity

/-- `Point::add`. Called at `circuit.rs:563`, `circuit/gadget.rs:141`, `198`. -/
noncomputable def addPoints (a b : PointCells) : LayoutM PointCells :=
  pointGadget (a.value + b.value) (.add a.pair b.pair)

/-- `Point::constrain_equal`. Called at `circuit.rs:611`, `641`. -/
def constrainEqualPoints (a b : PointCells) : LayoutM Unit := do
  constrainEqual a.x b.x
  constrainEqual a.y b.y

/-- `ScalarFixed::new` and `FixedPoint::mul`. Called at `circuit.rs:553-560`, `circuit/gadget.rs:133-138`. -/
noncomputable def mulFixed (base : Point) (scalar : Fq) : LayoutM PointCells :=
  pointGadget (scalar • base) (.mulFixed base)

/-- `ScalarFixedShort::new` and `FixedPointShort::mul`.
Called at `circuit.rs:505-509`, `circuit/gadget.rs:126-130`. -/
noncomputable def mulFixedShort (base : Point) (magnitude sign : Assigned) : LayoutM PointCells :=
  pointGadget (if sign.value = 1 then (magnitude.value.val : Fq) • base
      else -((magnitude.value.val : Fq) • base)) (.mulFixedShort base magnitude.cell sign.cell)

/-- `FixedPointBaseField::mul`. Called at `circuit/gadget.rs:188-195`. -/
noncomputable def mulFixedBase (base : Point) (scalar : Assigned) : LayoutM PointCells :=
  pointGadget ((scalar.value.val : Fq) • base) (.mulFixedBase base scalar.cell)

/-- `ScalarVar::from_base` and `NonIdentityPoint::mul`. Called at `circuit.rs:590-602`. -/
noncomputable def mulVar (base : PointCells) (scalar : Assigned) : LayoutM PointCells :=
  pointGadget ((scalar.value.val : Fq) • base.value) (.mulVar base.pair scalar.cell)

/-- `poseidon::Hash::hash`. Called at `circuit/gadget.rs:167-175`. -/
def poseidonHash (P : Prims) (a b : Assigned) : LayoutM Assigned := do
  let cells ← gadget [(0, P.poseidon a.value b.value)]
    fun cells => .poseidon P a.cell b.cell (cells 0)
  pure ⟨cells 0, P.poseidon a.value b.value⟩

/-- `RangeConstrained::witness_short(lookup_config, value, start..stop)`.
Called for instance at `circuit/commit_ivk.rs:280`. -/
def witnessShort (value : Fp) (start stop : ℕ) : LayoutM Assigned := do
  let cells ← gadget [(0, bitrange value start stop)]
    fun cells => .shortCheck (stop - start) (cells 0)
  pure ⟨cells 0, bitrange value start stop⟩

/-- `LookupRangeCheckConfig::witness_check(value, num_words, strict)`: the running sum `z_0, ..., z_n`.
Called for instance at `circuit/commit_ivk.rs:426`. -/
def witnessCheck (value : Fp) (n : ℕ) (strict : Bool) : LayoutM (ℕ → Assigned) := do
  let cells ← gadget ((List.range (n + 1)).map fun i => (i, runningSumOf value i))
    fun cells => .rangeCheck n strict cells
  pure fun i => ⟨cells i, runningSumOf value i⟩

/-- A message piece: its number of words and its cell. Made for instance at `circuit/commit_ivk.rs:270`. -/
structure MessagePiece where
  words : ℕ
  cell : Assigned

/-- `MessagePiece::from_subpieces`: the subpieces by number of bits and value.
Called for instance at `circuit/commit_ivk.rs:270`. -/
def messagePiece (subpieces : List (ℕ × Fp)) : LayoutM MessagePiece := do
  let cells ← gadget [(0, fromSubpieces subpieces)] fun cells => .messagePiece (cells 0)
  pure ⟨(subpieces.map Prod.fst).sum / 10, ⟨cells 0, fromSubpieces subpieces⟩⟩

/-- The cell of `z_i` of the `j`-th piece in `CommitDomain::commit`.  `z_0` is the cell of the piece.
For instance `circuit/note_commit.rs:1680-1686`. -/
def zCell (cells : ℕ → Cell) (j : ℕ) (m : MessagePiece) (i : ℕ) : Cell :=
  if i = 0 then m.cell.cell else cells (2 + 32 * j + i)

/-- The running sum of the `j`-th piece. For instance `circuit/note_commit.rs:1680-1686`. -/
def pieceSum (T : Table) (cells : ℕ → Cell) (j : ℕ) (m : MessagePiece) : Piece :=
  pieceAt T (m.words, zCell cells j m)

/-- `CommitDomain::commit`: the commitment, and the running sums `zs` of the pieces.
Called at `circuit/note_commit.rs:1670-1675`, `circuit/commit_ivk.rs:345-347`. -/
noncomputable def sinsemillaCommit (P : Prims) (Q R : Point) (ms : List MessagePiece) (r : Fq) :
    LayoutM (PointCells × (ℕ → ℕ → Assigned)) := do
  let value := (sinsemillaCommitOf P Q R
    (ms.map fun m => ⟨m.words, runningSumOf m.cell.value⟩) r).getD 0
  let cells ← gadget
    ([(0, extractP value), (1, cellY value)] ++ ms.zipIdx.flatMap fun m =>
      ((List.range m.1.words).drop 1).map fun i => (2 + 32 * m.2 + i, runningSumOf m.1.cell.value i))
    fun cells => .commit P Q R (ms.zipIdx.map fun m => (m.1.words, zCell cells m.2 m.1)) (cells 0, cells 1)
  pure (⟨cells 0, cells 1, value⟩, fun j i => match ms[j]? with
    | some m => ⟨zCell cells j m i, runningSumOf m.cell.value i⟩
    | none => ⟨cells 0, 0⟩)

/-- Cells of a Merkle path: the root, and for each layer the sibling and the bit of the position.
Of the call at `circuit.rs:470`. -/
structure MerkleCells where
  root : Assigned
  sibling : ℕ → Cell
  bit : ℕ → Cell

/-- `MerklePath::calculate_root`, depth 32.  The sibling and the bit are assigned by the conditional
swap of each layer. Called at `circuit.rs:470`. -/
noncomputable def merkleRoot (P : Prims) (pos : ℕ) (path : List Fp) (leaf : Assigned) :
    LayoutM MerkleCells := do
  let value := ((merkleRootOf P pos 0 path leaf.value).map Prod.snd).getD 0
  let cells ← gadget
    ((0, value) :: (List.range 32).flatMap fun l =>
      [(1 + l, path.getD l 0), (33 + l, if pos.testBit l then 1 else 0)])
    fun cells => .merkleRoot P leaf.cell (fun l => cells (1 + l)) (fun l => cells (33 + l)) (cells 0)
  pure ⟨⟨cells 0, value⟩, fun l => cells (1 + l), fun l => cells (33 + l)⟩

/-! ### `circuit/gadget/add_chip.rs`, `assign_free_advice` -/

/-- `add_chip.rs:11-16` -/
structure AddConfig where
  a : Column
  b : Column
  c : Column
  qAdd : Selector

/-- `add_chip.rs:37-54` `AddChip::configure` -/
def AddConfig.configure (a b c : Column) : ConfigureM AddConfig := do
  let qAdd ← newSelector
  createGate qAdd fun query =>
    let a := query a .cur
    let b := query b .cur
    let c := query c .cur
    [a + b - c]
  pure { a := a, b := b, c := c, qAdd := qAdd }

/-- `add_chip.rs:62-80` `AddChip::add` -/
def AddConfig.add (cfg : AddConfig) (a b : Assigned) : LayoutM Assigned :=
  assignRegion fun region => do
    enable cfg.qAdd region 0
    let _ ← copyAdvice a region cfg.a 0
    let _ ← copyAdvice b region cfg.b 0
    assignAdvice region cfg.c 0 (a.value + b.value)

/-- `circuit/gadget.rs:95-107` `assign_free_advice` -/
def assignFreeAdvice (c : Column) (v : Fp) : LayoutM Assigned :=
  assignRegion fun region => assignAdvice region c 0 v

/-! ### `circuit/commit_ivk.rs` -/

/-- `commit_ivk.rs:19-22`; `advices` are the ten advice columns. -/
structure CommitIvkConfig where
  qCommitIvk : Selector
  advices : ℕ → Column

/-- `commit_ivk.rs:30-223` `CommitIvkChip::configure` -/
def CommitIvkConfig.configure (advices : ℕ → Column) : ConfigureM CommitIvkConfig := do
  let qCommitIvk ← newSelector
  createGate qCommitIvk fun query =>
    -- constants (71-75)
    let twoPow4 : Fp := ((1 <<< 4 : ℕ) : Fp)
    let twoPow5 : Fp := ((1 <<< 5 : ℕ) : Fp)
    let twoPow9 := twoPow4 * twoPow5
    let twoPow250 : Fp := ((1 <<< 125 : ℕ) : Fp) ^ 2
    let twoPow254 := twoPow250 * twoPow4
    let twoPow245 : Fp := ((1 <<< 49 : ℕ) : Fp) ^ 5
    let twoPow130 : Fp := ((1 <<< 65 : ℕ) : Fp) ^ 2
    let twoPow140 : Fp := ((1 <<< 70 : ℕ) : Fp) ^ 2
    let tP : Fp := (Constants.T_P : Fp)
    -- queries (77-109, 147-203)
    let ak := query (advices 0) .cur
    let nk := query (advices 0) .next
    let a := query (advices 1) .cur
    let bWhole := query (advices 2) .cur
    let c := query (advices 1) .next
    let dWhole := query (advices 2) .next
    let b0 := query (advices 3) .cur
    let b1 := query (advices 4) .cur
    let b2 := query (advices 5) .cur
    let d0 := query (advices 3) .next
    let d1 := query (advices 4) .next
    let z13a := query (advices 6) .cur
    let aPrime := query (advices 7) .cur
    let z13aPrime := query (advices 8) .cur
    let z13c := query (advices 6) .next
    let b2cPrime := query (advices 7) .next
    let z14b2cPrime := query (advices 8) .next
    [ boolCheck b1,
      boolCheck d1,
      bWhole - (b0 + b1 * twoPow4 + b2 * twoPow5),
      dWhole - (d0 + d1 * twoPow9),
      a + b0 * twoPow250 + b1 * twoPow254 - ak,
      b2 + c * twoPow5 + d0 * twoPow245 + d1 * twoPow254 - nk,
      b1 * b0,
      b1 * z13a,
      a + twoPow130 - tP - aPrime,
      b1 * z13aPrime,
      d1 * d0,
      d1 * z13c,
      b2 + c * twoPow5 + twoPow140 - tP - b2cPrime,
      d1 * z14b2cPrime ]
  pure { qCommitIvk := qCommitIvk, advices := advices }

/-- `commit_ivk.rs:642-660` -/
structure GateCells where
  a : Assigned
  b : Assigned
  c : Assigned
  d : Assigned
  ak : Assigned
  nk : Assigned
  b0 : Assigned
  b1 : Fp
  b2 : Assigned
  d0 : Assigned
  d1 : Fp
  z13a : Assigned
  aPrime : Assigned
  z13aPrime : Assigned
  z13c : Assigned
  b2cPrime : Assigned
  z14b2cPrime : Assigned

/-- `commit_ivk.rs:497-638` `assign_gate` -/
def CommitIvkConfig.assignGate (cfg : CommitIvkConfig) (k : GateCells) : LayoutM Unit :=
  assignRegion fun region => do
    enable cfg.qCommitIvk region 0
    -- offset 0
    let _ ← copyAdvice k.ak region (cfg.advices 0) 0
    let _ ← copyAdvice k.a region (cfg.advices 1) 0
    let _ ← copyAdvice k.b region (cfg.advices 2) 0
    let _ ← copyAdvice k.b0 region (cfg.advices 3) 0
    let _ ← assignAdvice region (cfg.advices 4) 0 k.b1
    let _ ← copyAdvice k.b2 region (cfg.advices 5) 0
    let _ ← copyAdvice k.z13a region (cfg.advices 6) 0
    let _ ← copyAdvice k.aPrime region (cfg.advices 7) 0
    let _ ← copyAdvice k.z13aPrime region (cfg.advices 8) 0
    -- offset 1
    let _ ← copyAdvice k.nk region (cfg.advices 0) 1
    let _ ← copyAdvice k.c region (cfg.advices 1) 1
    let _ ← copyAdvice k.d region (cfg.advices 2) 1
    let _ ← copyAdvice k.d0 region (cfg.advices 3) 1
    let _ ← assignAdvice region (cfg.advices 4) 1 k.d1
    let _ ← copyAdvice k.z13c region (cfg.advices 6) 1
    let _ ← copyAdvice k.b2cPrime region (cfg.advices 7) 1
    let _ ← copyAdvice k.z14b2cPrime region (cfg.advices 8) 1

/-- `commit_ivk.rs:401-436` `ak_canonicity` -/
def akCanonicity (a : Assigned) : LayoutM (Assigned × Assigned) := do
  let twoPow130 : Fp := ((1 <<< 65 : ℕ) : Fp) ^ 2
  let tP : Fp := (Constants.T_P : Fp)
  let zs ← witnessCheck (a.value + twoPow130 - tP) 13 false
  pure (zs 0, zs 13)

/-- `commit_ivk.rs:442-481` `nk_canonicity` -/
def nkCanonicity (b2 c : Assigned) : LayoutM (Assigned × Assigned) := do
  let twoPow5 : Fp := ((1 <<< 5 : ℕ) : Fp)
  let twoPow140 : Fp := ((1 <<< 70 : ℕ) : Fp) ^ 2
  let tP : Fp := (Constants.T_P : Fp)
  let zs ← witnessCheck (b2.value + c.value * twoPow5 + twoPow140 - tP) 14 false
  pure (zs 0, zs 14)

/-- `commit_ivk.rs:241-395` `commit_ivk` -/
noncomputable def commitIvk (P : Prims) (cfg : CommitIvkConfig) (ak nk : Assigned) (rivk : Fq) :
    LayoutM Assigned := do
  let a ← messagePiece [(250, bitrange ak.value 0 250)]
  let b0 ← witnessShort ak.value 250 254
  let b1 := bitrange ak.value 254 255
  let b2 ← witnessShort nk.value 0 5
  let b ← messagePiece [(4, b0.value), (1, b1), (5, b2.value)]
  let c ← messagePiece [(240, bitrange nk.value 5 245)]
  let d0 ← witnessShort nk.value 245 254
  let d1 := bitrange nk.value 254 255
  let d ← messagePiece [(9, d0.value), (1, d1)]
  let (ivk, zs) ← sinsemillaCommit P Constants.qCommitIvk Constants.commitIvkR [a, b, c, d] rivk
  let z13a := zs 0 13
  let z13c := zs 2 13
  let (aPrime, z13aPrime) ← akCanonicity a.cell
  let (b2cPrime, z14b2cPrime) ← nkCanonicity b2 c.cell
  cfg.assignGate
    { a := a.cell, b := b.cell, c := c.cell, d := d.cell, ak := ak, nk := nk, b0 := b0, b1 := b1,
      b2 := b2, d0 := d0, d1 := d1, z13a := z13a, aPrime := aPrime, z13aPrime := z13aPrime,
      z13c := z13c, b2cPrime := b2cPrime, z14b2cPrime := z14b2cPrime }
  pure ivk.xCell

end Layout

end Orchard
