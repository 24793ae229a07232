import Verif.Model.Pinned.Description
import Mathlib.Data.Finset.Card
import Mathlib.Data.Finset.Image

/-!
# What a proof consists of

`circuit.rs:1055-1065` compares the size of proofs with fixed numbers.  The size follows from the pinned
constraint system (`/repo/src/circuit_description`) and from what `create_proof` of crate `halo2_proofs`
writes, which is transcribed here from memory in the order of writing.
-/

namespace Orchard.Pinned

/-- `circuit_description:2`: the field of the coordinates of commitments. -/
def baseModulus : ℕ := 0x40000000000000000000000000000000224698fc0994a8dd8c46eb2100000001

/-- `circuit_description:3`: the field of the circuit. -/
def scalarModulus : ℕ := 0x40000000000000000000000000000000224698fc094cf91b992d30ed00000001

/-- `circuit_description:5`, and `K` in `circuit.rs:67`. -/
def rowsLog : ℕ := 11

/-- `circuit_description:6` -/
def pinnedExtendedK : ℕ := 14

/-- `circuit_description:7` -/
def rootOfUnity : ℕ := 0x181b50ad5f32119e31cbd395426d600b7a9b88bcaaa1c24eef28545aada17813

/-- `circuit_description:27151-27161`: the queries of the instance column. -/
def instanceQueries : List (ℕ × ℤ) := [(0, 0)]

/-- `circuit_description:27162-27424`: the queries of fixed columns, by column and rotation. -/
def fixedQueries : List (ℕ × ℤ) :=
  [(3, 0), (0, 0), (11, 0), (4, 0), (5, 0), (6, 0), (7, 0), (8, 0), (9, 0), (10, 0), (12, 0), (1, 0), (2, 0),
  (13, 0), (14, 0), (15, 0), (16, 0), (17, 0), (18, 0), (19, 0), (20, 0), (21, 0), (22, 0), (23, 0), (24, 0),
  (25, 0), (26, 0), (27, 0), (28, 0)]

/-- `Expression::degree` of crate `halo2_proofs`, on the pinned gates (`circuit_description:14-26923`). -/
def Expr.degree : Expr → ℕ
  | c _ => 0
  | f _ _ => 1
  | a _ _ => 1
  | neg e => e.degree
  | sum e e' => max e.degree e'.degree
  | prod e e' => e.degree + e'.degree
  | scaled e _ => e.degree

/-- `lookup::Argument::required_degree` of crate `halo2_proofs`, on the pinned lookups
(`circuit_description:27489-28081`). -/
def lookupDegree (l : List Expr × List Expr) : ℕ :=
  max 4 (2 + (l.1.map Expr.degree).foldr max 1 + (l.2.map Expr.degree).foldr max 1)

/-- `ConstraintSystem::degree` of crate `halo2_proofs`: the permutation argument requires 3, and there is no
minimum (`circuit_description:28088`). -/
def degree : ℕ :=
  max 3 (max ((lookups.map lookupDegree).foldr max 1) ((gates.map Expr.degree).foldr max 0))

/-- `EvaluationDomain::new` of crate `halo2_proofs`: the least power of two with room for the quotient
(`circuit_description:4-8`). -/
def extendedK : ℕ := rowsLog + Nat.clog 2 (degree - 1)

/-- `ConstraintSystem::blinding_factors` of crate `halo2_proofs`: from the advice column with the most queries
(`circuit_description:26924-27150`). -/
def blindingFactors : ℕ :=
  max 3 (((List.range numAdviceColumns).map fun i => (adviceQueries.filter (·.1 = i)).length).foldr max 1) + 2

/-- The rotation of the last usable row, `x_last` in `plonk/permutation/prover.rs` of crate `halo2_proofs`
(columns at `circuit_description:27425-27488`). -/
def lastRotation : ℤ := -((blindingFactors : ℤ) + 1)

/-- The number of products of the permutation argument: `degree - 2` columns in each.
`plonk/permutation/prover.rs` of crate `halo2_proofs`, for the columns at `circuit_description:27425-27488`. -/
def permutationSets : ℕ := (permutation.length + (degree - 2) - 1) / (degree - 2)

/-- Polynomials that exist once for each circuit. `circuit_description:10-28081`. -/
inductive CircuitPoly
  | instance (column : ℕ)
  | advice (column : ℕ)
  | permutationProduct (set : ℕ)
  | lookupProduct (l : ℕ)
  | lookupInput (l : ℕ)
  | lookupTable (l : ℕ)
  deriving DecidableEq

/-- Polynomials that exist once for each proof. `circuit_description:10-28081`. -/
inductive CommonPoly
  | fixed (column : ℕ)
  | permutation (column : ℕ)
  | quotient
  | random
  deriving DecidableEq

/-- The polynomials of a proof for several circuits. `circuit_description:10-28081`. -/
inductive Poly
  | circuit (i : ℕ) (f : CircuitPoly)
  | common (f : CommonPoly)
  deriving DecidableEq

/-- `plonk/prover.rs` of crate `halo2_proofs`: where the polynomials of one circuit are opened, as rotations
(queries at `circuit_description:26924-27161`). -/
def circuitOpenings : List (CircuitPoly × ℤ) :=
  instanceQueries.map (fun q => (.instance q.1, q.2)) ++
  adviceQueries.map (fun q => (.advice q.1, q.2)) ++
  (List.range permutationSets).flatMap (fun s => [(.permutationProduct s, 0), (.permutationProduct s, 1)]) ++
  (List.range (permutationSets - 1)).map (fun s => (.permutationProduct s, lastRotation)) ++
  (List.range lookups.length).flatMap (fun l =>
    [(.lookupProduct l, 0), (.lookupInput l, 0), (.lookupTable l, 0), (.lookupInput l, -1),
      (.lookupProduct l, 1)])

/-- `plonk/prover.rs` of crate `halo2_proofs`: where the other polynomials are opened
(queries at `circuit_description:27162-27424`). -/
def commonOpenings : List (CommonPoly × ℤ) :=
  fixedQueries.map (fun q => (.fixed q.1, q.2)) ++
  (List.range permutation.length).map (fun c => (.permutation c, 0)) ++
  [(.quotient, 0), (.random, 0)]

/-- All openings of a proof for `n` circuits, as in `plonk/prover.rs` of crate `halo2_proofs`; called from
`circuit.rs:910`. -/
def openings (n : ℕ) : List (Poly × ℤ) :=
  (List.range n).flatMap (fun i => circuitOpenings.map fun q => (.circuit i q.1, q.2)) ++
  commonOpenings.map fun q => (.common q.1, q.2)

/-- The points at which one polynomial is opened. `poly/multiopen.rs` of crate `halo2_proofs`; called from
`circuit.rs:910`. -/
def pointsOf {F : Type} [DecidableEq F] (qs : List (F × ℤ)) (f : F) : Finset ℤ :=
  ((qs.filter (·.1 = f)).map Prod.snd).toFinset

/-- `construct_intermediate_sets` in `poly/multiopen.rs` of crate `halo2_proofs`: polynomials are grouped by
the set of points at which they are opened; these are the sets. Called from `circuit.rs:910`. -/
def pointSets {F : Type} [DecidableEq F] (qs : List (F × ℤ)) : Finset (Finset ℤ) :=
  (qs.map fun q => pointsOf qs q.1).toFinset

/-- What is written into a proof: compressed points and scalars of 32 bytes each
(`circuit.rs:1062-1063`). -/
inductive Written
  | point
  | scalar
  deriving DecidableEq

/-- `poly/commitment/prover.rs` of crate `halo2_proofs`: the inner product argument, for `2^k` coefficients
(`circuit_description:5`). -/
def writtenIpa : List Written :=
  [.point] ++ (List.range rowsLog).flatMap (fun _ => [.point, .point]) ++ [.scalar, .scalar]

/-- `poly/multiopen/prover.rs` of crate `halo2_proofs`. Called from `circuit.rs:910`. -/
def writtenMultiopen (n : ℕ) : List Written :=
  [.point] ++ List.replicate (pointSets (openings n)).card .scalar ++ writtenIpa

/-- `plonk/prover.rs` `create_proof` of crate `halo2_proofs`, called at `circuit.rs:910` with `n` circuits:
all that is written, in this order. -/
def writtenProof (n : ℕ) : List Written :=
  -- commitments to advice columns
  (List.range n).flatMap (fun _ => List.replicate numAdviceColumns .point) ++
  -- permuted inputs and tables of lookups
  (List.range n).flatMap (fun _ => lookups.flatMap fun _ => [.point, .point]) ++
  -- products of the permutation argument and of lookups
  (List.range n).flatMap (fun _ => List.replicate permutationSets .point) ++
  (List.range n).flatMap (fun _ => lookups.map fun _ => .point) ++
  -- the random polynomial and the parts of the quotient
  [.point] ++ List.replicate (degree - 1) .point ++
  -- evaluations
  (List.range n).flatMap (fun _ => instanceQueries.map fun _ => .scalar) ++
  (List.range n).flatMap (fun _ => adviceQueries.map fun _ => .scalar) ++
  fixedQueries.map (fun _ => .scalar) ++
  [.scalar] ++
  permutation.map (fun _ => .scalar) ++
  (List.range n).flatMap (fun _ => (List.range permutationSets).flatMap fun s =>
    if s + 1 < permutationSets then [.scalar, .scalar, .scalar] else [.scalar, .scalar]) ++
  (List.range n).flatMap (fun _ => lookups.flatMap fun _ => List.replicate 5 .scalar) ++
  writtenMultiopen n

/-- `CircuitCost::proof_size` of crate `halo2_proofs`, called at `circuit.rs:1062-1064`. -/
def proofSize (n : ℕ) : ℕ := 32 * (writtenProof n).length

/-- Queries of advice columns in an expression. `circuit_description:14-26923`. -/
def Expr.adviceQ : Expr → List (ℕ × ℤ)
  | c _ => []
  | f _ _ => []
  | a i r => [(i, r)]
  | neg e => e.adviceQ
  | sum e e' => e.adviceQ ++ e'.adviceQ
  | prod e e' => e.adviceQ ++ e'.adviceQ
  | scaled e _ => e.adviceQ

/-- Queries of fixed columns in an expression. `circuit_description:14-26923`. -/
def Expr.fixedQ : Expr → List (ℕ × ℤ)
  | c _ => []
  | f i r => [(i, r)]
  | a _ _ => []
  | neg e => e.fixedQ
  | sum e e' => e.fixedQ ++ e'.fixedQ
  | prod e e' => e.fixedQ ++ e'.fixedQ
  | scaled e _ => e.fixedQ

end Orchard.Pinned
