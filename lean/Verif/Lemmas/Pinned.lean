import Verif.Model.Pinned.Circuit
import Verif.Lemmas.LayoutCircuit

/-!
# Lemmas on the pinned constraint system
-/

namespace Orchard.Pinned

open Halo2

/-- Polynomials with their selectors. -/
noncomputable def polysOf (r : Row) (codes : List SelectorCode) (gs : List (List Fp)) : List Fp :=
  (codes.zip gs).flatMap fun g => g.2.map (g.1.eval (r.fixed g.1.column 0) * ·)

theorem polysOf_append (r : Row) (c c' : List SelectorCode) (g g' : List (List Fp))
    (h : c.length = g.length) : polysOf r (c ++ c') (g ++ g') = polysOf r c g ++ polysOf r c' g' := by
  simp only [polysOf, List.zip_append h, List.flatMap_append]

theorem half_eq : (0x2000000000000000000000000000000011234c7e04a67c8dcc96987680000001 : Fp) = half := by
  have h2 : (2 : Fp) ≠ 0 := by decide +kernel
  have h : (0x2000000000000000000000000000000011234c7e04a67c8dcc96987680000001 : Fp) * 2 = 1 := by
    decide +kernel
  unfold half
  field_simp
  exact h

/-- Evaluate the code of a selector. -/
macro "eval_code" : tactic => `(tactic|
  simp only [SelectorCode.eval, List.range'_succ, List.range'_zero, List.filter_cons, List.filter_nil,
    Nat.reduceAdd, ne_eq, OfNat.ofNat_ne_one, OfNat.one_ne_ofNat, Nat.reduceEqDiff,
    not_true_eq_false, not_false_eq_true, decide_true, decide_false, Bool.false_eq_true, if_true, if_false,
    List.map_cons, List.map_nil, List.prod_cons, List.prod_nil, mul_one, Nat.cast_ofNat, Nat.cast_one])

/-- Lists of polynomials. -/
macro "eval_lists" : tactic => `(tactic|
  simp only [List.take_succ_cons, List.take_zero, List.drop_succ_cons, List.drop_zero, List.map_cons, List.map_nil, polysOf,
    List.zip_cons_cons, List.zip_nil_right, List.flatMap_cons, List.flatMap_nil, List.append_nil,
    List.cons_append, List.nil_append])

theorem range_eight (x : Fp) : rangePoly fixedBaseH x =
    x * (1 - x) * (2 - x) * (3 - x) * (4 - x) * (5 - x) * (6 - x) * (7 - x) := by
  have : fixedBaseH - 1 = 7 := by decide
  simp only [rangePoly, this, Finset.prod_range_succ, Finset.prod_range_zero]
  push_cast
  ring

theorem range_four (x : Fp) : rangePoly 4 x = x * (1 - x) * (2 - x) * (3 - x) := by
  have : 4 - 1 = 3 := by decide
  simp only [rangePoly, this, Finset.prod_range_succ, Finset.prod_range_zero]
  push_cast
  ring

theorem coords_eight (f : ℕ → Fp) (z w u : Fp) (A : Fp × Fp) : coordsCheck f z w u A =
    [f 0 + w * f 1 + w ^ 2 * f 2 + w ^ 3 * f 3 + w ^ 4 * f 4 + w ^ 5 * f 5 + w ^ 6 * f 6 + w ^ 7 * f 7 - A.1,
      u ^ 2 - A.2 - z, A.2 ^ 2 - A.1 ^ 2 * A.1 - 5] := by
  have : fixedBaseH = 8 := by decide
  simp only [coordsCheck, this, Finset.sum_range_succ, Finset.sum_range_zero, pow_zero, one_mul, pow_one,
    zero_add]

theorem col0 : (List.range 10).getD 0 0 = 0 := rfl
theorem col1 : (List.range 10).getD 1 0 = 1 := rfl
theorem col2 : (List.range 10).getD 2 0 = 2 := rfl
theorem col3 : (List.range 10).getD 3 0 = 3 := rfl
theorem col4 : (List.range 10).getD 4 0 = 4 := rfl
theorem col5 : (List.range 10).getD 5 0 = 5 := rfl
theorem col6 : (List.range 10).getD 6 0 = 6 := rfl
theorem col7 : (List.range 10).getD 7 0 = 7 := rfl
theorem col8 : (List.range 10).getD 8 0 = 8 := rfl
theorem col9 : (List.range 10).getD 9 0 = 9 := rfl

theorem query_cur (r : Row) (i : ℕ) : r.query i .cur = r.advice i 0 := rfl
theorem query_next (r : Row) (i : ℕ) : r.query i .next = r.advice i 1 := rfl

/-- Evaluate the cells of the gadgets' gates. -/
macro "eval_cells" : tactic => `(tactic|
  simp only [mulHi, mulLo, MulRow.yA, MulRow.xR, Row.cur, Row.next, Row.prev, Row.lagrange, curveEqn, boolCheck,
    ternary, poseidonState, Poseidon.mds, mdsInvRow, mdsInv, hashRow, HashRow.twiceYA, HashRow.xR, qS3,
    Constants.T_Q, Poseidon.m00, Poseidon.m01, Poseidon.m02, Poseidon.m10, Poseidon.m11, Poseidon.m12,
    Poseidon.m20, Poseidon.m21, Poseidon.m22, Nat.reduceAdd])

/-- Compare two polynomials. -/
macro "eval_poly" : tactic => `(tactic| (
  simp only [Expr.eval, query_cur, query_next, col0, col1, col2, col3, col4, col5, col6, col7, col8, col9,
    Nat.cast_ofNat, Nat.cast_one, Nat.cast_zero, half_eq, Nat.one_shiftLeft, Nat.cast_pow, Constants.T_P,
    boolCheck]
  first
    | exact congrArg₂ (· * ·) (by ring1) (by ring1)
    | ring1))

theorem poly_crateA (r : Row) :
    [gate0, gate1, gate2, gate3, gate4].map (Expr.eval r) =
    polysOf r (crateCodes.take 2) ((crateGates r).take 2) := by
  unfold crateGates
  eval_configured
  unfold crateCodes
  eval_lists
  eval_code
  refine congrArg₂ List.cons ?_ ?_
  · unfold gate0
    eval_poly
  refine congrArg₂ List.cons ?_ ?_
  · unfold gate1
    eval_poly
  refine congrArg₂ List.cons ?_ ?_
  · unfold gate2
    eval_poly
  refine congrArg₂ List.cons ?_ ?_
  · unfold gate3
    eval_poly
  refine congrArg₂ List.cons ?_ rfl
  · unfold gate4
    eval_poly

theorem poly_ecc (r : Row) :
    [gate5, gate6, gate7, gate8, gate9, gate10, gate11, gate12, gate13, gate14, gate15, gate16, gate17,
      gate18, gate19, gate20, gate21, gate22, gate23, gate24, gate25, gate26, gate27, gate28, gate29,
      gate30, gate31, gate32, gate33, gate34, gate35, gate36, gate37, gate38, gate39, gate40, gate41,
      gate42, gate43, gate44, gate45, gate46, gate47, gate48, gate49, gate50, gate51, gate52, gate53,
      gate54, gate55, gate56, gate57, gate58, gate59, gate60, gate61, gate62, gate63, gate64, gate65,
      gate66, gate67, gate68, gate69, gate70, gate71, gate72, gate73, gate74].map (Expr.eval r) =
    polysOf r (eccCodes) (eccGates r) := by
  unfold eccCodes eccGates
  simp only [bitshiftGate, witnessPointGate, witnessNonIdGate, addIncomplete, addComplete, mulInitGate,
    mulStepGate, mulLastGate, mulLoop, mulBit, mulCompleteGate, mulOverflowGate, mulLsbGate, runningSumCoordsGate,
    fullWidthGate, shortGate, canonicityGate, coords_eight, range_eight, range_four,
    fixedBaseWindowSize]
  eval_lists
  eval_code
  refine congrArg₂ List.cons ?_ ?_
  · eval_cells
    unfold gate5
    eval_poly
  refine congrArg₂ List.cons ?_ ?_
  · eval_cells
    unfold gate6
    eval_poly
  refine congrArg₂ List.cons ?_ ?_
  · eval_cells
    unfold gate7
    eval_poly
  refine congrArg₂ List.cons ?_ ?_
  · eval_cells
    unfold gate8
    eval_poly
  refine congrArg₂ List.cons ?_ ?_
  · eval_cells
    unfold gate9
    eval_poly
  refine congrArg₂ List.cons ?_ ?_
  · eval_cells
    unfold gate10
    eval_poly
  refine congrArg₂ List.cons ?_ ?_
  · eval_cells
    unfold gate11
    eval_poly
  refine congrArg₂ List.cons ?_ ?_
  · eval_cells
    unfold gate12
    eval_poly
  refine congrArg₂ List.cons ?_ ?_
  · eval_cells
    unfold gate13
    eval_poly
  refine congrArg₂ List.cons ?_ ?_
  · eval_cells
    unfold gate14
    eval_poly
  refine congrArg₂ List.cons ?_ ?_
  · eval_cells
    unfold gate15
    eval_poly
  refine congrArg₂ List.cons ?_ ?_
  · eval_cells
    unfold gate16
    eval_poly
  refine congrArg₂ List.cons ?_ ?_
  · eval_cells
    unfold gate17
    eval_poly
  refine congrArg₂ List.cons ?_ ?_
  · eval_cells
    unfold gate18
    eval_poly
  refine congrArg₂ List.cons ?_ ?_
  · eval_cells
    unfold gate19
    eval_poly
  refine congrArg₂ List.cons ?_ ?_
  · eval_cells
    unfold gate20
    eval_poly
  refine congrArg₂ List.cons ?_ ?_
  · eval_cells
    unfold gate21
    eval_poly
  refine congrArg₂ List.cons ?_ ?_
  · eval_cells
    unfold gate22
    eval_poly
  refine congrArg₂ List.cons ?_ ?_
  · eval_cells
    unfold gate23
    eval_poly
  refine congrArg₂ List.cons ?_ ?_
  · eval_cells
    unfold gate24
    eval_poly
  refine congrArg₂ List.cons ?_ ?_
  · eval_cells
    unfold gate25
    eval_poly
  refine congrArg₂ List.cons ?_ ?_
  · eval_cells
    unfold gate26
    eval_poly
  refine congrArg₂ List.cons ?_ ?_
  · eval_cells
    unfold gate27
    eval_poly
  refine congrArg₂ List.cons ?_ ?_
  · eval_cells
    unfold gate28
    eval_poly
  refine congrArg₂ List.cons ?_ ?_
  · eval_cells
    unfold gate29
    eval_poly
  refine congrArg₂ List.cons ?_ ?_
  · eval_cells
    unfold gate30
    eval_poly
  refine congrArg₂ List.cons ?_ ?_
  · eval_cells
    unfold gate31
    eval_poly
  refine congrArg₂ List.cons ?_ ?_
  · eval_cells
    unfold gate32
    eval_poly
  refine congrArg₂ List.cons ?_ ?_
  · eval_cells
    unfold gate33
    eval_poly
  refine congrArg₂ List.cons ?_ ?_
  · eval_cells
    unfold gate34
    eval_poly
  refine congrArg₂ List.cons ?_ ?_
  · eval_cells
    unfold gate35
    eval_poly
  refine congrArg₂ List.cons ?_ ?_
  · eval_cells
    unfold gate36
    eval_poly
  refine congrArg₂ List.cons ?_ ?_
  · eval_cells
    unfold gate37
    eval_poly
  refine congrArg₂ List.cons ?_ ?_
  · eval_cells
    unfold gate38
    eval_poly
  refine congrArg₂ List.cons ?_ ?_
  · eval_cells
    unfold gate39
    eval_poly
  refine congrArg₂ List.cons ?_ ?_
  · eval_cells
    unfold gate40
    eval_poly
  refine congrArg₂ List.cons ?_ ?_
  · eval_cells
    unfold gate41
    eval_poly
  refine congrArg₂ List.cons ?_ ?_
  · eval_cells
    unfold gate42
    eval_poly
  refine congrArg₂ List.cons ?_ ?_
  · eval_cells
    unfold gate43
    eval_poly
  refine congrArg₂ List.cons ?_ ?_
  · eval_cells
    unfold gate44
    eval_poly
  refine congrArg₂ List.cons ?_ ?_
  · eval_cells
    unfold gate45
    eval_poly
  refine congrArg₂ List.cons ?_ ?_
  · eval_cells
    unfold gate46
    eval_poly
  refine congrArg₂ List.cons ?_ ?_
  · eval_cells
    unfold gate47
    eval_poly
  refine congrArg₂ List.cons ?_ ?_
  · eval_cells
    unfold gate48
    eval_poly
  refine congrArg₂ List.cons ?_ ?_
  · eval_cells
    unfold gate49
    eval_poly
  refine congrArg₂ List.cons ?_ ?_
  · eval_cells
    unfold gate50
    eval_poly
  refine congrArg₂ List.cons ?_ ?_
  · eval_cells
    unfold gate51
    eval_poly
  refine congrArg₂ List.cons ?_ ?_
  · eval_cells
    unfold gate52
    eval_poly
  refine congrArg₂ List.cons ?_ ?_
  · eval_cells
    unfold gate53
    eval_poly
  refine congrArg₂ List.cons ?_ ?_
  · eval_cells
    unfold gate54
    eval_poly
  refine congrArg₂ List.cons ?_ ?_
  · eval_cells
    unfold gate55
    eval_poly
  refine congrArg₂ List.cons ?_ ?_
  · eval_cells
    unfold gate56
    eval_poly
  refine congrArg₂ List.cons ?_ ?_
  · eval_cells
    unfold gate57
    eval_poly
  refine congrArg₂ List.cons ?_ ?_
  · eval_cells
    unfold gate58
    eval_poly
  refine congrArg₂ List.cons ?_ ?_
  · eval_cells
    unfold gate59
    eval_poly
  refine congrArg₂ List.cons ?_ ?_
  · eval_cells
    unfold gate60
    eval_poly
  refine congrArg₂ List.cons ?_ ?_
  · eval_cells
    unfold gate61
    eval_poly
  refine congrArg₂ List.cons ?_ ?_
  · eval_cells
    unfold gate62
    eval_poly
  refine congrArg₂ List.cons ?_ ?_
  · eval_cells
    unfold gate63
    eval_poly
  refine congrArg₂ List.cons ?_ ?_
  · eval_cells
    unfold gate64
    eval_poly
  refine congrArg₂ List.cons ?_ ?_
  · eval_cells
    unfold gate65
    eval_poly
  refine congrArg₂ List.cons ?_ ?_
  · eval_cells
    unfold gate66
    eval_poly
  refine congrArg₂ List.cons ?_ ?_
  · eval_cells
    unfold gate67
    eval_poly
  refine congrArg₂ List.cons ?_ ?_
  · eval_cells
    unfold gate68
    eval_poly
  refine congrArg₂ List.cons ?_ ?_
  · eval_cells
    unfold gate69
    eval_poly
  refine congrArg₂ List.cons ?_ ?_
  · eval_cells
    unfold gate70
    eval_poly
  refine congrArg₂ List.cons ?_ ?_
  · eval_cells
    unfold gate71
    eval_poly
  refine congrArg₂ List.cons ?_ ?_
  · eval_cells
    unfold gate72
    eval_poly
  refine congrArg₂ List.cons ?_ ?_
  · eval_cells
    unfold gate73
    eval_poly
  refine congrArg₂ List.cons ?_ rfl
  · eval_cells
    unfold gate74
    eval_poly

theorem poly_poseidon (r : Row) :
    [gate75, gate76, gate77, gate78, gate79, gate80, gate81, gate82, gate83, gate84].map (Expr.eval r) =
    polysOf r (poseidonCodes) (poseidonGates r) := by
  unfold poseidonCodes poseidonGates
  simp only [fullRoundGate, partialRoundsGate, padAndAddGate, stateDiff, initialYQGate, sinsemillaGate,
    condSwapGate, merkleDecomposeGate]
  eval_lists
  eval_code
  refine congrArg₂ List.cons ?_ ?_
  · eval_cells
    unfold gate75
    eval_poly
  refine congrArg₂ List.cons ?_ ?_
  · eval_cells
    unfold gate76
    eval_poly
  refine congrArg₂ List.cons ?_ ?_
  · eval_cells
    unfold gate77
    eval_poly
  refine congrArg₂ List.cons ?_ ?_
  · eval_cells
    unfold gate78
    eval_poly
  refine congrArg₂ List.cons ?_ ?_
  · eval_cells
    unfold gate79
    eval_poly
  refine congrArg₂ List.cons ?_ ?_
  · eval_cells
    unfold gate80
    eval_poly
  refine congrArg₂ List.cons ?_ ?_
  · eval_cells
    unfold gate81
    eval_poly
  refine congrArg₂ List.cons ?_ ?_
  · eval_cells
    unfold gate82
    eval_poly
  refine congrArg₂ List.cons ?_ ?_
  · eval_cells
    unfold gate83
    eval_poly
  refine congrArg₂ List.cons ?_ rfl
  · eval_cells
    unfold gate84
    eval_poly

theorem poly_hash1 (r : Row) :
    [gate85, gate86, gate87, gate88, gate89, gate90, gate91, gate92, gate93, gate94].map (Expr.eval r) =
    polysOf r (hash1Codes) (sinsemillaGates r 0 0 12) := by
  unfold hash1Codes sinsemillaGates
  simp only [fullRoundGate, partialRoundsGate, padAndAddGate, stateDiff, initialYQGate, sinsemillaGate,
    condSwapGate, merkleDecomposeGate]
  eval_lists
  eval_code
  refine congrArg₂ List.cons ?_ ?_
  · eval_cells
    unfold gate85
    eval_poly
  refine congrArg₂ List.cons ?_ ?_
  · eval_cells
    unfold gate86
    eval_poly
  refine congrArg₂ List.cons ?_ ?_
  · eval_cells
    unfold gate87
    eval_poly
  refine congrArg₂ List.cons ?_ ?_
  · eval_cells
    unfold gate88
    eval_poly
  refine congrArg₂ List.cons ?_ ?_
  · eval_cells
    unfold gate89
    eval_poly
  refine congrArg₂ List.cons ?_ ?_
  · eval_cells
    unfold gate90
    eval_poly
  refine congrArg₂ List.cons ?_ ?_
  · eval_cells
    unfold gate91
    eval_poly
  refine congrArg₂ List.cons ?_ ?_
  · eval_cells
    unfold gate92
    eval_poly
  refine congrArg₂ List.cons ?_ ?_
  · eval_cells
    unfold gate93
    eval_poly
  refine congrArg₂ List.cons ?_ rfl
  · eval_cells
    unfold gate94
    eval_poly

theorem poly_hash2 (r : Row) :
    [gate95, gate96, gate97, gate98, gate99, gate100, gate101, gate102, gate103, gate104].map (Expr.eval r) =
    polysOf r (hash2Codes) (sinsemillaGates r 5 1 13) := by
  unfold hash2Codes sinsemillaGates
  simp only [fullRoundGate, partialRoundsGate, padAndAddGate, stateDiff, initialYQGate, sinsemillaGate,
    condSwapGate, merkleDecomposeGate]
  eval_lists
  eval_code
  refine congrArg₂ List.cons ?_ ?_
  · eval_cells
    unfold gate95
    eval_poly
  refine congrArg₂ List.cons ?_ ?_
  · eval_cells
    unfold gate96
    eval_poly
  refine congrArg₂ List.cons ?_ ?_
  · eval_cells
    unfold gate97
    eval_poly
  refine congrArg₂ List.cons ?_ ?_
  · eval_cells
    unfold gate98
    eval_poly
  refine congrArg₂ List.cons ?_ ?_
  · eval_cells
    unfold gate99
    eval_poly
  refine congrArg₂ List.cons ?_ ?_
  · eval_cells
    unfold gate100
    eval_poly
  refine congrArg₂ List.cons ?_ ?_
  · eval_cells
    unfold gate101
    eval_poly
  refine congrArg₂ List.cons ?_ ?_
  · eval_cells
    unfold gate102
    eval_poly
  refine congrArg₂ List.cons ?_ ?_
  · eval_cells
    unfold gate103
    eval_poly
  refine congrArg₂ List.cons ?_ rfl
  · eval_cells
    unfold gate104
    eval_poly

theorem poly_crateB (r : Row) :
    [gate105, gate106, gate107, gate108, gate109, gate110, gate111, gate112, gate113, gate114, gate115,
      gate116, gate117, gate118, gate119, gate120, gate121, gate122, gate123, gate124, gate125, gate126,
      gate127, gate128, gate129, gate130, gate131, gate132, gate133, gate134, gate135, gate136, gate137,
      gate138, gate139, gate140, gate141, gate142, gate143, gate144, gate145, gate146, gate147, gate148,
      gate149, gate150, gate151, gate152, gate153, gate154, gate155, gate156, gate157, gate158, gate159,
      gate160, gate161, gate162, gate163, gate164, gate165, gate166, gate167, gate168, gate169, gate170,
      gate171, gate172, gate173, gate174, gate175, gate176, gate177, gate178, gate179, gate180, gate181,
      gate182, gate183, gate184, gate185, gate186, gate187, gate188, gate189, gate190, gate191, gate192].map (Expr.eval r) =
    polysOf r (crateCodes.drop 2) ((crateGates r).drop 2) := by
  unfold crateGates
  eval_configured
  unfold crateCodes
  eval_lists
  eval_code
  refine congrArg₂ List.cons ?_ ?_
  · unfold gate105
    eval_poly
  refine congrArg₂ List.cons ?_ ?_
  · unfold gate106
    eval_poly
  refine congrArg₂ List.cons ?_ ?_
  · unfold gate107
    eval_poly
  refine congrArg₂ List.cons ?_ ?_
  · unfold gate108
    eval_poly
  refine congrArg₂ List.cons ?_ ?_
  · unfold gate109
    eval_poly
  refine congrArg₂ List.cons ?_ ?_
  · unfold gate110
    eval_poly
  refine congrArg₂ List.cons ?_ ?_
  · unfold gate111
    eval_poly
  refine congrArg₂ List.cons ?_ ?_
  · unfold gate112
    eval_poly
  refine congrArg₂ List.cons ?_ ?_
  · unfold gate113
    eval_poly
  refine congrArg₂ List.cons ?_ ?_
  · unfold gate114
    eval_poly
  refine congrArg₂ List.cons ?_ ?_
  · unfold gate115
    eval_poly
  refine congrArg₂ List.cons ?_ ?_
  · unfold gate116
    eval_poly
  refine congrArg₂ List.cons ?_ ?_
  · unfold gate117
    eval_poly
  refine congrArg₂ List.cons ?_ ?_
  · unfold gate118
    eval_poly
  refine congrArg₂ List.cons ?_ ?_
  · unfold gate119
    eval_poly
  refine congrArg₂ List.cons ?_ ?_
  · unfold gate120
    eval_poly
  refine congrArg₂ List.cons ?_ ?_
  · unfold gate121
    eval_poly
  refine congrArg₂ List.cons ?_ ?_
  · unfold gate122
    eval_poly
  refine congrArg₂ List.cons ?_ ?_
  · unfold gate123
    eval_poly
  refine congrArg₂ List.cons ?_ ?_
  · unfold gate124
    eval_poly
  refine congrArg₂ List.cons ?_ ?_
  · unfold gate125
    eval_poly
  refine congrArg₂ List.cons ?_ ?_
  · unfold gate126
    eval_poly
  refine congrArg₂ List.cons ?_ ?_
  · unfold gate127
    eval_poly
  refine congrArg₂ List.cons ?_ ?_
  · unfold gate128
    eval_poly
  refine congrArg₂ List.cons ?_ ?_
  · unfold gate129
    eval_poly
  refine congrArg₂ List.cons ?_ ?_
  · unfold gate130
    eval_poly
  refine congrArg₂ List.cons ?_ ?_
  · unfold gate131
    eval_poly
  refine congrArg₂ List.cons ?_ ?_
  · unfold gate132
    eval_poly
  refine congrArg₂ List.cons ?_ ?_
  · unfold gate133
    eval_poly
  refine congrArg₂ List.cons ?_ ?_
  · unfold gate134
    eval_poly
  refine congrArg₂ List.cons ?_ ?_
  · unfold gate135
    eval_poly
  refine congrArg₂ List.cons ?_ ?_
  · unfold gate136
    eval_poly
  refine congrArg₂ List.cons ?_ ?_
  · unfold gate137
    eval_poly
  refine congrArg₂ List.cons ?_ ?_
  · unfold gate138
    eval_poly
  refine congrArg₂ List.cons ?_ ?_
  · unfold gate139
    eval_poly
  refine congrArg₂ List.cons ?_ ?_
  · unfold gate140
    eval_poly
  refine congrArg₂ List.cons ?_ ?_
  · unfold gate141
    eval_poly
  refine congrArg₂ List.cons ?_ ?_
  · unfold gate142
    eval_poly
  refine congrArg₂ List.cons ?_ ?_
  · unfold gate143
    eval_poly
  refine congrArg₂ List.cons ?_ ?_
  · unfold gate144
    eval_poly
  refine congrArg₂ List.cons ?_ ?_
  · unfold gate145
    eval_poly
  refine congrArg₂ List.cons ?_ ?_
  · unfold gate146
    eval_poly
  refine congrArg₂ List.cons ?_ ?_
  · unfold gate147
    eval_poly
  refine congrArg₂ List.cons ?_ ?_
  · unfold gate148
    eval_poly
  refine congrArg₂ List.cons ?_ ?_
  · unfold gate149
    eval_poly
  refine congrArg₂ List.cons ?_ ?_
  · unfold gate150
    eval_poly
  refine congrArg₂ List.cons ?_ ?_
  · unfold gate151
    eval_poly
  refine congrArg₂ List.cons ?_ ?_
  · unfold gate152
    eval_poly
  refine congrArg₂ List.cons ?_ ?_
  · unfold gate153
    eval_poly
  refine congrArg₂ List.cons ?_ ?_
  · unfold gate154
    eval_poly
  refine congrArg₂ List.cons ?_ ?_
  · unfold gate155
    eval_poly
  refine congrArg₂ List.cons ?_ ?_
  · unfold gate156
    eval_poly
  refine congrArg₂ List.cons ?_ ?_
  · unfold gate157
    eval_poly
  refine congrArg₂ List.cons ?_ ?_
  · unfold gate158
    eval_poly
  refine congrArg₂ List.cons ?_ ?_
  · unfold gate159
    eval_poly
  refine congrArg₂ List.cons ?_ ?_
  · unfold gate160
    eval_poly
  refine congrArg₂ List.cons ?_ ?_
  · unfold gate161
    eval_poly
  refine congrArg₂ List.cons ?_ ?_
  · unfold gate162
    eval_poly
  refine congrArg₂ List.cons ?_ ?_
  · unfold gate163
    eval_poly
  refine congrArg₂ List.cons ?_ ?_
  · unfold gate164
    eval_poly
  refine congrArg₂ List.cons ?_ ?_
  · unfold gate165
    eval_poly
  refine congrArg₂ List.cons ?_ ?_
  · unfold gate166
    eval_poly
  refine congrArg₂ List.cons ?_ ?_
  · unfold gate167
    eval_poly
  refine congrArg₂ List.cons ?_ ?_
  · unfold gate168
    eval_poly
  refine congrArg₂ List.cons ?_ ?_
  · unfold gate169
    eval_poly
  refine congrArg₂ List.cons ?_ ?_
  · unfold gate170
    eval_poly
  refine congrArg₂ List.cons ?_ ?_
  · unfold gate171
    eval_poly
  refine congrArg₂ List.cons ?_ ?_
  · unfold gate172
    eval_poly
  refine congrArg₂ List.cons ?_ ?_
  · unfold gate173
    eval_poly
  refine congrArg₂ List.cons ?_ ?_
  · unfold gate174
    eval_poly
  refine congrArg₂ List.cons ?_ ?_
  · unfold gate175
    eval_poly
  refine congrArg₂ List.cons ?_ ?_
  · unfold gate176
    eval_poly
  refine congrArg₂ List.cons ?_ ?_
  · unfold gate177
    eval_poly
  refine congrArg₂ List.cons ?_ ?_
  · unfold gate178
    eval_poly
  refine congrArg₂ List.cons ?_ ?_
  · unfold gate179
    eval_poly
  refine congrArg₂ List.cons ?_ ?_
  · unfold gate180
    eval_poly
  refine congrArg₂ List.cons ?_ ?_
  · unfold gate181
    eval_poly
  refine congrArg₂ List.cons ?_ ?_
  · unfold gate182
    eval_poly
  refine congrArg₂ List.cons ?_ ?_
  · unfold gate183
    eval_poly
  refine congrArg₂ List.cons ?_ ?_
  · unfold gate184
    eval_poly
  refine congrArg₂ List.cons ?_ ?_
  · unfold gate185
    eval_poly
  refine congrArg₂ List.cons ?_ ?_
  · unfold gate186
    eval_poly
  refine congrArg₂ List.cons ?_ ?_
  · unfold gate187
    eval_poly
  refine congrArg₂ List.cons ?_ ?_
  · unfold gate188
    eval_poly
  refine congrArg₂ List.cons ?_ ?_
  · unfold gate189
    eval_poly
  refine congrArg₂ List.cons ?_ ?_
  · unfold gate190
    eval_poly
  refine congrArg₂ List.cons ?_ ?_
  · unfold gate191
    eval_poly
  refine congrArg₂ List.cons ?_ rfl
  · unfold gate192
    eval_poly

theorem circuitPolys_eq (r : Row) : circuitPolys r =
    polysOf r (crateCodes.take 2) ((crateGates r).take 2) ++ polysOf r eccCodes (eccGates r) ++
      polysOf r poseidonCodes (poseidonGates r) ++ polysOf r hash1Codes (sinsemillaGates r 0 0 12) ++
      polysOf r hash2Codes (sinsemillaGates r 5 1 13) ++
      polysOf r (crateCodes.drop 2) ((crateGates r).drop 2) := by
  have hA : (crateCodes.take 2).length = ((crateGates r).take 2).length := by
    unfold crateGates
    eval_configured
    rfl
  have h1 : eccCodes.length = (eccGates r).length := rfl
  have h2 : poseidonCodes.length = (poseidonGates r).length := rfl
  have h3 : hash1Codes.length = (sinsemillaGates r 0 0 12).length := rfl
  have h4 : hash2Codes.length = (sinsemillaGates r 5 1 13).length := rfl
  have : circuitPolys r = polysOf r gateCodes (circuitGates r) := rfl
  rw [this, gateCodes, circuitGates, polysOf_append, polysOf_append, polysOf_append, polysOf_append,
    polysOf_append] <;> simp only [List.length_append, hA, h1, h2, h3, h4]

theorem gates_eval (r : Row) : gates.map (Expr.eval r) = circuitPolys r := by
  rw [circuitPolys_eq, ← poly_crateA, ← poly_ecc, ← poly_poseidon, ← poly_hash1, ← poly_hash2, ← poly_crateB]
  rfl

end Orchard.Pinned
