import Verif.Lemmas.PatchBasic
import Verif.Lemmas.RegionPoseidon

/-!
# Regions that honest provers fill: Poseidon
-/

namespace Orchard.Regions

open Halo2 Layout Pinned Spec

variable {P : Prims} {T : Table} {F : FixedTable}

theorem mdsInv_mds (s : Fp × Fp × Fp) :
    (mdsInvRow mdsInv.1 (Poseidon.mds s), mdsInvRow mdsInv.2.1 (Poseidon.mds s), mdsInvRow mdsInv.2.2 (Poseidon.mds s)) =
      s := by
  have h : Function.LeftInverse Poseidon.mds
      fun s => (mdsInvRow mdsInv.1 s, mdsInvRow mdsInv.2.1 s, mdsInvRow mdsInv.2.2 s) := mds_mdsInv
  exact h.rightInverse_of_surjective (Finite.surjective_of_injective h.injective) s

/-- The constants of a row. -/
def rowRound (i : ℕ) : ℕ := if i < 4 then i else if i < 32 then 4 + 2 * (i - 4) else 60 + (i - 32)

/-- The step of a row. -/
def rowStep (i : ℕ) (s : Fp × Fp × Fp) : Fp × Fp × Fp :=
  if i < 4 ∨ 32 ≤ i then Poseidon.fullRound s (rc (rowRound i))
  else Poseidon.partialRound (Poseidon.partialRound s (rc (rowRound i))) (rc (rowRound i + 1))

/-- The state on a row. -/
def rowState (s : Fp × Fp × Fp) : ℕ → Fp × Fp × Fp
  | 0 => s
  | i + 1 => rowStep i (rowState s i)

def poseidonPatch (s0 s : ℕ) (x y : Fp) : Patch :=
  let st := rowState (x, y, 2 * 2 ^ 64)
  ⟨cellsAt s0 [(6, 0), (7, 0), (8, 2 * 2 ^ 64)] ++ cellsAt (s0 + 1) [(6, x), (7, y)] ++
      cellsAt (s0 + 2) [(6, x), (7, y), (8, 2 * 2 ^ 64)] ++
      [⟨6, s, 37, fun i => (st i).1⟩, ⟨7, s, 37, fun i => (st i).2.1⟩, ⟨8, s, 37, fun i => (st i).2.2⟩,
        ⟨5, s + 4, 28, fun i => ((st (4 + i)).1 + (roundConstant (4 + 2 * i)).1) ^ 5⟩],
    [⟨5, s, 36, fun i => (roundConstant (rowRound i)).1⟩, ⟨6, s, 36, fun i => (roundConstant (rowRound i)).2.1⟩,
      ⟨7, s, 36, fun i => (roundConstant (rowRound i)).2.2⟩,
      ⟨8, s + 4, 28, fun i => (roundConstant (4 + 2 * i + 1)).1⟩,
      ⟨9, s + 4, 28, fun i => (roundConstant (4 + 2 * i + 1)).2.1⟩,
      ⟨10, s + 4, 28, fun i => (roundConstant (4 + 2 * i + 1)).2.2⟩],
    [(⟨24, 2, 4⟩, s0 + 1, 1), (⟨21, 4, 4⟩, s, 4), (⟨24, 1, 4⟩, s + 4, 28), (⟨21, 4, 4⟩, s + 32, 4)], []⟩

structure PoseidonCells (T : Table) (F : FixedTable) (s0 s : ℕ) (x y : Fp) : Prop where
  initial : stateAt T s0 = (0, 0, 2 * 2 ^ 64)
  input : T (6, s0 + 1) = x ∧ T (7, s0 + 1) = y
  output : stateAt T (s0 + 2) = (x, y, 2 * 2 ^ 64)
  state : ∀ i ≤ 36, stateAt T (s + i) = rowState (x, y, 2 * 2 ^ 64) i
  mid : ∀ i < 28, T (5, s + 4 + i) = ((rowState (x, y, 2 * 2 ^ 64) (4 + i)).1 + (roundConstant (4 + 2 * i)).1) ^ 5
  rcA : ∀ i < 36, rcA F (s + i) = roundConstant (rowRound i)
  rcB : ∀ i < 28, rcB F (s + 4 + i) = roundConstant (4 + 2 * i + 1)

theorem poseidonPatch_cells {s0 s : ℕ} {x y : Fp} (h : Contains T F (poseidonPatch s0 s x y)) :
    PoseidonCells T F s0 s x y := by
  have h1 := h.advice
  have h2 := h.fixed
  simp only [poseidonPatch, cellsAt, List.map_cons, List.map_nil, List.cons_append, List.nil_append,
    List.forall_mem_cons, hasStrip_one] at h1 h2
  obtain ⟨a1, a2, a3, a4, a5, a6, a7, a8, b1, b2, b3, b4, -⟩ := h1
  obtain ⟨c1, c2, c3, c4, c5, c6, -⟩ := h2
  exact ⟨Prod.ext a1 (Prod.ext a2 a3), ⟨a4, a5⟩, Prod.ext a6 (Prod.ext a7 a8),
    fun i hi => Prod.ext (b1 i (show i < 37 by omega)) (Prod.ext (b2 i (show i < 37 by omega)) (b3 i (show i < 37 by omega))),
    b4, fun i hi => Prod.ext (c1 i hi) (Prod.ext (c2 i hi) (c3 i hi)),
    fun i hi => Prod.ext (c4 i hi) (Prod.ext (c5 i hi) (c6 i hi))⟩

theorem poseidonPatch_region {s0 s : ℕ} {x y : Fp} (h0 : s0 + 2 < usableRows) (hs : s + 36 < usableRows)
    (h : Contains T F (poseidonPatch s0 s x y)) : PoseidonRegion T F s0 s x y := by
  obtain ⟨h1, h2, h3, h4, h5, h6, h7⟩ := poseidonPatch_cells h
  refine ⟨⟨h0, hs⟩, h1, h.on (i := 0) (List.mem_cons_self ..) (by norm_num), h2, ?_, fun r hr => ⟨?_, ?_⟩,
    fun r hr => ⟨?_, ?_, h7 r hr⟩, fun r hr => ⟨?_, ?_⟩⟩
  · rw [h3, ← Nat.add_zero s, h4 0 (by omega)]
    rfl
  · exact h.on (List.mem_cons_of_mem _ (List.mem_cons_self ..)) hr
  · rw [h6 r (by omega), rowRound, if_pos hr]
  · exact h.on (List.mem_cons_of_mem _ (List.mem_cons_of_mem _ (List.mem_cons_self ..))) hr
  · have := h6 (4 + r) (by omega)
    rwa [← Nat.add_assoc, rowRound, if_neg (by omega), if_pos (by omega), show 4 + r - 4 = r by omega] at this
  · exact h.on (List.mem_cons_of_mem _ (List.mem_cons_of_mem _ (List.mem_cons_of_mem _ (List.mem_cons_self ..)))) hr
  · have := h6 (32 + r) (by omega)
    rwa [← Nat.add_assoc, rowRound, if_neg (by omega), if_neg (by omega), show 32 + r - 32 = r by omega] at this

theorem fullRound_gateAt {row r : ℕ} (hr : row + 1 < numRows) (hrc : rcA F row = roundConstant r)
    (h : stateAt T (row + 1) = Poseidon.fullRound (stateAt T row) (rc r)) : GateAt T F ⟨21, 4, 4⟩ row := by
  refine poseidon_gateAt 0 rfl rfl ?_
  rw [poseidonState_cur (by omega), poseidonState_next hr, rcA_at (by omega), hrc, h]
  simp only [fullRoundGate, stateDiff, gate_cons, gate_nil, and_true]
  exact ⟨sub_self _, sub_self _, sub_self _⟩

theorem partialRounds_gateAt {row r : ℕ} (hr : row + 1 < numRows) (hA : rcA F row = roundConstant r)
    (hB : rcB F row = roundConstant (r + 1)) (hm : T (5, row) = ((stateAt T row).1 + (roundConstant r).1) ^ 5)
    (h : stateAt T (row + 1) = Poseidon.partialRound (Poseidon.partialRound (stateAt T row) (rc r)) (rc (r + 1))) :
    GateAt T F ⟨24, 1, 4⟩ row := by
  refine poseidon_gateAt 1 rfl rfl ?_
  rw [poseidonState_cur (by omega), poseidonState_next hr, rcA_at (by omega), rcB_at (by omega), hA, hB,
    rowAt_cur (by omega), hm, h]
  have e := mdsInv_mds (((Poseidon.partialRound (stateAt T row) (rc r)).1 + ((rc (r + 1)).1 : ℕ)) ^ 5,
    (Poseidon.partialRound (stateAt T row) (rc r)).2.1 + ((rc (r + 1)).2.1 : ℕ),
    (Poseidon.partialRound (stateAt T row) (rc r)).2.2 + ((rc (r + 1)).2.2 : ℕ))
  simp only [Prod.mk.injEq] at e
  simp only [partialRoundsGate, gate_cons, gate_nil, and_true]
  refine ⟨sub_self _, ?_, ?_, ?_⟩
  · rw [sub_eq_zero]
    exact e.1.symm
  · rw [sub_eq_zero]
    exact e.2.1.symm
  · rw [sub_eq_zero]
    exact e.2.2.symm

theorem poseidonPatch_ok {s0 s : ℕ} {x y : Fp} (h0 : s0 + 2 < usableRows) (hs : s + 36 < usableRows) :
    (poseidonPatch s0 s x y).Ok P where
  cols st h := by
    simp only [poseidonPatch, List.mem_cons, List.not_mem_nil, or_false] at h
    rcases h with rfl | rfl | rfl | rfl | rfl | rfl <;> exact ⟨by norm_num, by norm_num⟩
  codes x h := by
    simp only [poseidonPatch, List.mem_cons, List.not_mem_nil, or_false] at h
    rcases h with rfl | rfl | rfl | rfl <;> exact mem_gateCodes rfl
  gates T F hc x h i hi := by
    have hu := usable_le
    obtain ⟨h1, h2, h3, h4, h5, h6, h7⟩ := poseidonPatch_cells hc
    simp only [poseidonPatch, List.mem_cons, List.not_mem_nil, or_false] at h
    rcases h with rfl | rfl | rfl | rfl
    · dsimp only at hi ⊢
      obtain rfl : i = 0 := by omega
      refine ⟨by omega, poseidon_gateAt 2 rfl rfl ?_, by simp, by simp⟩
      rw [Nat.add_zero, poseidonState_cur (by omega), poseidonState_next (by omega), poseidonState_prev (by omega), h1,
        show s0 + 1 + 1 = s0 + 2 from rfl, h3]
      simp only [padAndAddGate, gate_cons, gate_nil, and_true, stateAt]
      rw [h2.1, h2.2]
      exact ⟨by ring, by ring, by ring⟩
    · dsimp only at hi ⊢
      refine ⟨by omega, fullRound_gateAt (r := i) (by omega) ?_ ?_, by simp, by simp⟩
      · rw [h6 i (by omega), rowRound, if_pos hi]
      · rw [Nat.add_assoc, h4 (i + 1) (by omega), h4 i (by omega), rowState, rowStep, if_pos (Or.inl hi), rowRound, if_pos hi]
    · dsimp only at hi ⊢
      have e : s + 4 + i = s + (4 + i) := by omega
      have er : rowRound (4 + i) = 4 + 2 * i := by
        rw [rowRound, if_neg (by omega), if_pos (by omega), show 4 + i - 4 = i by omega]
      refine ⟨by omega, partialRounds_gateAt (r := 4 + 2 * i) (by omega) ?_ (h7 i hi) ?_ ?_, by simp, by simp⟩
      · rw [e, h6 (4 + i) (by omega), er]
      · rw [h5 i hi, e, h4 (4 + i) (by omega)]
      · rw [show s + 4 + i + 1 = s + (4 + i + 1) by omega, e, h4 (4 + i + 1) (by omega), h4 (4 + i) (by omega), rowState, rowStep,
          if_neg (by omega), er]
    · dsimp only at hi ⊢
      have e : s + 32 + i = s + (32 + i) := by omega
      have er : rowRound (32 + i) = 60 + i := by
        rw [rowRound, if_neg (by omega), if_neg (by omega), show 32 + i - 32 = i by omega]
      refine ⟨by omega, fullRound_gateAt (r := 60 + i) (by omega) ?_ ?_, by simp, by simp⟩
      · rw [e, h6 (32 + i) (by omega), er]
      · rw [show s + 32 + i + 1 = s + (32 + i + 1) by omega, e, h4 (32 + i + 1) (by omega), h4 (32 + i) (by omega), rowState, rowStep,
          if_pos (by omega), er]
  lookups T F _ x h := by cases h

end Orchard.Regions
