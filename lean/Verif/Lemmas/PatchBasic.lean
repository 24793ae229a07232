import Verif.Lemmas.Patch
import Verif.Lemmas.RegionMulFixed

/-!
# Regions that honest provers fill: range checks, points, additions
-/

namespace Orchard.Regions

open Halo2 Layout Pinned Spec

variable {P : Prims} {T : Table} {F : FixedTable}

theorem mem_gateCodes {c : SelectorCode} (h : gateCodes.contains c = true) : c ∈ gateCodes :=
  List.contains_iff_mem.1 h

/-- Cells of a row. -/
def cellsAt (row : ℕ) (vals : List (ℕ × Fp)) : List Strip := vals.map fun x => ⟨x.1, row, 1, fun _ => x.2⟩

theorem hasStrip_one {f : ℕ → ℕ → Fp} {c row : ℕ} {v : ℕ → Fp} :
    HasStrip f ⟨c, row, 1, v⟩ ↔ f c row = v 0 := by
  constructor
  · intro h
    exact h 0 (by simp)
  · intro h i hi
    simp only at hi
    obtain rfl : i = 0 := by omega
    exact h

theorem cellsAt_iff {row : ℕ} {vals : List (ℕ × Fp)} :
    (∀ st ∈ cellsAt row vals, HasStrip (fun c r => T (c, r)) st) ↔ ∀ x ∈ vals, T (x.1, row) = x.2 := by
  simp only [cellsAt, List.forall_mem_map, hasStrip_one]

/-! ### Range checks -/

def rangePatch (n s : ℕ) (z : ℕ → Fp) : Patch := ⟨[⟨9, s, n + 1, z⟩], [], [], [(s, n, true)]⟩

theorem rangePatch_cells {n s : ℕ} {z : ℕ → Fp} (h : Contains T F (rangePatch n s z)) {i : ℕ} (hi : i ≤ n) :
    T (9, s + i) = z i :=
  h.advice _ (List.mem_singleton_self _) i (Nat.lt_succ_of_le hi)

theorem rangePatch_ok {n s : ℕ} {z : ℕ → Fp} (hs : s + n < usableRows) (hz : RunningSum n z) :
    (rangePatch n s z).Ok P where
  cols st h := by cases h
  codes x h := by cases h
  gates T F _ x h := by cases h
  lookups T F hc x hx i hi := by
    obtain rfl := List.mem_singleton.1 hx
    dsimp only at hi
    have hu := usable_le
    refine ⟨by dsimp only; omega, ?_⟩
    simp only [RangeAt, if_true]
    have h1 := rangePatch_cells hc (i := i) (by omega)
    have h2 := rangePatch_cells hc (i := i + 1) (by omega)
    rw [← Nat.add_assoc] at h2
    rw [h1, h2, mul_comm]
    exact hz i hi

theorem rangePatch_region {n s : ℕ} {z : ℕ → Fp} (hs : s + n < usableRows) (h : Contains T F (rangePatch n s z)) :
    RangeCheckRegion F n s where
  fits := hs
  lookup i hi := (h.lookups _ (List.mem_singleton_self _)).1 i hi
  running i hi := (h.lookups _ (List.mem_singleton_self _)).2 i hi

def shortPatch (bits s : ℕ) (x : Fp) : Patch :=
  ⟨cellsAt s [(9, x)] ++ cellsAt (s + 1) [(9, 2 ^ (10 - bits) * x)] ++ cellsAt (s + 2) [(9, ((2 : Fp) ^ bits)⁻¹)],
    [], [(⟨18, 3, 6⟩, s + 1, 1)], [(s, 2, false)]⟩

theorem shortPatch_cells {bits s : ℕ} {x : Fp} (h : Contains T F (shortPatch bits s x)) :
    T (9, s) = x ∧ T (9, s + 1) = 2 ^ (10 - bits) * x ∧ T (9, s + 2) = ((2 : Fp) ^ bits)⁻¹ := by
  have := h.advice
  simp only [shortPatch, cellsAt, List.map_cons, List.map_nil, List.cons_append, List.nil_append,
    List.forall_mem_cons, hasStrip_one] at this
  exact ⟨this.1, this.2.1, this.2.2.1⟩

theorem shortPatch_ok {bits s : ℕ} {x : Fp} (hs : s + 2 < usableRows) (hb : bits ≤ 10) (hx : ShortCheck bits x) :
    (shortPatch bits s x).Ok P where
  cols st h := by cases h
  codes x h := by
    rw [List.mem_singleton.1 h]
    exact mem_gateCodes rfl
  gates T F hc x h i hi := by
    obtain rfl := List.mem_singleton.1 h
    dsimp only at hi ⊢
    obtain rfl : i = 0 := by omega
    have hu := usable_le
    obtain ⟨h1, h2, h3⟩ := shortPatch_cells hc
    refine ⟨by omega, ecc_gateAt 0 rfl rfl ?_, by simp, by simp⟩
    rw [Nat.add_zero, bitshiftGate, gate_cons, rowAt_cur (by omega), rowAt_prev (by omega), rowAt_next (by omega), h1, h2,
      h3]
    refine ⟨?_, gate_nil⟩
    have h0 : (2 : Fp) ^ bits ≠ 0 := pow_ne_zero _ two_ne_zero_Fp
    rw [sub_eq_zero, ← eq_mul_inv_iff_mul_eq₀ (inv_ne_zero h0), inv_inv, mul_right_comm, ← pow_add,
      Nat.sub_add_cancel hb, mul_comm]
  lookups T F hc y hy i hi := by
    obtain rfl := List.mem_singleton.1 hy
    dsimp only at hi ⊢
    have hu := usable_le
    obtain ⟨h1, h2, h3⟩ := shortPatch_cells hc
    refine ⟨by omega, ?_⟩
    simp only [RangeAt, Bool.false_eq_true, if_false]
    obtain rfl | rfl : i = 0 ∨ i = 1 := by omega
    · rw [Nat.add_zero, h1]
      exact hx.1
    · rw [h2]
      exact hx.2

theorem shortPatch_region {bits s : ℕ} {x : Fp} (hs : s + 2 < usableRows) (h : Contains T F (shortPatch bits s x)) :
    ShortCheckRegion T F bits s where
  fits := hs
  lookup := ⟨(h.lookups _ (List.mem_singleton_self _)).1 0 (by simp [lookupStrip]),
    (h.lookups _ (List.mem_singleton_self _)).1 1 (by simp [lookupStrip])⟩
  running := ⟨(h.lookups _ (List.mem_singleton_self _)).2 0 (by simp [runningStrip]),
    (h.lookups _ (List.mem_singleton_self _)).2 1 (by simp [runningStrip])⟩
  bitshift := h.on (i := 0) (List.mem_singleton_self _) (by norm_num)
  inverse := (shortPatch_cells h).2.2

/-! ### Points -/

def pointPatch (code : SelectorCode) (s : ℕ) (A : Fp × Fp) : Patch :=
  ⟨cellsAt s [(0, A.1), (1, A.2)], [], [(code, s, 1)], []⟩

theorem pointPatch_cells {code : SelectorCode} {s : ℕ} {A : Fp × Fp} (h : Contains T F (pointPatch code s A)) :
    pointAt T 0 s = A := by
  have := cellsAt_iff.1 h.advice
  exact Prod.ext (this (0, A.1) (by simp)) (this (1, A.2) (by simp))

theorem curveEqn_cells {A : Point} (hA : A ≠ 0) : curveEqn (cells A) = 0 := by
  rcases Point.cases_xy A with rfl | ⟨x, y, e, rfl⟩
  · exact absurd rfl hA
  · rw [cells_ofXY]
    simp only [curveEqn]
    linear_combination e

theorem witnessPoint_ok {s : ℕ} (hs : s < usableRows) (A : Point) : (pointPatch ⟨19, 1, 4⟩ s (cells A)).Ok P where
  cols st h := by cases h
  codes x h := by
    rw [List.mem_singleton.1 h]
    exact mem_gateCodes rfl
  gates T F hc x h i hi := by
    obtain rfl := List.mem_singleton.1 h
    dsimp only at hi ⊢
    obtain rfl : i = 0 := by omega
    have hu := usableRows_eq
    have hn : numRows = 2048 := rfl
    have h1 := pointPatch_cells hc
    refine ⟨by omega, ecc_gateAt 1 rfl rfl ?_, by simp, by simp⟩
    rw [Nat.add_zero, rowAt_cur (by omega), rowAt_cur (by omega), show (T (0, s), T (1, s)) = cells A from h1]
    simp only [witnessPointGate, gate_cons, gate_nil, and_true]
    by_cases h0 : A = 0
    · subst h0
      exact ⟨zero_mul _, zero_mul _⟩
    · rw [curveEqn_cells h0, mul_zero, mul_zero]
      exact ⟨rfl, rfl⟩
  lookups T F _ x h := by cases h

theorem witnessNonId_ok {s : ℕ} (hs : s < usableRows) {A : Point} (hA : A ≠ 0) :
    (pointPatch ⟨19, 2, 4⟩ s (cells A)).Ok P where
  cols st h := by cases h
  codes x h := by
    rw [List.mem_singleton.1 h]
    exact mem_gateCodes rfl
  gates T F hc x h i hi := by
    obtain rfl := List.mem_singleton.1 h
    dsimp only at hi ⊢
    obtain rfl : i = 0 := by omega
    have hu := usableRows_eq
    have hn : numRows = 2048 := rfl
    have h1 := pointPatch_cells hc
    refine ⟨by omega, ecc_gateAt 2 rfl rfl ?_, by simp, by simp⟩
    rw [Nat.add_zero, rowAt_cur (by omega), rowAt_cur (by omega), show (T (0, s), T (1, s)) = cells A from h1]
    simp only [witnessNonIdGate, gate_cons, gate_nil, and_true]
    exact curveEqn_cells hA
  lookups T F _ x h := by cases h

theorem pointPatch_on {code : SelectorCode} {s : ℕ} {A : Fp × Fp} (h : Contains T F (pointPatch code s A)) :
    On F code s := h.on (i := 0) (List.mem_singleton_self _) (by norm_num)

/-! ### Addition -/

theorem add_gateAt {row : ℕ} (hr : row + 1 < numRows)
    (h : Gate (addComplete (pointAt T 0 row) (pointAt T 2 row) (pointAt T 2 (row + 1)) (T (4, row)) (T (5, row))
      (T (6, row)) (T (7, row)) (T (8, row)))) : GateAt T F ⟨19, 4, 4⟩ row := by
  refine ecc_gateAt 4 rfl rfl ?_
  simp only [rowAt_cur (show row < numRows by omega), rowAt_next hr]
  exact h

/-- The five further witnesses of an addition. -/
structure AddCells where
  l : Fp
  α : Fp
  β : Fp
  γ : Fp
  δ : Fp

def AddCells.Ok (w : AddCells) (a b out : Fp × Fp) : Prop := Gate (addComplete a b out w.l w.α w.β w.γ w.δ)

def addPatch (s : ℕ) (a b out : Fp × Fp) (w : AddCells) : Patch :=
  ⟨cellsAt s [(0, a.1), (1, a.2), (2, b.1), (3, b.2), (4, w.l), (5, w.α), (6, w.β), (7, w.γ), (8, w.δ)] ++
    cellsAt (s + 1) [(2, out.1), (3, out.2)], [], [(⟨19, 4, 4⟩, s, 1)], []⟩

theorem addPatch_cells {s : ℕ} {a b out : Fp × Fp} {w : AddCells} (h : Contains T F (addPatch s a b out w)) :
    pointAt T 0 s = a ∧ pointAt T 2 s = b ∧ pointAt T 2 (s + 1) = out ∧
      (⟨T (4, s), T (5, s), T (6, s), T (7, s), T (8, s)⟩ : AddCells) = w := by
  have := h.advice
  simp only [addPatch, cellsAt, List.map_cons, List.map_nil, List.cons_append, List.nil_append,
    List.forall_mem_cons, hasStrip_one] at this
  obtain ⟨h0, h1, h2, h3, h4, h5, h6, h7, h8, k2, k3, -⟩ := this
  refine ⟨Prod.ext h0 h1, Prod.ext h2 h3, Prod.ext k2 k3, ?_⟩
  rw [h4, h5, h6, h7, h8]

theorem addPatch_ok {s : ℕ} (hs : s + 1 < usableRows) {a b out : Fp × Fp} {w : AddCells} (hw : w.Ok a b out) :
    (addPatch s a b out w).Ok P where
  cols st h := by cases h
  codes x h := by
    rw [List.mem_singleton.1 h]
    exact mem_gateCodes rfl
  gates T F hc x h i hi := by
    obtain rfl := List.mem_singleton.1 h
    dsimp only at hi ⊢
    obtain rfl : i = 0 := by omega
    have hu := usable_le
    obtain ⟨h1, h2, h3, h4⟩ := addPatch_cells hc
    refine ⟨by omega, add_gateAt (by omega) ?_, by simp, by simp⟩
    rw [Nat.add_zero, h1, h2, h3]
    rw [← h4] at hw
    exact hw
  lookups T F _ x h := by cases h

theorem addPatch_region {s : ℕ} (hs : s + 1 < usableRows) {a b out : Fp × Fp} {w : AddCells}
    (h : Contains T F (addPatch s a b out w)) : AddRegion T F s a b where
  fits := hs
  addOn := h.on (i := 0) (List.mem_singleton_self _) (by norm_num)
  left := (addPatch_cells h).1
  right := (addPatch_cells h).2.1

theorem exists_addCells (A B : Point) : ∃ w : AddCells, w.Ok (cells A) (cells B) (cells (A + B)) := by
  obtain ⟨l, α, β, γ, δ, h⟩ := addComplete_complete A B
  exact ⟨⟨l, α, β, γ, δ⟩, h⟩

end Orchard.Regions
