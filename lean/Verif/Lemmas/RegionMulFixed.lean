import Verif.Model.Regions
import Verif.Lemmas.RegionHash
import Verif.Lemmas.MulFixed

/-!
# Points, addition and fixed-base multiplication, from their gates
-/

namespace Orchard.Regions

open Halo2 Layout Pinned Spec

variable {P : Prims} {T : Table} {F : FixedTable}

theorem curveEqn_point {A : Fp × Fp} (h : curveEqn A = 0) : ∃ B : Point, B ≠ 0 ∧ A = cells B := by
  obtain ⟨x, y⟩ := A
  have e : y ^ 2 = x ^ 3 + 5 := by
    simp only [curveEqn] at h
    linear_combination h
  exact ⟨Point.ofXY x y e, Point.ofXY_ne_zero _ _ _, (cells_ofXY x y e).symm⟩

theorem witnessNonId_sound (hT : GatesHold T F) {s : ℕ} (h : WitnessNonIdRegion F s) :
    ∃ A : Point, A ≠ 0 ∧ pointAt T 0 s = cells A := by
  have hf := h.fits
  have hu := usable_le
  have hg := ecc_at hT (row := s) (by omega) 2 rfl rfl h.pointOn
  rw [witnessNonIdGate, gate_cons, rowAt_cur (by omega), rowAt_cur (by omega)] at hg
  exact curveEqn_point hg.1

theorem witnessPoint_sound (hT : GatesHold T F) {s : ℕ} (h : WitnessPointRegion F s) :
    ∃ A : Point, pointAt T 0 s = cells A := by
  have hf := h.fits
  have hu := usable_le
  have hg := ecc_at hT (row := s) (by omega) 1 rfl rfl h.pointOn
  rw [witnessPointGate, gate_cons, gate_cons, rowAt_cur (by omega), rowAt_cur (by omega)] at hg
  obtain ⟨h1, h2, -⟩ := hg
  rcases mul_eq_zero.1 h1 with hx | hc
  · rcases mul_eq_zero.1 h2 with hy | hc
    · exact ⟨0, Prod.ext hx hy⟩
    · obtain ⟨B, -, e⟩ := curveEqn_point hc
      exact ⟨B, e⟩
  · obtain ⟨B, -, e⟩ := curveEqn_point hc
    exact ⟨B, e⟩

theorem add_gate (hT : GatesHold T F) {s : ℕ} {a b : Fp × Fp} (h : AddRegion T F s a b) :
    ∃ l α β γ δ, Gate (addComplete a b (pointAt T 2 (s + 1)) l α β γ δ) := by
  have hf := h.fits
  have hu := usable_le
  have hg := ecc_at hT (row := s) (by omega) 4 rfl rfl h.addOn
  simp only [rowAt_cur (show s < numRows by omega), rowAt_next (show s + 1 < numRows by omega)] at hg
  rw [← h.left, ← h.right]
  exact ⟨_, _, _, _, _, hg⟩

theorem add_sound (hT : GatesHold T F) {s : ℕ} {A B : Point} (h : AddRegion T F s (cells A) (cells B)) :
    pointAt T 2 (s + 1) = cells (A + B) := by
  obtain ⟨_, _, _, _, _, hg⟩ := add_gate hT h
  exact addComplete_sound hg

/-- The cells of the windows. -/
def windowCells (T : Table) (s : ℕ) : WindowCells where
  point w := pointAt T 0 (s + w)
  u w := T (5, s + w)
  acc w := if w = 0 then pointAt T 0 s else pointAt T 2 (s + w + 1)

theorem coordsCheck_congr {f g : ℕ → Fp} (h : ∀ i < fixedBaseH, f i = g i) (z w u : Fp) (A : Fp × Fp) :
    coordsCheck f z w u A = coordsCheck g z w u A := by
  unfold coordsCheck
  rw [Finset.sum_congr rfl fun i hi => by rw [h i (Finset.mem_range.1 hi)]]

theorem windows_gates (hT : GatesHold T F) {B : FixedBase} {n s e : ℕ} (hn : 3 ≤ n)
    (h : WindowsRegion T F B n s e) {window : ℕ → Fp}
    (hw : ∀ w < n, Gate (coordsCheck (fun i => F (3 + i) (s + w)) (F 11 (s + w)) (window w) (T (5, s + w))
      (pointAt T 0 (s + w)))) :
    MulWindows B n window (windowCells T s) (pointAt T 2 (e + 1)) := by
  have hf := h.fits
  have hu := usable_le
  refine ⟨fun w hwn => ?_, by simp [windowCells], fun w h0 hwn => ?_, ?_⟩
  · have := hw w hwn
    rw [h.z w hwn, coordsCheck_congr (h.coeffs w hwn)] at this
    exact this
  · have hg := ecc_at hT (row := s + w) (by omega) 3 rfl rfl (h.addOn w h0 hwn)
    simp only [rowAt_cur (show s + w < numRows by omega),
      rowAt_next (show s + w + 1 < numRows by omega)] at hg
    have hacc : (windowCells T s).acc (w - 1) = pointAt T 2 (s + w) := by
      simp only [windowCells]
      split_ifs with h1
      · have : w = 1 := by omega
        rw [this, h.first]
      · rw [show s + (w - 1) + 1 = s + w by omega]
    rw [hacc]
    simp only [windowCells, if_neg (show w ≠ 0 by omega)]
    exact hg
  · have := add_gate hT h.last
    simp only [windowCells, if_neg (show n - 2 ≠ 0 by omega)]
    rwa [show s + (n - 2) + 1 = s + (n - 1) by omega]

theorem full_gates (hT : GatesHold T F) {B : FixedBase} {s e : ℕ} (h : MulFullRegion T F B s e) :
    MulFixedGates B (fun w => T (4, s + w)) (windowCells T s) (pointAt T 2 (e + 1)) := by
  have hf := h.windows.fits
  have hu := usable_le
  have hg : ∀ w < numWindows, Gate (fullWidthGate (fun i => F (3 + i) (s + w)) (F 11 (s + w)) (T (4, s + w))
      (T (5, s + w)) (pointAt T 0 (s + w))) := by
    intro w hw
    have hr : s + w < numRows := by omega
    have := ecc_at hT (row := s + w) hr 15 rfl rfl (h.windowsOn w hw)
    simp only [rowAt_cur hr, rowAt_fixed T F hr] at this
    have e : (rowAt T F (s + w)).lagrange = fun i => F (3 + i) (s + w) := by
      funext i
      exact rowAt_fixed T F hr _
    rw [e] at this
    exact this
  refine ⟨fun w hw => ?_, windows_gates hT (by decide) h.windows fun w hw => ?_⟩
  · exact fun x hx => hg w hw x (List.mem_append_right _ hx)
  · exact fun x hx => hg w hw x (List.mem_append_left _ hx)

theorem running_gates (hT : GatesHold T F) {B : FixedBase} {n s e : ℕ} (hn : 3 ≤ n)
    (h : WindowsRegion T F B n s e) {scalar : Fp} (hd : DecomposeRegion T F n s scalar) :
    Decompose n (fun w => T (4, s + w)) ∧
      MulWindows B n (windowOf fun w => T (4, s + w)) (windowCells T s) (pointAt T 2 (e + 1)) := by
  have hf := h.fits
  have hu := usable_le
  have hg : ∀ w < n, Gate (runningSumCoordsGate (fun i => F (3 + i) (s + w)) (F 11 (s + w)) (T (4, s + w))
      (T (4, s + w + 1)) (T (5, s + w)) (pointAt T 0 (s + w))) := by
    intro w hw
    have hr : s + w < numRows := by omega
    have := ecc_at hT (row := s + w) hr 14 rfl rfl (hd.windowsOn w hw)
    simp only [rowAt_cur hr, rowAt_fixed T F hr, rowAt_next (show s + w + 1 < numRows by omega)] at this
    have e : (rowAt T F (s + w)).lagrange = fun i => F (3 + i) (s + w) := by
      funext i
      exact rowAt_fixed T F hr _
    rw [e] at this
    exact this
  refine ⟨⟨fun w hw => ?_, hd.final⟩, windows_gates hT hn h fun w hw => ?_⟩
  · have := hg w hw
    rw [runningSumCoordsGate, gate_cons] at this
    exact gate_cons.2 ⟨this.1, by simp [Gate]⟩
  · have := hg w hw
    rw [runningSumCoordsGate, gate_cons] at this
    exact this.2

theorem short_gates (hT : GatesHold T F) {B : FixedBase} {s e : ℕ} {magnitude sign : Fp}
    (h : MulShortRegion T F B s e magnitude sign) :
    MulFixedShortGates B magnitude sign (fun w => T (4, s + w)) (windowCells T s) (pointAt T 2 (e + 1))
      (T (2, e + 1), T (1, e + 1)) := by
  have hf := h.windows.last.fits
  have hu := usable_le
  obtain ⟨h1, h2⟩ := running_gates hT (by decide) h.windows h.decompose
  have hr : e + 1 < numRows := by omega
  have hg := ecc_at hT (row := e + 1) hr 16 rfl rfl h.shortOn
  simp only [rowAt_cur hr, h.sign, h.lastWindow] at hg
  exact ⟨h.decompose.scalar, h1, h2, rfl, hg⟩

theorem base_gates (hT : Satisfied T F) (hL : TableLoaded P F) {B : FixedBase} {s e k t : ℕ} {scalar : Fp}
    (h : MulBaseRegion T F B s e k t scalar) :
    MulFixedBaseGates B scalar (fun w => T (4, s + w)) ⟨T (7, k + 1), T (8, k + 1), fun i => T (9, t + i)⟩
      (windowCells T s) (pointAt T 2 (e + 1)) := by
  have hf := h.fits
  have hu := usable_le
  obtain ⟨h1, h2⟩ := running_gates hT.1 (by decide) h.windows h.decompose
  have hr : k + 1 < numRows := by omega
  have hg := ecc_at hT.1 (row := k + 1) hr 17 rfl rfl h.canonOn
  simp only [rowAt_cur hr, rowAt_prev (show k + 1 < numRows by omega),
    rowAt_next (show k + 1 + 1 < numRows by omega)] at hg
  rw [h.alpha, h.z84, show k + 1 + 1 = k + 2 from rfl, h.z44, h.z43, h.alpha0, h.z13] at hg
  refine ⟨h.decompose.scalar, h1, h2, ⟨rangeCheck_sound hT.2 hL h.range, fun h => by simp at h⟩, ?_⟩
  simp only [canonicityGate, baseFieldCanonicity, gate_cons] at hg ⊢
  obtain ⟨g1, g2, g3, g4, g5, g6, g7, g8, g9⟩ := hg
  exact ⟨g5, g6, g7, g8, g1, g2, g3, g4, g9⟩

end Orchard.Regions
