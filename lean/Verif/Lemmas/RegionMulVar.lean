import Verif.Lemmas.RegionMulFixed
import Verif.Lemmas.MulVarGates

/-!
# Variable-base multiplication, from its gates
-/

namespace Orchard.Regions

open Halo2 Layout Pinned Spec

variable {P : Prims} {T : Table} {F : FixedTable}

/-- A running sum, whether or not it ends in zero. -/
theorem runningSum_value {n : ℕ} {z : ℕ → Fp} (h : RunningSum n z) :
    ∃ N < 2 ^ (10 * n), z 0 = (N : ℕ) + 2 ^ (10 * n) * z n := by
  induction n generalizing z with
  | zero => exact ⟨0, by norm_num, by simp⟩
  | succ n ih =>
    obtain ⟨N, hN, e⟩ := ih (z := fun i => z (i + 1)) fun i hi => h (i + 1) (by omega)
    obtain ⟨w, hw, e0⟩ := h 0 (by omega)
    refine ⟨w + 2 ^ 10 * N, ?_, ?_⟩
    · rw [show 10 * (n + 1) = 10 + 10 * n by ring, pow_add]
      have : 2 ^ 10 * (N + 1) ≤ 2 ^ 10 * 2 ^ (10 * n) := Nat.mul_le_mul_left _ hN
      omega
    · simp only [zero_add] at e e0
      rw [show 10 * (n + 1) = 10 + 10 * n by ring, pow_add]
      push_cast
      linear_combination e0 + 2 ^ 10 * e

/-- The row of the first half. -/
def hiRow (T : Table) (row : ℕ) : MulRow :=
  ⟨T (9, row), T (3, row), T (0, row), T (1, row), T (4, row), T (5, row)⟩

/-- The row of the second half. -/
def loRow (T : Table) (row : ℕ) : MulRow :=
  ⟨T (6, row), T (7, row), T (0, row), T (1, row), T (8, row), T (2, row)⟩

theorem mulHi_cur {row : ℕ} (h : row < numRows) : mulHi (rowAt T F row) 0 = hiRow T row := by
  have e := fun c => rowAt_cur (T := T) (F := F) h c
  simp only [Row.cur] at e
  simp only [mulHi, hiRow, e]

theorem mulHi_next {row : ℕ} (h : row + 1 < numRows) : mulHi (rowAt T F row) 1 = hiRow T (row + 1) := by
  have e := fun c => rowAt_next (T := T) (F := F) h c
  simp only [Row.next] at e
  simp only [mulHi, hiRow, e]

theorem mulLo_cur {row : ℕ} (h : row < numRows) : mulLo (rowAt T F row) 0 = loRow T row := by
  have e := fun c => rowAt_cur (T := T) (F := F) h c
  simp only [Row.cur] at e
  simp only [mulLo, loRow, e]

theorem mulLo_next {row : ℕ} (h : row + 1 < numRows) : mulLo (rowAt T F row) 1 = loRow T (row + 1) := by
  have e := fun c => rowAt_next (T := T) (F := F) h c
  simp only [Row.next] at e
  simp only [mulLo, loRow, e]

theorem hi_sound (hT : GatesHold T F) {s : ℕ} (hf : s + 137 < numRows) {B : Point} (hB : B ≠ 0)
    (h : MulHiRegion T F s (cells B) (cells ((2 : Fq) • B))) :
    ∃ K < 2 ^ 125, T (9, s + 126) = (K : ℕ) ∧ T (9, s + 2) = ((K / 2 ^ 124 : ℕ) : Fp) ∧
      pointAt T 0 (s + 2) = cells B ∧ (∀ i < 125, pointAt T 0 (s + 2 + i) = cells B) ∧
      cells (((2 ^ 125 + 1 + 2 * K : ℕ) : Fq) • B) = (T (3, s + 127), T (4, s + 127)) := by
  have hinit := ecc_at hT (row := s + 1) (by omega) 5 rfl rfl h.initOn
  rw [mulHi_next (by omega), rowAt_cur (by omega), mulInitGate, gate_cons] at hinit
  have hy := sub_eq_zero.1 hinit.1
  have hstep : ∀ i, i < 124 → Gate (mulStepGate (T (9, s + 1 + i)) (hiRow T (s + 2 + i)) (hiRow T (s + 2 + (i + 1)))) := by
    intro i hi
    have := ecc_at hT (row := s + 2 + i) (by omega) 6 rfl rfl (h.stepOn i hi)
    rw [mulHi_next (by omega), mulHi_cur (by omega), show s + 2 + i = s + 1 + i + 1 by omega,
      rowAt_prev (by omega)] at this
    rw [show s + 2 + i = s + 1 + i + 1 by omega, show s + 2 + (i + 1) = s + 1 + i + 1 + 1 by omega]
    exact this
  have hlast := ecc_at hT (row := s + 126) (by omega) 7 rfl rfl h.lastOn
  rw [mulHi_next (by omega), mulHi_cur (by omega), show s + 126 = s + 125 + 1 by omega,
    rowAt_prev (by omega)] at hlast
  have hbase : ∀ i < 125, pointAt T 0 (s + 2 + i) = cells B := by
    intro i
    induction i with
    | zero => intro _; exact h.base
    | succ i ih =>
      intro hi
      have hg := hstep i (by omega)
      simp only [mulStepGate, List.cons_append, List.nil_append, gate_cons] at hg
      rw [← ih (by omega)]
      exact Prod.ext (sub_eq_zero.1 hg.1).symm (sub_eq_zero.1 hg.2.1).symm
  obtain ⟨K, hK, -, hz, hc⟩ := mulRows_sound hB (r := fun i => hiRow T (s + 2 + i)) (z := fun i => T (9, s + 1 + i))
    (n := 125) (j := 0) (K := 0) (by norm_num) (by norm_num) (by simpa using h.z)
    (fun i _ => by simp only [hiRow]; rw [show s + 2 + i = s + 1 + (i + 1) by omega])
    (by
      have : (((2 ^ 0 + 1 + 2 * 0 : ℕ)) : Fq) = 2 := by norm_num
      rw [this, ← h.acc]
      exact Prod.ext rfl hy)
    h.base.symm (fun i hi => hstep i (by omega))
    (fun i hi => by
      obtain rfl : i = 124 := by omega
      exact hlast)
    (by norm_num)
  rw [zero_add] at hK hc
  refine ⟨K, hK, ?_, ?_, h.base, hbase, ?_⟩
  · simpa using hz 125 le_rfl
  · exact hz 1 (by norm_num)
  · exact hc

theorem lo_sound (hT : GatesHold T F) {s : ℕ} (hf : s + 137 < numRows) {B : Point} (hB : B ≠ 0) {K : ℕ}
    (hK : K < 2 ^ 125) (hb : pointAt T 0 (s + 2) = cells B)
    (h : MulLoRegion T F s (K : ℕ) (cells (((2 ^ 125 + 1 + 2 * K : ℕ) : Fq) • B))) :
    ∃ K' < 2 ^ 251, K' / 2 ^ 126 = K ∧ T (6, s + 127) = (K' : ℕ) ∧
      cells (((2 ^ 251 + 1 + 2 * K' : ℕ) : Fq) • B) = (T (7, s + 128), T (8, s + 128)) := by
  have hinit := ecc_at hT (row := s + 1) (by omega) 8 rfl rfl h.initOn
  rw [mulLo_next (by omega), rowAt_cur (by omega), mulInitGate, gate_cons] at hinit
  have hy := sub_eq_zero.1 hinit.1
  have hstep : ∀ i, i < 125 → Gate (mulStepGate (T (6, s + 1 + i)) (loRow T (s + 2 + i)) (loRow T (s + 2 + (i + 1)))) := by
    intro i hi
    have := ecc_at hT (row := s + 2 + i) (by omega) 9 rfl rfl (h.stepOn i hi)
    rw [mulLo_next (by omega), mulLo_cur (by omega), show s + 2 + i = s + 1 + i + 1 by omega,
      rowAt_prev (by omega)] at this
    rw [show s + 2 + i = s + 1 + i + 1 by omega, show s + 2 + (i + 1) = s + 1 + i + 1 + 1 by omega]
    exact this
  have hlast := ecc_at hT (row := s + 127) (by omega) 10 rfl rfl h.lastOn
  rw [mulLo_next (by omega), mulLo_cur (by omega), show s + 127 = s + 126 + 1 by omega,
    rowAt_prev (by omega)] at hlast
  obtain ⟨K', hK', hd, hz, hc⟩ := mulRows_sound hB (r := fun i => loRow T (s + 2 + i)) (z := fun i => T (6, s + 1 + i))
    (n := 126) (j := 125) (K := K) (by norm_num) hK h.z
    (fun i _ => by simp only [loRow]; rw [show s + 2 + i = s + 1 + (i + 1) by omega])
    (by
      rw [← h.acc]
      exact Prod.ext rfl hy)
    hb.symm (fun i hi => hstep i (by omega))
    (fun i hi => by
      obtain rfl : i = 125 := by omega
      exact hlast)
    (by norm_num)
  exact ⟨K', hK', hd, by simpa using hz 126 le_rfl, hc⟩

theorem complete_sound (hT : GatesHold T F) {s : ℕ} (hf : s + 7 < numRows) {B : Point} {K : ℕ}
    (h : MulCompleteRegion T F s (cells B) (K : ℕ) (cells (((2 ^ 251 + 1 + 2 * K : ℕ) : Fq) • B))) (hK : K < 2 ^ 251) :
    ∃ K' < 2 ^ 254, K' / 2 ^ 3 = K ∧ T (9, s + 6) = (K' : ℕ) ∧
      pointAt T 2 (s + 6) = cells (((2 ^ 254 + 1 + 2 * K' : ℕ) : Fq) • B) := by
  have key : ∀ i ≤ 3, ∃ K' < 2 ^ (251 + i), K' / 2 ^ i = K ∧ T (9, s + 2 * i) = (K' : ℕ) ∧
      pointAt T 2 (s + 2 * i) = cells (((2 ^ (251 + i) + 1 + 2 * K' : ℕ) : Fq) • B) := by
    intro i
    induction i with
    | zero => intro _; exact ⟨K, hK, by simp, h.z, h.acc⟩
    | succ i ih =>
      intro hi
      obtain ⟨K', hK', hd, hz, hc⟩ := ih (by omega)
      have hg := ecc_at hT (row := s + 2 * i + 1) (by omega) 11 rfl rfl (h.bitOn i (by omega))
      rw [rowAt_prev (by omega), rowAt_prev (by omega), rowAt_next (by omega), rowAt_cur (by omega),
        h.baseY i (by omega)] at hg
      obtain ⟨k, hk, ez, eb, es⟩ := mulComplete_sound (m := 2 ^ (251 + i) + 1 + 2 * K') (by omega) hz hg
      rw [← h.baseX i (by omega)] at eb
      have a1 := h.addBase i (by omega)
      have a2 := h.addAcc i (by omega)
      have e0 : pointAt T 0 (s + 2 * i) = cells (bitPoint B k) := eb
      rw [e0, hc] at a1
      have s1 := add_sound hT a1
      rw [hc, s1] at a2
      have s2 := add_sound hT a2
      rw [es] at s2
      refine ⟨2 * K' + k, ?_, ?_, ?_, ?_⟩
      · rw [← add_assoc, pow_succ]; omega
      · rw [pow_succ', ← Nat.div_div_eq_div_mul, show (2 * K' + k) / 2 = K' by omega, hd]
      · rw [show s + 2 * (i + 1) = s + 2 * i + 1 + 1 by ring]; exact ez
      · rw [show s + 2 * (i + 1) = s + 2 * i + 1 + 1 by ring, s2, ← add_assoc 251 i 1, pow_succ]
        congr 3
        omega
  exact key 3 le_rfl

/-- The result of the multiplication. -/
theorem mulVar_sound (hT : Satisfied T F) (hL : TableLoaded P F) {s o t : ℕ} {B : Point} (hB : B ≠ 0) {alpha : Fp}
    (h : MulVarRegion T F s o t (cells B) alpha) :
    pointAt T 2 (s + 136) = cells ((alpha.val : Fq) • B) := by
  have hu := usable_le
  have hf := h.lsbAdd.fits
  have hlt : s + 137 < numRows := by
    have : usableRows < numRows := by decide
    omega
  have hd := add_sound hT.1 h.double
  rw [← two_smul Fq B] at hd
  have hhi := h.hi
  rw [hd] at hhi
  obtain ⟨K1, hK1, z1, b1, hb, -, c1⟩ := hi_sound hT.1 hlt hB hhi
  have hlo := h.lo
  rw [z1, ← c1] at hlo
  obtain ⟨K2, hK2, d2, z2, c2⟩ := lo_sound hT.1 hlt hB hK1 hb hlo
  have hco := h.complete
  rw [z2, ← c2] at hco
  obtain ⟨K3, hK3, d3, z3, c3⟩ := complete_sound hT.1 (by omega) hco hK2
  have hg := ecc_at hT.1 (row := s + 135) (by omega) 13 rfl rfl h.lsbOn
  simp only [rowAt_next (show s + 135 + 1 < numRows by omega), rowAt_cur (show s + 135 < numRows by omega)] at hg
  have hbase : (T (0, s + 135 + 1), T (1, s + 135 + 1)) = cells B := h.lsbBase
  rw [hbase] at hg
  obtain ⟨k, hk, z4, C, eC, hC⟩ := mulLsb_sound (m := 2 ^ 254 + 1 + 2 * K3) (by omega) z3 hg
  have hadd := h.lsbAdd
  have e0 : pointAt T 0 (s + 135) = cells C := eC
  rw [show s + 129 + 6 = s + 135 by ring] at c3
  rw [e0, c3] at hadd
  have hres := add_sound hT.1 hadd
  rw [hC] at hres
  rw [show s + 136 = s + 135 + 1 by ring, hres]
  have ho := h.overflow
  have hof := ho.fits
  have hog := ecc_at hT.1 (row := o + 1) (by omega) 12 rfl rfl ho.checkOn
  simp only [rowAt_next (show o + 1 + 1 < numRows by omega), rowAt_cur (show o + 1 < numRows by omega),
    rowAt_prev (show o + 1 < numRows by omega)] at hog
  rw [ho.z0, ho.z130, ho.k254, ho.alpha, ho.s, show o + 1 + 1 = o + 2 by ring, ho.sMinusLo,
    show s + 136 = s + 135 + 1 by ring, z4, z1, b1] at hog
  obtain ⟨N, hN, eN⟩ := runningSum_value (rangeCheck_sound hT.2 hL ho.range)
  have hK : 2 * K3 + k < 2 ^ 255 := by rw [pow_succ]; omega
  have hd130 : (2 * K3 + k) / 2 ^ 130 = K1 := by
    rw [← d2, ← d3, Nat.div_div_eq_div_mul, ← pow_add, show 130 = 1 + 129 by norm_num, pow_add _ 1 129,
      ← Nat.div_div_eq_div_mul, pow_one, show (2 * K3 + k) / 2 = K3 by omega]
  have hd254 : (2 * K3 + k) / 2 ^ 254 = K1 / 2 ^ 124 := by
    rw [← hd130, Nat.div_div_eq_div_mul, ← pow_add]
  rw [← hd254, ← hd130] at hog
  have := mulOverflow_sound hK hN eN hog
  rw [show 2 ^ 254 + 1 + 2 * K3 + k - 1 = 2 ^ 254 + (2 * K3 + k) by omega, this]
  have hq : ((2 ^ 254 + Constants.T_Q : ℕ) : Fq) = 0 := by
    rw [show 2 ^ 254 + Constants.T_Q = q by decide +kernel]
    exact ZMod.natCast_self q
  have hs : ((2 ^ 254 + (alpha.val + Constants.T_Q) : ℕ) : Fq) = (alpha.val : Fq) := by
    rw [show 2 ^ 254 + (alpha.val + Constants.T_Q) = alpha.val + (2 ^ 254 + Constants.T_Q) by ring, Nat.cast_add, hq,
      add_zero]
  rw [hs]

end Orchard.Regions
