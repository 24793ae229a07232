import Verif.Lemmas.PatchHash
import Verif.Lemmas.RegionMerkle

/-!
# Regions that honest provers fill: Merkle paths
-/

namespace Orchard.Regions

open Halo2 Layout Pinned Spec

variable {P : Prims} {T : Table} {F : FixedTable}

/-- The piece of a number. -/
def numPiece (n N : ℕ) : Piece := ⟨n, fun j => ((N / 2 ^ (10 * j) : ℕ) : Fp)⟩

theorem numPiece_ok {n N : ℕ} (hN : N < 2 ^ (10 * n)) : (numPiece n N).Ok := by
  refine ⟨fun j _ => ⟨N / 2 ^ (10 * j) % 2 ^ 10, Nat.mod_lt _ (by norm_num), ?_⟩, ?_⟩
  · have h1 : N / 2 ^ (10 * (j + 1)) = N / 2 ^ (10 * j) / 2 ^ 10 := by
      rw [Nat.div_div_eq_div_mul, ← pow_add, show 10 * (j + 1) = 10 * j + 10 by ring]
    simp only [numPiece]
    rw [h1, sub_eq_iff_eq_add]
    conv_lhs => rw [← Nat.mod_add_div (N / 2 ^ (10 * j)) (2 ^ 10)]
    push_cast
    rfl
  · simp only [numPiece]
    rw [Nat.div_eq_of_lt hN, Nat.cast_zero]

theorem numPiece_words {n N : ℕ} (hN : N < 2 ^ (10 * n)) (hp : 2 ^ (10 * n) ≤ p) :
    (numPiece n N).wordList = chunks (leBits (10 * n) N) := by
  obtain ⟨N', hN', hz, hw⟩ := (numPiece_ok hN).spec hp
  have h0 := hz 0 (Nat.zero_le _)
  simp only [numPiece, mul_zero, pow_zero, Nat.div_one] at h0 hN'
  rw [hw]
  simp only [numPiece]
  rw [Fp.natCast_inj (by omega) (by omega) h0]

/-- The swap of a layer. -/
def swapPatch (chip : HashChip) (s : ℕ) (a b : Fp) (bit : Bool) : Patch :=
  ⟨cellsAt s [(chip.col, a), (chip.col + 1, b), (chip.col + 2, if bit then b else a), (chip.col + 3, if bit then a else b),
    (chip.col + 4, if bit then 1 else 0)], [], [(chip.qSwap, s, 1)], []⟩

theorem swap_gateAt {chip : HashChip} (hc : chip = hashChip1 ∨ chip = hashChip2) {row : ℕ} (hr : row < numRows)
    (h : Gate (condSwapGate (T (chip.col, row)) (T (chip.col + 1, row)) (T (chip.col + 2, row))
      (T (chip.col + 3, row)) (T (chip.col + 4, row)))) : GateAt T F chip.qSwap row := by
  simp only [← rowAt_cur (T := T) (F := F) hr] at h
  rcases hc with rfl | rfl
  · exact hash1_gateAt 2 rfl rfl h
  · exact hash2_gateAt 2 rfl rfl h

theorem decompose_gateAt {chip : HashChip} (hc : chip = hashChip1 ∨ chip = hashChip2) {row : ℕ} (hr : row + 1 < numRows)
    (h : Gate (merkleDecomposeGate (T (chip.col, row)) (T (chip.col + 1, row)) (T (chip.col + 2, row))
      (T (chip.col + 3, row)) (T (chip.col + 4, row)) (T (chip.col, row + 1)) (T (chip.col + 1, row + 1))
      (T (chip.col + 2, row + 1)) (T (chip.col + 3, row + 1)) (T (chip.col + 4, row + 1)))) :
    GateAt T F chip.qDecompose row := by
  simp only [← rowAt_cur (T := T) (F := F) (show row < numRows by omega),
    ← rowAt_next (T := T) (F := F) hr] at h
  rcases hc with rfl | rfl
  · exact hash1_gateAt 3 rfl rfl h
  · exact hash2_gateAt 3 rfl rfl h

section swap

variable {chip : HashChip} {s : ℕ} {a b : Fp} {bit : Bool}

theorem swapPatch_cells (h : Contains T F (swapPatch chip s a b bit)) :
    T (chip.col, s) = a ∧ T (chip.col + 1, s) = b ∧ T (chip.col + 2, s) = (if bit then b else a) ∧
      T (chip.col + 3, s) = (if bit then a else b) ∧ T (chip.col + 4, s) = if bit then 1 else 0 := by
  have := cellsAt_iff.1 h.advice
  simp only [List.forall_mem_cons] at this
  exact ⟨this.1, this.2.1, this.2.2.1, this.2.2.2.1, this.2.2.2.2.1⟩

theorem swapPatch_ok (hc : chip = hashChip1 ∨ chip = hashChip2) (hs : s < usableRows) :
    (swapPatch chip s a b bit).Ok P where
  cols st h := by cases h
  codes x h := by
    rw [List.mem_singleton.1 h]
    rcases hc with rfl | rfl <;> exact mem_gateCodes rfl
  gates T F hC x h i hi := by
    obtain rfl := List.mem_singleton.1 h
    dsimp only at hi ⊢
    obtain rfl : i = 0 := by omega
    have hu := usable_le
    have hu' : usableRows < numRows := by decide
    obtain ⟨h1, h2, h3, h4, h5⟩ := swapPatch_cells hC
    refine ⟨by omega, swap_gateAt hc (by omega) ?_, ?_, ?_⟩
    · rw [Nat.add_zero, h1, h2, h3, h4, h5, condSwapGate, gate_cons, gate_cons, gate_cons]
      cases bit
      · exact ⟨by simp [ternary], by simp [ternary], by simp [boolCheck], gate_nil⟩
      · exact ⟨by simp [ternary], by simp [ternary], by simp [boolCheck], gate_nil⟩
    · rcases hc with rfl | rfl <;> simp [hashChip1, hashChip2]
    · rcases hc with rfl | rfl <;> simp [hashChip1, hashChip2]
  lookups T F _ x h := by cases h

end swap

/-- The decomposition check of a layer. -/
def decomposePatch (chip : HashChip) (s : ℕ) (u v : Fp × Fp × Fp × Fp × Fp) : Patch :=
  ⟨cellsAt s [(chip.col, u.1), (chip.col + 1, u.2.1), (chip.col + 2, u.2.2.1), (chip.col + 3, u.2.2.2.1),
      (chip.col + 4, u.2.2.2.2)] ++
    cellsAt (s + 1) [(chip.col, v.1), (chip.col + 1, v.2.1), (chip.col + 2, v.2.2.1), (chip.col + 3, v.2.2.2.1),
      (chip.col + 4, v.2.2.2.2)], [], [(chip.qDecompose, s, 1)], []⟩

section decompose

variable {chip : HashChip} {s : ℕ} {u v : Fp × Fp × Fp × Fp × Fp}

theorem decomposePatch_cells (h : Contains T F (decomposePatch chip s u v)) :
    (T (chip.col, s) = u.1 ∧ T (chip.col + 1, s) = u.2.1 ∧ T (chip.col + 2, s) = u.2.2.1 ∧
      T (chip.col + 3, s) = u.2.2.2.1 ∧ T (chip.col + 4, s) = u.2.2.2.2) ∧
    T (chip.col, s + 1) = v.1 ∧ T (chip.col + 1, s + 1) = v.2.1 ∧ T (chip.col + 2, s + 1) = v.2.2.1 ∧
      T (chip.col + 3, s + 1) = v.2.2.2.1 ∧ T (chip.col + 4, s + 1) = v.2.2.2.2 := by
  have h1 := cellsAt_iff.1 fun st hst => h.advice st (List.mem_append_left _ hst)
  have h2 := cellsAt_iff.1 fun st hst => h.advice st (List.mem_append_right _ hst)
  simp only [List.forall_mem_cons] at h1 h2
  exact ⟨⟨h1.1, h1.2.1, h1.2.2.1, h1.2.2.2.1, h1.2.2.2.2.1⟩, h2.1, h2.2.1, h2.2.2.1, h2.2.2.2.1, h2.2.2.2.2.1⟩

theorem decomposePatch_ok (hc : chip = hashChip1 ∨ chip = hashChip2) (hs : s + 1 < usableRows)
    (hg : Gate (merkleDecomposeGate u.1 u.2.1 u.2.2.1 u.2.2.2.1 u.2.2.2.2 v.1 v.2.1 v.2.2.1 v.2.2.2.1 v.2.2.2.2)) :
    (decomposePatch chip s u v).Ok P where
  cols st h := by cases h
  codes x h := by
    rw [List.mem_singleton.1 h]
    rcases hc with rfl | rfl <;> exact mem_gateCodes rfl
  gates T F hC x h i hi := by
    obtain rfl := List.mem_singleton.1 h
    dsimp only at hi ⊢
    obtain rfl : i = 0 := by omega
    have hu := usable_le
    obtain ⟨⟨h1, h2, h3, h4, h5⟩, k1, k2, k3, k4, k5⟩ := decomposePatch_cells hC
    refine ⟨by omega, decompose_gateAt hc (by omega) ?_, ?_, ?_⟩
    · rw [Nat.add_zero, h1, h2, h3, h4, h5, k1, k2, k3, k4, k5]
      exact hg
    · rcases hc with rfl | rfl <;> simp [hashChip1, hashChip2]
    · rcases hc with rfl | rfl <;> simp [hashChip1, hashChip2]
  lookups T F _ x h := by cases h

end decompose

/-- The patch of a layer. -/
def layerPatch (k : LayerRows) (node sibling : Fp) (bit : Bool) (u v : Fp × Fp × Fp × Fp × Fp) (b1 b2 : Fp)
    (r : ℕ → HashRow) : Patch :=
  swapPatch k.chip k.swap node sibling bit ++ hashPatch k.chip Constants.qMerkleCrh [25, 2, 25] k.hash r ++
    decomposePatch k.chip k.decompose u v ++ shortPatch 5 k.b1 b1 ++ shortPatch 5 k.b2 b2

/-- The rows are usable. -/
structure LayerRows.Fits (k : LayerRows) : Prop where
  chip : k.chip = hashChip1 ∨ k.chip = hashChip2
  swap : k.swap < usableRows
  hash : k.hash + 52 < usableRows
  decompose : k.decompose + 1 < usableRows
  b1 : k.b1 + 2 < usableRows
  b2 : k.b2 + 2 < usableRows

theorem exists_layerPatch {k : LayerRows} (hk : k.Fits) {l : ℕ} (hl : l < 2 ^ 10) {node sibling : Fp} {bit : Bool}
    {A : Point} (hA : sinsemillaHashToPoint P Constants.qMerkleCrh (leBits 10 l ++
      leBits 255 (if bit then sibling else node).val ++ leBits 255 (if bit then node else sibling).val) = some A) :
    ∃ u v b1 b2 r, (layerPatch k node sibling bit u v b1 b2 r).Ok P ∧
      ∀ T F, Contains T F (layerPatch k node sibling bit u v b1 b2 r) → LayerRegion T F k l node ∧
        T k.sibling = sibling ∧ T k.bit = (if bit then 1 else 0) ∧ k.next T = extractP A := by
  generalize hL : (if bit then sibling else node) = left at *
  generalize hR : (if bit then node else sibling) = right at *
  have hp255 : p < 2 ^ 255 := by decide +kernel
  have hp250 : 2 ^ (10 * 25) ≤ p := by decide +kernel
  have hp20 : 2 ^ (10 * 2) ≤ p := by decide +kernel
  have hLv : left.val < 2 ^ 255 := lt_trans (ZMod.val_lt left) hp255
  have hRv : right.val < 2 ^ 255 := lt_trans (ZMod.val_lt right) hp255
  generalize eL : left.val = L at *
  generalize eR : right.val = R at *
  have hLF : left = (L : ℕ) := by rw [← eL, ZMod.natCast_zmod_val]
  have hRF : right = (R : ℕ) := by rw [← eR, ZMod.natCast_zmod_val]
  obtain ⟨A1, B0, b1, hA1, hB0, hb1, eL'⟩ : ∃ A1 B0 b1, A1 < 2 ^ 240 ∧ B0 < 2 ^ 10 ∧ b1 < 2 ^ 5 ∧
      L = A1 + 2 ^ 240 * (B0 + 2 ^ 10 * b1) := by
    refine ⟨L % 2 ^ 240, L / 2 ^ 240 % 2 ^ 10, L / 2 ^ 250, Nat.mod_lt _ (by norm_num), Nat.mod_lt _ (by norm_num), ?_, ?_⟩
    · rw [Nat.div_lt_iff_lt_mul (by norm_num), ← pow_add]; exact hLv
    · rw [show (2 : ℕ) ^ 250 = 2 ^ 240 * 2 ^ 10 by rw [← pow_add], ← Nat.div_div_eq_div_mul, Nat.mod_add_div, Nat.mod_add_div]
  obtain ⟨b2, C, hb2, hC, eR'⟩ : ∃ b2 C, b2 < 2 ^ 5 ∧ C < 2 ^ 250 ∧ R = b2 + 2 ^ 5 * C := by
    refine ⟨R % 2 ^ 5, R / 2 ^ 5, Nat.mod_lt _ (by norm_num), ?_, (Nat.mod_add_div _ _).symm⟩
    rw [Nat.div_lt_iff_lt_mul (by norm_num), ← pow_add]; exact hRv
  have hAl : l + 2 ^ 10 * A1 < 2 ^ 250 := by
    norm_num only at hA1 hl ⊢
    omega
  have hBl : B0 + 2 ^ 10 * (b1 + 2 ^ 5 * b2) < 2 ^ 20 := by omega
  have hbits := layer_bits (A := l + 2 ^ 10 * A1) (B := B0 + 2 ^ 10 * (b1 + 2 ^ 5 * b2)) (C := C) (l := l) hAl hC hb1 hb2
    (by omega) (by omega)
  rw [show (l + 2 ^ 10 * A1) / 2 ^ 10 = A1 by omega, show (B0 + 2 ^ 10 * (b1 + 2 ^ 5 * b2)) % 2 ^ 10 = B0 by omega,
    ← eL', ← eR'] at hbits
  rw [sinsemillaHashToPoint, ← hbits] at hA
  have hwords : messageWords [numPiece 25 (l + 2 ^ 10 * A1), numPiece 2 (B0 + 2 ^ 10 * (b1 + 2 ^ 5 * b2)), numPiece 25 C] =
      chunks (leBits (10 * 25) (l + 2 ^ 10 * A1) ++ leBits (10 * 2) (B0 + 2 ^ 10 * (b1 + 2 ^ 5 * b2)) ++
        leBits (10 * 25) C) := by
    rw [List.append_assoc, chunks_append _ 25 (length_leBits _ _), chunks_append _ 2 (length_leBits _ _),
      ← numPiece_words hAl hp250, ← numPiece_words hBl hp20, ← numPiece_words hC hp250]
    simp [messageWords]
  rw [← hwords] at hA
  obtain ⟨r, hr1, hr2⟩ := exists_hashPatch hk.chip (s := k.hash)
    (ms := [numPiece 25 (l + 2 ^ 10 * A1), numPiece 2 (B0 + 2 ^ 10 * (b1 + 2 ^ 5 * b2)), numPiece 25 C])
    (by
      simp only [List.forall_mem_cons]
      exact ⟨numPiece_ok hAl, numPiece_ok hBl, numPiece_ok hC, by simp⟩)
    (by simp [numPiece]) (by simp) (by simpa [numPiece] using hk.hash) hA
  have hns : List.map Piece.words [numPiece 25 (l + 2 ^ 10 * A1), numPiece 2 (B0 + 2 ^ 10 * (b1 + 2 ^ 5 * b2)),
      numPiece 25 C] = [25, 2, 25] := rfl
  rw [hns] at hr1 hr2
  have hs1 : ShortCheck 5 (b1 : ℕ) := (shortCheck_iff (by norm_num) _).2 ⟨b1, hb1, rfl⟩
  have hs2 : ShortCheck 5 (b2 : ℕ) := (shortCheck_iff (by norm_num) _).2 ⟨b2, hb2, rfl⟩
  refine ⟨(((l + 2 ^ 10 * A1 : ℕ) : Fp), ((B0 + 2 ^ 10 * (b1 + 2 ^ 5 * b2) : ℕ) : Fp), (C : ℕ), left, right),
    ((A1 : ℕ), ((b1 + 2 ^ 5 * b2 : ℕ) : Fp), (b1 : ℕ), (b2 : ℕ), (l : ℕ)), (b1 : ℕ), (b2 : ℕ), r, ?_, fun T F h => ?_⟩
  · refine Patch.Ok.append (Patch.Ok.append (Patch.Ok.append (Patch.Ok.append (swapPatch_ok hk.chip hk.swap) hr1)
      (decomposePatch_ok hk.chip hk.decompose ?_)) (shortPatch_ok hk.b1 (by norm_num) hs1))
      (shortPatch_ok hk.b2 (by norm_num) hs2)
    dsimp only
    rw [merkleDecomposeGate, gate_cons, gate_cons, gate_cons, gate_cons, hLF, hRF, eL', eR']
    refine ⟨?_, ?_, ?_, ?_, gate_nil⟩
    · push_cast; ring
    · push_cast; ring
    · push_cast; ring
    · push_cast; ring
  · simp only [layerPatch, contains_append] at h
    obtain ⟨⟨⟨⟨h1, h2⟩, h3⟩, h4⟩, h5⟩ := h
    obtain ⟨hh, hp, hres⟩ := hr2 T F h2
    obtain ⟨c1, c2, c3, c4, c5⟩ := swapPatch_cells h1
    obtain ⟨⟨d1, d2, d3, d4, d5⟩, e1, e2, e3, e4, e5⟩ := decomposePatch_cells h3
    obtain ⟨pa, pb, pc, -⟩ := hp
    simp only [numPiece] at pa pb pc
    have pa0 := pa 0 (by norm_num)
    have pa1 := pa 1 (by norm_num)
    have pb0 := pb 0 (by norm_num)
    have pb1 := pb 1 (by norm_num)
    have pc0 := pc 0 (by norm_num)
    rw [mul_zero, pow_zero, Nat.div_one, Nat.add_zero] at pa0 pb0 pc0
    rw [mul_one, show (l + 2 ^ 10 * A1) / 2 ^ 10 = A1 by omega] at pa1
    rw [mul_one, show (B0 + 2 ^ 10 * (b1 + 2 ^ 5 * b2)) / 2 ^ 10 = b1 + 2 ^ 5 * b2 by omega] at pb1
    refine ⟨⟨hk.chip, ⟨hk.swap, hk.decompose⟩, h1.on (i := 0) (List.mem_singleton_self _) (by norm_num), c1, hh,
      h3.on (i := 0) (List.mem_singleton_self _) (by norm_num), d1.trans pa0.symm, d2.trans pb0.symm,
      d3.trans pc0.symm, ?_, ?_, e1.trans pa1.symm, e2.trans pb1.symm, shortPatch_region hk.b1 h4, ?_,
      shortPatch_region hk.b2 h5, ?_, e5⟩, c2, c5, ?_⟩
    · rw [d4, c3, hL]
    · rw [d5, c4, hR]
    · rw [e3, (shortPatch_cells h4).1]
    · rw [e4, (shortPatch_cells h5).1]
    · exact congrArg Prod.fst hres

end Orchard.Regions
