import Verif.Lemmas.RegionHash
import Verif.Lemmas.CommitIvk

/-!
# The Merkle path gadget, from its gates
-/

namespace Orchard.Regions

open Halo2 Layout Pinned Spec

variable {P : Prims} {T : Table} {F : FixedTable}

theorem condSwap_at (hT : GatesHold T F) {chip : HashChip} (hc : chip = hashChip1 ∨ chip = hashChip2)
    {row : ℕ} (hr : row < numRows) (h : On F chip.qSwap row) :
    Gate (condSwapGate (T (chip.col, row)) (T (chip.col + 1, row)) (T (chip.col + 2, row))
      (T (chip.col + 3, row)) (T (chip.col + 4, row))) := by
  simp only [← rowAt_cur (T := T) (F := F) hr]
  rcases hc with rfl | rfl
  · exact hash1_at hT hr 2 rfl rfl h
  · exact hash2_at hT hr 2 rfl rfl h

theorem decompose_at (hT : GatesHold T F) {chip : HashChip} (hc : chip = hashChip1 ∨ chip = hashChip2)
    {row : ℕ} (hr : row + 1 < numRows) (h : On F chip.qDecompose row) :
    Gate (merkleDecomposeGate (T (chip.col, row)) (T (chip.col + 1, row)) (T (chip.col + 2, row))
      (T (chip.col + 3, row)) (T (chip.col + 4, row)) (T (chip.col, row + 1)) (T (chip.col + 1, row + 1))
      (T (chip.col + 2, row + 1)) (T (chip.col + 3, row + 1)) (T (chip.col + 4, row + 1))) := by
  simp only [← rowAt_cur (T := T) (F := F) (show row < numRows by omega),
    ← rowAt_next (T := T) (F := F) hr]
  rcases hc with rfl | rfl
  · exact hash1_at hT (by omega) 3 rfl rfl h
  · exact hash2_at hT (by omega) 3 rfl rfl h

/-- The bits of the three pieces, given their decomposition. -/
theorem layer_bits {A B C l b1 b2 : ℕ} (hA : A < 2 ^ 250) (hC : C < 2 ^ 250) (hb1 : b1 < 2 ^ 5)
    (hb2 : b2 < 2 ^ 5) (hl : A % 2 ^ 10 = l) (hz : B / 2 ^ 10 = b1 + 2 ^ 5 * b2) :
    leBits (10 * 25) A ++ leBits (10 * 2) B ++ leBits (10 * 25) C =
      leBits 10 l ++ leBits 255 (A / 2 ^ 10 + 2 ^ 240 * (B % 2 ^ 10 + 2 ^ 10 * b1)) ++
        leBits 255 (b2 + 2 ^ 5 * C) := by
  have hB : B = B % 2 ^ 10 + 2 ^ 10 * (b1 + 2 ^ 5 * b2) := by omega
  have hA' : A = l + 2 ^ 10 * (A / 2 ^ 10) := by omega
  have hl' : l < 2 ^ 10 := by rw [← hl]; exact Nat.mod_lt _ (by norm_num)
  have e1 : leBits (10 * 25) A = leBits 10 l ++ leBits 240 (A / 2 ^ 10) := by
    conv_lhs => rw [hA']
    exact leBits_add (m := 10) (n := 240) hl'
  have e2 : leBits (10 * 2) B = leBits 10 (B % 2 ^ 10) ++ (leBits 5 b1 ++ leBits 5 b2) := by
    conv_lhs => rw [hB]
    rw [show 10 * 2 = 10 + (5 + 5) from rfl, leBits_add (m := 10) (Nat.mod_lt _ (by norm_num)),
      leBits_add (m := 5) hb1]
  have hlt : A / 2 ^ 10 < 2 ^ 240 := by
    rw [Nat.div_lt_iff_lt_mul (by norm_num), ← pow_add]; exact hA
  have e3 : leBits 255 (A / 2 ^ 10 + 2 ^ 240 * (B % 2 ^ 10 + 2 ^ 10 * b1)) =
      leBits 240 (A / 2 ^ 10) ++ (leBits 10 (B % 2 ^ 10) ++ leBits 5 b1) := by
    rw [show 255 = 240 + (10 + 5) from rfl, leBits_add (m := 240) hlt,
      leBits_add (m := 10) (Nat.mod_lt _ (by norm_num))]
  have e4 : leBits 255 (b2 + 2 ^ 5 * C) = leBits 5 b2 ++ leBits (10 * 25) C := by
    rw [show 255 = 5 + 10 * 25 from rfl, leBits_add (m := 5) hb2]
  rw [e1, e2, e3, e4]
  simp only [List.append_assoc]

theorem layer_sound (hT : Satisfied T F) (hL : TableLoaded P F) {k : LayerRows} {l : ℕ} (hl : l < 2 ^ 10)
    {node : Fp} (h : LayerRegion T F k l node) :
    ∃ b : Bool, ∃ enc, T k.bit = (if b then 1 else 0) ∧
      if b then MerkleLayer P false l enc (T k.sibling) node (k.next T)
        else MerkleLayer P false l enc node (T k.sibling) (k.next T) := by
  have hf := h.fits
  have hu := usable_le
  have hs := condSwap_at hT.1 h.chip (by omega) h.swapOn
  simp only [condSwapGate, gate_cons] at hs
  obtain ⟨hs1, hs2, hs3, -⟩ := hs
  have hd := decompose_at hT.1 h.chip (by omega) h.decomposeOn
  simp only [merkleDecomposeGate, gate_cons] at hd
  obtain ⟨hd1, hd2, hd3, hd4, -⟩ := hd
  obtain ⟨hok, hret⟩ := hash_sound hT hL h.chip (by simp) (by simp) h.hash
  obtain ⟨b1, hb1, eb1⟩ := (shortCheck_iff (by norm_num) _).1 (shortCheck_sound hT hL (by norm_num) h.b1Check)
  obtain ⟨b2, hb2, eb2⟩ := (shortCheck_iff (by norm_num) _).1 (shortCheck_sound hT hL (by norm_num) h.b2Check)
  simp only [hashPieces, List.mem_cons, List.not_mem_nil, or_false, forall_eq_or_imp, forall_eq] at hok hret
  obtain ⟨okA, okB, okC⟩ := hok
  have hp250 : 2 ^ (10 * 25) ≤ p := by decide +kernel
  have hp20 : 2 ^ (10 * 2) ≤ p := by decide +kernel
  obtain ⟨A, hA, zA, wA⟩ := okA.spec hp250
  obtain ⟨B, hB, zB, wB⟩ := okB.spec hp20
  obtain ⟨C, hC, zC, wC⟩ := okC.spec hp250
  have a0 := zA 0 (by norm_num)
  have a1 := zA 1 (by norm_num)
  have b0' := zB 0 (by norm_num)
  have b1' := zB 1 (by norm_num)
  have c0 := zC 0 (by norm_num)
  norm_num at a0 a1 b0' b1' c0
  rw [h.a, h.z1a, h.l, a0, a1] at hd1
  rw [h.z1a, h.b, h.z1b, h.b1, h.left, a1, b0', b1', eb1] at hd2
  rw [h.b2, h.c, h.right, eb2, c0] at hd3
  rw [h.z1b, h.b1, h.b2, b1', eb1, eb2] at hd4
  clear zA zB zC a0 a1 b0' b1' c0 okA okB okC
  dsimp only at hA hB hC wA wB wC
  have hp10 : 2 ^ 20 < p := by decide +kernel
  have cast10 : ∀ n : ℕ, (n : Fp) = ((n % 1024 : ℕ) : Fp) + ((n / 1024 : ℕ) : Fp) * 2 ^ 10 := by
    intro n
    conv_lhs => rw [← Nat.mod_add_div n 1024]
    push_cast; ring
  have hl' : A % 2 ^ 10 = l := by
    refine Fp.natCast_inj ?_ (by omega) ?_
    · have := Nat.mod_lt A (show 0 < 2 ^ 10 by norm_num); omega
    · rw [cast10 A] at hd1
      norm_num only
      linear_combination hd1
  have hz' : B / 2 ^ 10 = b1 + 2 ^ 5 * b2 := by
    refine Fp.natCast_inj (by omega) (by omega) ?_
    rw [show (2 : ℕ) ^ 10 = 1024 by norm_num]
    push_cast
    linear_combination hd4
  have hbits := layer_bits (l := l) (C := C) hA hC hb1 hb2 hl' hz'
  have hleft : ((A / 2 ^ 10 + 2 ^ 240 * (B % 2 ^ 10 + 2 ^ 10 * b1) : ℕ) : Fp) = T (k.chip.col + 2, k.swap) := by
    rw [cast10 B] at hd2
    rw [show (2 : ℕ) ^ 10 = 1024 by norm_num]
    push_cast
    linear_combination hd2
  have hright : ((b2 + 2 ^ 5 * C : ℕ) : Fp) = T (k.chip.col + 3, k.swap) := by
    push_cast
    linear_combination hd3
  have hbound1 : A / 2 ^ 10 + 2 ^ 240 * (B % 2 ^ 10 + 2 ^ 10 * b1) < 2 ^ 255 := by
    have h1 : A / 2 ^ 10 < 2 ^ 240 := by
      rw [Nat.div_lt_iff_lt_mul (by norm_num), ← pow_add]; exact hA
    have h2 := Nat.mod_lt B (show 0 < 2 ^ 10 by norm_num)
    have h3 : B % 2 ^ 10 + 2 ^ 10 * b1 + 1 ≤ 2 ^ 15 := by omega
    have h4 := Nat.mul_le_mul_left (2 ^ 240) h3
    rw [← pow_add] at h4
    rw [mul_add, mul_one] at h4
    generalize B % 2 ^ 10 + 2 ^ 10 * b1 = u at h4 ⊢
    generalize A / 2 ^ 10 = v at h1 ⊢
    generalize (2 : ℕ) ^ 240 * u = w at h4 ⊢
    norm_num only at h1 h4 ⊢
    omega
  have hbound2 : b2 + 2 ^ 5 * C < 2 ^ 255 := by
    norm_num only at hC hb2 ⊢
    omega
  have hwords : messageWords [⟨25, fun i => if i < 25 then T (k.chip.col + 2, k.hash + i) else 0⟩,
      ⟨2, fun i => if i < 2 then T (k.chip.col + 2, k.hash + 25 + i) else 0⟩,
      ⟨25, fun i => if i < 25 then T (k.chip.col + 2, k.hash + 25 + 2 + i) else 0⟩] =
      chunks (leBits (10 * 25) A ++ leBits (10 * 2) B ++ leBits (10 * 25) C) := by
    rw [List.append_assoc, chunks_append _ 25 (length_leBits _ _), chunks_append _ 2 (length_leBits _ _),
      ← wA, ← wB, ← wC]
    simp [messageWords]
  rw [hwords, hbits] at hret
  have hlayer : MerkleLayer P false l (A / 2 ^ 10 + 2 ^ 240 * (B % 2 ^ 10 + 2 ^ 10 * b1), b2 + 2 ^ 5 * C)
      (T (k.chip.col + 2, k.swap)) (T (k.chip.col + 3, k.swap)) (k.next T) :=
    ⟨hbound1, hbound2, hleft, hright, _, hret⟩
  rw [h.swapNode] at hs1 hs2
  have h1 := sub_eq_zero.1 hs1
  have h2 := sub_eq_zero.1 hs2
  obtain ⟨b, hb, eb⟩ := boolCheck_eq_zero hs3
  rw [eb] at h1 h2
  rw [h1, h2] at hlayer
  clear hret hbits hbound1 hbound2 hleft hright hwords
  generalize (A / 2 ^ 10 + 2 ^ 240 * (B % 2 ^ 10 + 2 ^ 10 * b1), b2 + 2 ^ 5 * C) = enc at hlayer
  interval_cases b
  · refine ⟨false, enc, by rw [LayerRows.bit, eb]; simp, ?_⟩
    simpa [ternary, LayerRows.sibling] using hlayer
  · refine ⟨true, enc, by rw [LayerRows.bit, eb]; simp, ?_⟩
    simpa [ternary, LayerRows.sibling] using hlayer

theorem merkle_sound (hT : Satisfied T F) (hL : TableLoaded P F) {rows : ℕ → LayerRows} {n : ℕ}
    (hn : n ≤ 2 ^ 10) {leaf : Fp} (h : MerkleRegion T F rows n leaf) :
    ∃ pos encs, pos < 2 ^ n ∧ (∀ l < n, T (rows l).bit = if pos.testBit l then 1 else 0) ∧
      MerkleRoot P false pos 0 ((List.range n).map fun l => T (rows l).sibling) encs leaf
        (merkleNode T rows leaf n) := by
  have hl : ∀ l : ℕ, ∃ b : Bool, ∃ enc, l < n → T (rows l).bit = (if b then 1 else 0) ∧
      if b then MerkleLayer P false l enc (T (rows l).sibling) (merkleNode T rows leaf l) ((rows l).next T)
        else MerkleLayer P false l enc (merkleNode T rows leaf l) (T (rows l).sibling) ((rows l).next T) := by
    intro l
    by_cases hlt : l < n
    · obtain ⟨b, enc, h1⟩ := layer_sound hT hL (by omega) (h l hlt)
      exact ⟨b, enc, fun _ => h1⟩
    · exact ⟨false, (0, 0), fun h => absurd h hlt⟩
  choose b enc hb using hl
  have hbit : ∀ l < n, (Nat.ofBits fun i : Fin n => b i).testBit l = b l := fun l hl =>
    Nat.testBit_ofBits_lt _ _ hl
  have key : ∀ m l, l + m = n → MerkleRoot P false (Nat.ofBits fun i : Fin n => b i) l
      ((List.range' l m).map fun l => T (rows l).sibling) ((List.range' l m).map enc)
      (merkleNode T rows leaf l) (merkleNode T rows leaf n) := by
    intro m
    induction m with
    | zero => intro l e; rw [← e]; rfl
    | succ m ih =>
      intro l e
      rw [List.range'_succ, List.map_cons, List.map_cons]
      refine ⟨(rows l).next T, ?_, ih (l + 1) (by omega)⟩
      rw [hbit l (by omega)]
      exact (hb l (by omega)).2
  refine ⟨_, (List.range n).map enc, Nat.ofBits_lt_two_pow fun i : Fin n => b i, ?_, ?_⟩
  · intro l hl
    rw [hbit l hl]
    exact (hb l hl).1
  · rw [List.range_eq_range']
    exact key n 0 (by omega)

end Orchard.Regions
