import Verif.Model.Regions
import Verif.Lemmas.TableGates
import Verif.Lemmas.SinsemillaGates

/-!
# Range checks and Sinsemilla hashes in the table
-/

namespace Orchard.Regions

open Halo2 Layout Pinned Spec

variable {P : Prims} {T : Table} {F : FixedTable}

theorem rangeCheck_sound (hT : LookupsHold T F) (hL : TableLoaded P F) {n s : ℕ} (h : RangeCheckRegion F n s) :
    RunningSum n fun i => T (9, s + i) := by
  intro i hi
  have hf := h.fits
  have hu := usable_le
  have := range_at hT hL (row := s + i) (by omega)
  rw [h.lookup i hi, h.running i hi, rowAt_cur (by omega), rowAt_next (by omega)] at this
  obtain ⟨w, hw, e⟩ := this
  refine ⟨w, hw, ?_⟩
  rw [← e, add_assoc]
  ring

theorem shortCheck_sound (hT : Satisfied T F) (hL : TableLoaded P F) {bits s : ℕ} (hb : bits ≤ 10)
    (h : ShortCheckRegion T F bits s) : ShortCheck bits (T (9, s)) := by
  have hf := h.fits
  have hu := usable_le
  have h1 := range_at hT.2 hL (row := s) (by omega)
  have h2 := range_at hT.2 hL (row := s + 1) (by omega)
  rw [h.lookup.1, h.running.1, rowAt_cur (by omega)] at h1
  rw [h.lookup.2, h.running.2, rowAt_cur (by omega)] at h2
  have h3 := ecc_at hT.1 (row := s + 1) (by omega) 0 rfl rfl h.bitshift
  rw [bitshiftGate, gate_cons, rowAt_cur (by omega), rowAt_prev (by omega), rowAt_next (by omega),
    h.inverse] at h3
  have h4 := sub_eq_zero.1 h3.1
  simp only [sub_zero, zero_mul, one_mul, zero_add] at h1 h2
  refine ⟨h1, ?_⟩
  have e : (2 : Fp) ^ (10 - bits) * T (9, s) = T (9, s + 1) := by
    rw [← h4]
    have h0 : (2 : Fp) ^ bits ≠ 0 := pow_ne_zero _ two_ne_zero_Fp
    rw [eq_mul_inv_iff_mul_eq₀ h0, mul_right_comm, ← pow_add, Nat.sub_add_cancel hb, mul_comm]
  rw [e]
  exact h2

/-! ### Sinsemilla -/

theorem length_qS2Values : ∀ ns : List ℕ, (∀ n ∈ ns, 0 < n) → (qS2Values ns).length = ns.sum
  | [], _ => rfl
  | [n], h => by
    have := h n (by simp)
    simp only [qS2Values, List.length_append, List.length_replicate, List.length_singleton, List.sum_cons,
      List.sum_nil]
    omega
  | n :: m :: ns, h => by
    have := h n (by simp)
    have ih := length_qS2Values (m :: ns) fun k hk => h k (List.mem_cons_of_mem _ hk)
    rw [qS2Values, List.length_append, List.length_append, ih, List.length_replicate, List.length_singleton,
      List.sum_cons (a := n)]
    omega
    simp

/-- The values of `q_s2`: 0 or 1, and 2 on the last row. -/
theorem qS2Values_spec : ∀ (ns : List ℕ), (∀ n ∈ ns, 0 < n) → ∀ i v, (qS2Values ns)[i]? = some v →
    (i + 1 = ns.sum ∧ v = 2) ∨ (i + 1 < ns.sum ∧ (v = 0 ∨ v = 1))
  | [], _, i, v, h => by simp [qS2Values] at h
  | [n], hn, i, v, h => by
    have h0 := hn n (by simp)
    rw [qS2Values] at h
    simp only [List.sum_cons, List.sum_nil, Nat.add_zero]
    by_cases hi : i < n - 1
    · rw [List.getElem?_append_left (by simpa using hi)] at h
      rw [List.getElem?_replicate_of_lt hi] at h
      exact Or.inr ⟨by omega, Or.inr (Option.some.inj h).symm⟩
    · rw [List.getElem?_append_right (by simpa using hi)] at h
      rw [List.length_replicate, List.getElem?_singleton] at h
      split_ifs at h with hc
      exact Or.inl ⟨by omega, (Option.some.inj h).symm⟩
  | n :: m :: ns, hn, i, v, h => by
    have h0 := hn n (by simp)
    have hm : ∀ k ∈ m :: ns, 0 < k := fun k hk => hn k (List.mem_cons_of_mem _ hk)
    have h1 : 0 < (m :: ns).sum := by
      have := hm m (by simp)
      rw [List.sum_cons]; omega
    rw [qS2Values] at h
    rw [List.sum_cons (a := n)]
    by_cases hi : i < n
    · rw [List.getElem?_append_left (by simp; omega)] at h
      refine Or.inr ⟨by omega, ?_⟩
      by_cases hi' : i < n - 1
      · rw [List.getElem?_append_left (by simpa using hi'), List.getElem?_replicate_of_lt hi'] at h
        exact Or.inr (Option.some.inj h).symm
      · rw [List.getElem?_append_right (by simpa using hi'), List.length_replicate,
          List.getElem?_singleton] at h
        split_ifs at h with hc
        exact Or.inl (Option.some.inj h).symm
    · rw [List.getElem?_append_right (by simp; omega)] at h
      have e : i - (List.replicate (n - 1) 1 ++ [0]).length = i - n := by simp; omega
      rw [e] at h
      rcases qS2Values_spec (m :: ns) hm (i - n) v h with ⟨a, b⟩ | ⟨a, b⟩
      · exact Or.inl ⟨by omega, b⟩
      · exact Or.inr ⟨by omega, b⟩
    · simp

theorem word_running {b b' : Fp} : sinsemillaWord ((1 : ℕ) : Fp) b b' = b - 2 ^ 10 * b' := by
  simp only [sinsemillaWord, qS3, Nat.cast_one]; ring

theorem word_last {v : ℕ} (hv : v = 0 ∨ v = 2) {b b' : Fp} : sinsemillaWord (v : Fp) b b' = b := by
  rcases hv with rfl | rfl
  · simp [sinsemillaWord, qS3]
  · simp only [sinsemillaWord, qS3, Nat.cast_ofNat]; ring

/-- One piece: the words of its rows are the differences of its running sum. -/
theorem piece_sound {n : ℕ} (hn : 0 < n) {z : ℕ → Fp} {w v : ℕ → ℕ} (hw : ∀ i < n, w i < 2 ^ 10)
    (hv : ∀ i, i + 1 < n → v i = 1) (hl : v (n - 1) = 0 ∨ v (n - 1) = 2)
    (h : ∀ i < n, sinsemillaWord (v i : ℕ) (z i) (z (i + 1)) = (w i : ℕ)) :
    (⟨n, fun i => if i < n then z i else 0⟩ : Piece).Ok ∧
      (⟨n, fun i => if i < n then z i else 0⟩ : Piece).wordList = (List.range n).map w := by
  have key : ∀ i < n, (if i < n then z i else 0) - 2 ^ 10 * (if i + 1 < n then z (i + 1) else 0) = (w i : ℕ) := by
    intro i hi
    rw [if_pos hi, ← h i hi]
    by_cases h1 : i + 1 < n
    · rw [if_pos h1, hv i h1, word_running]
    · have e : i = n - 1 := by omega
      rw [if_neg h1, e, word_last hl, mul_zero, sub_zero]
  refine ⟨⟨fun i hi => ⟨w i, hw i hi, key i hi⟩, if_neg (lt_irrefl n)⟩, ?_⟩
  refine List.map_congr_left fun i hi => ?_
  rw [List.mem_range] at hi
  dsimp only
  rw [key i hi, ZMod.val_natCast_of_lt]
  have := hw i hi
  have hp : 2 ^ 10 < p := by decide +kernel
  omega

theorem pieces_sound (chip : HashChip) : ∀ (ns : List ℕ), (∀ n ∈ ns, 0 < n) → ∀ (s : ℕ) (w : ℕ → ℕ),
    (∀ i < ns.sum, w i < 2 ^ 10) →
    (∀ i v, (qS2Values ns)[i]? = some v →
      sinsemillaWord (v : ℕ) (T (chip.col + 2, s + i)) (T (chip.col + 2, s + i + 1)) = (w i : ℕ)) →
    (∀ m ∈ hashPieces T chip ns s, m.Ok) ∧
      messageWords (hashPieces T chip ns s) = (List.range ns.sum).map w
  | [], _, s, w, _, _ => ⟨by simp [hashPieces], rfl⟩
  | [n], hn, s, w, hw, h => by
    have h0 := hn n (by simp)
    rw [List.sum_cons, List.sum_nil, Nat.add_zero] at hw ⊢
    have hp := piece_sound h0 (z := fun i => T (chip.col + 2, s + i)) (w := w)
      (v := fun i => if i + 1 < n then 1 else 2) hw (fun i hi => if_pos hi)
      (Or.inr (if_neg (by omega))) fun i hi => h i _ (by
        rw [qS2Values]
        split_ifs with h1
        · rw [List.getElem?_append_left (by simp; omega), List.getElem?_replicate_of_lt (by omega)]
        · rw [List.getElem?_append_right (by simp; omega), List.length_replicate,
            show i - (n - 1) = 0 by omega]
          rfl)
    refine ⟨?_, ?_⟩
    · simpa [hashPieces] using hp.1
    · simpa [hashPieces, messageWords] using hp.2
  | n :: m :: ns, hn, s, w, hw, h => by
    have h0 := hn n (by simp)
    have hm : ∀ k ∈ m :: ns, 0 < k := fun k hk => hn k (List.mem_cons_of_mem _ hk)
    rw [List.sum_cons] at hw ⊢
    have ih := pieces_sound chip (m :: ns) hm (s + n) (fun i => w (n + i)) (fun i hi => hw _ (by omega))
      fun i v hv => by
        have := h (n + i) v (by
          rw [qS2Values, List.getElem?_append_right (by simp; omega)]
          · rw [← hv]
            congr 1
            simp; omega
          · simp)
        rw [← add_assoc] at this
        exact this
    have hp := piece_sound h0 (z := fun i => T (chip.col + 2, s + i)) (w := w)
      (v := fun i => if i + 1 < n then 1 else 0) (fun i hi => hw i (by omega)) (fun i hi => if_pos hi)
      (Or.inl (if_neg (by omega))) fun i hi => h i _ (by
        rw [qS2Values]
        · rw [List.getElem?_append_left (by simp; omega)]
          split_ifs with h1
          · rw [List.getElem?_append_left (by simp; omega), List.getElem?_replicate_of_lt (by omega)]
          · rw [List.getElem?_append_right (by simp; omega), List.length_replicate,
              show i - (n - 1) = 0 by omega]
            rfl
        · simp)
    rw [hashPieces]
    refine ⟨?_, ?_⟩
    · intro k hk
      rcases List.mem_cons.1 hk with rfl | hk
      · exact hp.1
      · exact ih.1 k hk
    · have e : messageWords (⟨n, fun i => if i < n then T (chip.col + 2, s + i) else 0⟩ ::
          hashPieces T chip (m :: ns) (s + n)) = (List.range n).map w ++
            messageWords (hashPieces T chip (m :: ns) (s + n)) := by
        rw [messageWords, List.flatMap_cons, hp.2]; rfl
      rw [e, ih.2, List.range_add, List.map_append, List.map_map]
      rfl

theorem chip_cases {chip : HashChip} (hc : chip = hashChip1 ∨ chip = hashChip2) :
    chip.col = 0 ∧ chip.qS1 = 16 ∧ chip.qS2 = 12 ∨ chip.col = 5 ∧ chip.qS1 = 17 ∧ chip.qS2 = 13 := by
  rcases hc with rfl | rfl
  · exact Or.inl ⟨rfl, rfl, rfl⟩
  · exact Or.inr ⟨rfl, rfl, rfl⟩

theorem sinsemillaGate_at (hT : GatesHold T F) {chip : HashChip} (hc : chip = hashChip1 ∨ chip = hashChip2)
    {row : ℕ} (hr : row + 1 < numRows) (h : F chip.qS1 row = 1) :
    Gate (sinsemillaGate (F chip.qS2 row) (tableRow T chip.col row) (tableRow T chip.col (row + 1))) := by
  rw [← hashRow_cur (F := F) (by omega), ← hashRow_next (F := F) hr, ← rowAt_fixed T F (by omega)]
  rcases hc with rfl | rfl
  · exact hash1_at hT (by omega) 1 (c := ⟨16, 1, 1⟩) rfl rfl (by rw [On, Nat.cast_one]; exact h)
  · exact hash2_at hT (by omega) 1 (c := ⟨17, 1, 1⟩) rfl rfl (by rw [On, Nat.cast_one]; exact h)

theorem initialYQ_at (hT : GatesHold T F) {chip : HashChip} (hc : chip = hashChip1 ∨ chip = hashChip2)
    {row : ℕ} (hr : row < numRows) (h : On F chip.qS4 row) :
    Gate (initialYQGate (F chip.yQ row) (tableRow T chip.col row)) := by
  rw [← hashRow_cur (F := F) (by omega), ← rowAt_fixed T F (by omega)]
  rcases hc with rfl | rfl
  · exact hash1_at hT (by omega) 0 rfl rfl h
  · exact hash2_at hT (by omega) 0 rfl rfl h

theorem four_ne_zero_Fp : (4 : Fp) ≠ 0 := by decide +kernel

theorem hash_sound (hT : Satisfied T F) (hL : TableLoaded P F) {chip : HashChip}
    (hc : chip = hashChip1 ∨ chip = hashChip2) {Q : Point} {ns : List ℕ} (h0 : ns ≠ [])
    (hn : ∀ n ∈ ns, 0 < n) {s : ℕ} (h : HashRegion T F chip Q ns s) :
    (∀ m ∈ hashPieces T chip ns s, m.Ok) ∧
      Returns false ((messageWords (hashPieces T chip ns s)).foldlM (sinsemillaStep P) Q)
        (hashResult T chip ns s) := by
  have hf := h.fits
  have hu := usable_le
  have hlen := length_qS2Values ns hn
  have hpos : 0 < ns.sum := by
    cases ns with
    | nil => exact absurd rfl h0
    | cons n ns =>
      have := hn n (by simp)
      rw [List.sum_cons]; omega
  have hw : ∀ i : ℕ, ∃ j : ℕ, i < ns.sum → j < 2 ^ 10 ∧
      sinsemillaWord (F chip.qS2 (s + i)) (tableRow T chip.col (s + i)).bits
        (tableRow T chip.col (s + i + 1)).bits = (j : ℕ) ∧
      (tableRow T chip.col (s + i)).xP = extractP (P.sinsemillaS j) ∧
      (tableRow T chip.col (s + i)).yP = cellY (P.sinsemillaS j) := by
    intro i
    by_cases hi : i < ns.sum
    · obtain ⟨j, hj⟩ := word_at hT.2 hL (row := s + i) (by omega) (chip_cases hc) (h.qS1 i hi)
      exact ⟨j, fun _ => hj⟩
    · exact ⟨0, fun h => absurd h hi⟩
  choose w hw using hw
  obtain ⟨h1, h2⟩ := pieces_sound (T := T) chip ns hn s w (fun i hi => (hw i hi).1) fun i v hv => by
    have hi : i < ns.sum := by rw [← hlen]; exact (List.getElem?_eq_some_iff.1 hv).1
    rw [← h.qS2 i v hv]
    exact (hw i hi).2.1
  refine ⟨h1, ?_⟩
  rw [h2]
  have hy0 := initialYQ_at hT.1 hc (row := s) (by omega) h.qS4
  rw [initialYQGate, gate_cons, h.yQ] at hy0
  have hfold := rows_sound (P := P) (r := fun i => tableRow T chip.col (s + i))
    (y := fun i => if i < ns.sum then (tableRow T chip.col (s + i)).twiceYA * half
      else (tableRow T chip.col (s + i)).lambda1) (w := w) (Q := Q)
    (by
      rw [if_pos hpos]
      refine Prod.ext h.xQ.symm ?_
      have e := sub_eq_zero.1 hy0.1
      change cellY Q = _
      rw [Nat.add_zero, ← e, mul_right_comm, twice_half])
    (n := ns.sum) fun i hi => by
      obtain ⟨-, -, hx, hy⟩ := hw i hi
      obtain ⟨v, hv⟩ : ∃ v, (qS2Values ns)[i]? = some v :=
        ⟨_, List.getElem?_eq_getElem (by rw [hlen]; exact hi)⟩
      have hg := sinsemillaGate_at hT.1 hc (row := s + i) (by omega) (h.qS1 i hi)
      rw [h.qS2 i v hv, sinsemillaGate, gate_cons, gate_cons] at hg
      obtain ⟨g1, g2, -⟩ := hg
      rw [if_pos hi, ← add_assoc]
      refine ⟨?_, hx, hy, sub_eq_zero.1 g1, ?_⟩
      · rw [mul_comm, twice_half]
      · apply mul_left_cancel₀ four_ne_zero_Fp
        have t1 := twice_half (tableRow T chip.col (s + i)).twiceYA
        have t2 := twice_half (tableRow T chip.col (s + i + 1)).twiceYA
        rcases qS2Values_spec ns hn i v hv with ⟨a, rfl⟩ | ⟨a, hv01⟩
        · rw [if_neg (by omega)]
          simp only [qS3, Nat.cast_ofNat] at g2
          linear_combination g2 - 2 * t1
        · rw [if_pos a]
          have e3 : qS3 ((v : ℕ) : Fp) = 0 := by
            rcases hv01 with rfl | rfl <;> simp [qS3]
          rw [e3] at g2
          linear_combination g2 - 2 * t1 - 2 * t2
  rw [if_neg (lt_irrefl _)] at hfold
  rcases hfold with hf | ⟨A, hA, hcells⟩
  · exact Or.inr ⟨rfl, hf⟩
  · exact Or.inl ⟨A, hA, hcells.symm⟩

/-- The pieces as numbers, and their words as the chunks of the bits of these. -/
theorem pieces_values {chip : HashChip} : ∀ (ns : List ℕ), (∀ n ∈ ns, 0 < n ∧ n ≤ 25) → ∀ (s : ℕ),
    (∀ m ∈ hashPieces T chip ns s, m.Ok) →
    ∃ N : ℕ → ℕ, (∀ j n, ns[j]? = some n → N j < 2 ^ (10 * n) ∧
        T (chip.col + 2, s + (ns.take j).sum) = (N j : ℕ)) ∧
      messageWords (hashPieces T chip ns s) =
        chunks ((List.range ns.length).flatMap fun j => leBits (10 * ns.getD j 0) (N j))
  | [], _, _, _ => ⟨fun _ => 0, by simp, rfl⟩
  | n :: ns, hn, s, h => by
    obtain ⟨N, h1, h2⟩ := pieces_values ns (fun m hm => hn m (List.mem_cons_of_mem _ hm)) (s + n)
      (fun m hm => h m (List.mem_cons_of_mem _ hm))
    have h0 := (hn n (List.mem_cons_self ..)).1
    have h25 := (hn n (List.mem_cons_self ..)).2
    have hp : 2 ^ 250 < p := by decide +kernel
    obtain ⟨M, hM, hz, hw⟩ := (h _ (List.mem_cons_self ..)).spec
      ((Nat.pow_le_pow_right (by norm_num) (by dsimp only; omega)).trans hp.le)
    dsimp only at hM hz hw
    refine ⟨fun j => if j = 0 then M else N (j - 1), fun j m hj => ?_, ?_⟩
    · cases j with
      | zero =>
        obtain rfl : n = m := by simpa using hj
        refine ⟨hM, ?_⟩
        have := hz 0 (Nat.zero_le _)
        rw [if_pos h0] at this
        simpa using this
      | succ j =>
        have := h1 j m (by simpa using hj)
        simpa [Nat.add_assoc] using this
    · rw [hashPieces, messageWords, List.flatMap_cons, hw]
      rw [messageWords] at h2
      rw [h2, List.length_cons, List.range_succ_eq_map, List.flatMap_cons, chunks_append _ n (by simp)]
      congr 2
      rw [List.flatMap_map]
      rfl

end Orchard.Regions
