import Verif.Lemmas.PatchBasic

/-!
# Regions that honest provers fill: Sinsemilla
-/

namespace Orchard.Halo2

/-- The slopes of a double-and-add step without exceptional case. -/
theorem exists_slopes {A S : Point} (hA : A ≠ 0) (hS : S ≠ 0) (h1 : A ≠ S) (h2 : A ≠ -S) (h3 : A + S ≠ -A) :
    ∃ l1 l2 : Fp, l1 * ((cells A).1 - (cells S).1) = (cells A).2 - (cells S).2 ∧
      (l1 + l2) * ((cells A).1 - (l1 ^ 2 - (cells A).1 - (cells S).1)) = 2 * (cells A).2 ∧
      l2 ^ 2 = (cells (A + S + A)).1 + (l1 ^ 2 - (cells A).1 - (cells S).1) + (cells A).1 ∧
      l2 * ((cells A).1 - (cells (A + S + A)).1) = (cells A).2 + (cells (A + S + A)).2 := by
  obtain ⟨x, y, h, rfl, c⟩ := cases_cells hA
  obtain ⟨u, v, g, rfl, c'⟩ := cases_cells hS
  have hx : x - u ≠ 0 := sub_ne_zero.2 (ne_x h1 h2)
  have e1 : (y - v) / (x - u) * (x - u) = y - v := div_mul_cancel₀ _ hx
  obtain ⟨k, hk⟩ := Point.add_chord (l := (y - v) / (x - u)) h g (ne_x h1 h2) e1 rfl rfl
  have hRA : Point.ofXY x y h + Point.ofXY u v g ≠ Point.ofXY x y h := by
    intro he
    exact hS (by simpa using he)
  rw [hk] at h3 hRA
  have hR := ne_x hRA h3
  rw [c, c']
  dsimp only
  generalize (y - v) / (x - u) = l1 at *
  have hR' : x - (l1 ^ 2 - x - u) ≠ 0 := sub_ne_zero.2 (Ne.symm hR)
  have e2 : (l1 + (2 * y / (x - (l1 ^ 2 - x - u)) - l1)) * (x - (l1 ^ 2 - x - u)) = 2 * y := by
    rw [add_sub_cancel, div_mul_cancel₀ _ hR']
  generalize 2 * y / (x - (l1 ^ 2 - x - u)) - l1 = l2 at e2
  obtain ⟨k', hk'⟩ := Point.add_chord (l := l2) k h hR (by linear_combination -e2) rfl rfl
  rw [hk, hk', cells_ofXY]
  dsimp only
  exact ⟨l1, l2, e1, e2, by ring, by linear_combination e2⟩

end Orchard.Halo2

namespace Orchard.Regions

open Halo2 Layout Pinned Spec

variable {P : Prims} {T : Table} {F : FixedTable}

/-- The points along a fold. -/
theorem foldlM_steps {f : Point → ℕ → Option Point} : ∀ (l : List ℕ) (Q A : Point), l.foldlM f Q = some A →
    ∃ acc : ℕ → Point, acc 0 = Q ∧ acc l.length = A ∧ ∀ i w, l[i]? = some w → f (acc i) w = some (acc (i + 1))
  | [], Q, A, h => ⟨fun _ => Q, rfl, Option.some.inj h, by simp⟩
  | w :: l, Q, A, h => by
    rw [List.foldlM_cons] at h
    cases hB : f Q w with
    | none => rw [hB] at h; cases h
    | some B =>
      rw [hB] at h
      obtain ⟨acc, h1, h2, h3⟩ := foldlM_steps l B A h
      refine ⟨fun i => if i = 0 then Q else acc (i - 1), rfl, ?_, fun i v hv => ?_⟩
      · simp [h2]
      · cases i with
        | zero =>
          obtain rfl : w = v := by simpa using hv
          simpa [h1] using hB
        | succ i => simpa using h3 i v (by simpa using hv)

theorem step_cells {A : Point} {w : ℕ} {B : Point} (h : sinsemillaStep P A w = some B) :
    ∃ l1 l2 : Fp, ∀ bits, StepHolds P ⟨extractP A, extractP (P.sinsemillaS w), bits, l1, l2⟩ (cellY A) w (extractP B)
      (cellY B) := by
  unfold sinsemillaStep at h
  rcases incompleteAdd_none_or A (P.sinsemillaS w) with h1 | ⟨h1, a1, a2, a3, a4⟩
  · rw [h1] at h; cases h
  rw [h1, Option.bind_some] at h
  rcases incompleteAdd_none_or (A + P.sinsemillaS w) A with h2 | ⟨h2, -, -, -, b4⟩
  · rw [h2] at h; cases h
  · rw [h2] at h
    obtain rfl := Option.some.inj h
    obtain ⟨l1, l2, e1, e2, e3, e4⟩ := exists_slopes a1 a2 a3 a4 b4
    simp only [cells] at e1 e2 e3 e4
    refine ⟨l1, l2, fun bits => ⟨e2, rfl, ?_, e3, e4⟩⟩
    dsimp only
    linear_combination -e1

/-- The running sums of the pieces, one after the other. -/
def pieceSums (ms : List Piece) : List Fp := ms.flatMap fun m => (List.range m.words).map m.z

theorem length_pieceSums (ms : List Piece) : (pieceSums ms).length = (ms.map Piece.words).sum := by
  simp [pieceSums, List.length_flatMap]

theorem length_messageWords (ms : List Piece) : (messageWords ms).length = (ms.map Piece.words).sum := by
  simp [messageWords, Piece.wordList, List.length_flatMap]

theorem inTable_val {x : Fp} (h : InTable x) : x.val < 2 ^ 10 := by
  obtain ⟨w, hw, rfl⟩ := h
  have hp : 2 ^ 10 < p := by decide +kernel
  rwa [ZMod.val_natCast_of_lt (by omega)]

/-- The lookups of the rows of a message. -/
theorem pieces_words : ∀ (ms : List Piece), (∀ m ∈ ms, m.Ok) → (∀ m ∈ ms, 0 < m.words) → ∀ i v w,
    (qS2Values (ms.map Piece.words))[i]? = some v → (messageWords ms)[i]? = some w →
    w < 2 ^ 10 ∧ sinsemillaWord (v : ℕ) ((pieceSums ms).getD i 0) ((pieceSums ms).getD (i + 1) 0) = (w : ℕ)
  | [], _, _, i, v, w, hv, _ => by simp [qS2Values] at hv
  | m :: ms, hok, hpos, i, v, w, hv, hw => by
    have hm := hok m (List.mem_cons_self ..)
    have h0 := hpos m (List.mem_cons_self ..)
    have hlen : (m.wordList).length = m.words := by simp [Piece.wordList]
    have hlen2 : ((List.range m.words).map m.z).length = m.words := by simp
    rw [messageWords, List.flatMap_cons] at hw
    have es : pieceSums (m :: ms) = (List.range m.words).map m.z ++ pieceSums ms := by
      rw [pieceSums, List.flatMap_cons]; rfl
    rw [es]
    by_cases hi : i < m.words
    · rw [List.getElem?_append_left (by omega)] at hw
      simp only [Piece.wordList, List.getElem?_map, List.getElem?_range hi, Option.map_some, Option.some.injEq] at hw
      have ht := hm.1 i hi
      refine ⟨by rw [← hw]; exact inTable_val ht, ?_⟩
      rw [← hw, ZMod.natCast_zmod_val]
      have e1 : ((List.range m.words).map m.z ++ pieceSums ms).getD i 0 = m.z i := by
        rw [List.getD_eq_getElem?_getD, List.getElem?_append_left (by omega), List.getElem?_map, List.getElem?_range hi]
        rfl
      rw [e1]
      by_cases hl : i + 1 < m.words
      · have e2 : ((List.range m.words).map m.z ++ pieceSums ms).getD (i + 1) 0 = m.z (i + 1) := by
          rw [List.getD_eq_getElem?_getD, List.getElem?_append_left (by omega), List.getElem?_map, List.getElem?_range hl]
          rfl
        have hv1 : v = 1 := by
          cases ms with
          | nil =>
            rw [List.map_cons, List.map_nil, qS2Values, List.getElem?_append_left (by simp; omega),
              List.getElem?_replicate_of_lt (by omega)] at hv
            exact (Option.some.inj hv).symm
          | cons m' ms =>
            rw [List.map_cons, List.map_cons, qS2Values, List.append_assoc, List.getElem?_append_left (by simp; omega),
              List.getElem?_replicate_of_lt (by omega)] at hv
            · exact (Option.some.inj hv).symm
            · simp
        rw [e2, hv1, word_running]
      · have hv2 : v = 0 ∨ v = 2 := by
          cases ms with
          | nil =>
            rw [List.map_cons, List.map_nil, qS2Values, List.getElem?_append_right (by simp; omega),
              List.length_replicate, show i - (m.words - 1) = 0 by omega] at hv
            exact Or.inr (Option.some.inj hv).symm
          | cons m' ms =>
            rw [List.map_cons, List.map_cons, qS2Values, List.append_assoc, List.getElem?_append_right (by simp; omega),
              List.length_replicate, show i - (m.words - 1) = 0 by omega] at hv
            · exact Or.inl (Option.some.inj hv).symm
            · simp
        rw [word_last hv2, show i + 1 = m.words by omega, hm.2, mul_zero, sub_zero]
    · rw [List.getElem?_append_right (by omega), hlen] at hw
      obtain ⟨m', ms', rfl⟩ : ∃ m' ms', ms = m' :: ms' := by
        cases ms with
        | nil => simp at hw
        | cons m' ms' => exact ⟨m', ms', rfl⟩
      have ih := pieces_words (m' :: ms') (fun k hk => hok k (List.mem_cons_of_mem _ hk))
        (fun k hk => hpos k (List.mem_cons_of_mem _ hk)) (i - m.words) v w (by
          rw [List.map_cons, List.map_cons, qS2Values, List.getElem?_append_right (by simp; omega)] at hv
          · rw [← hv, List.map_cons]
            congr 1
            simp; omega
          · simp) hw
      refine ⟨ih.1, ?_⟩
      rw [← ih.2, List.getD_eq_getElem?_getD, List.getD_eq_getElem?_getD, List.getElem?_append_right (by omega),
        List.getElem?_append_right (by omega), hlen2, List.getD_eq_getElem?_getD, List.getD_eq_getElem?_getD,
        show i + 1 - m.words = i - m.words + 1 by omega]

/-- The rows of a hash. -/
def hashPatch (chip : HashChip) (Q : Point) (ns : List ℕ) (s : ℕ) (r : ℕ → HashRow) : Patch :=
  ⟨[⟨chip.col, s, ns.sum + 1, fun i => (r i).xA⟩, ⟨chip.col + 1, s, ns.sum, fun i => (r i).xP⟩,
      ⟨chip.col + 2, s, ns.sum, fun i => (r i).bits⟩, ⟨chip.col + 3, s, ns.sum + 1, fun i => (r i).lambda1⟩,
      ⟨chip.col + 4, s, ns.sum, fun i => (r i).lambda2⟩],
    [⟨chip.qS2, s, ns.sum, fun i => ((qS2Values ns).getD i 0 : ℕ)⟩, ⟨chip.yQ, s, 1, fun _ => cellY Q⟩],
    [(chip.qS4, s, 1), (⟨chip.qS1, 1, 1⟩, s, ns.sum)], []⟩

section

variable {chip : HashChip} {Q : Point} {ns : List ℕ} {s : ℕ} {r : ℕ → HashRow}

theorem hashPatch_cells (h : Contains T F (hashPatch chip Q ns s r)) :
    (∀ i < ns.sum, tableRow T chip.col (s + i) = r i) ∧
    (tableRow T chip.col (s + ns.sum)).xA = (r ns.sum).xA ∧
    (tableRow T chip.col (s + ns.sum)).lambda1 = (r ns.sum).lambda1 ∧
    (∀ i < ns.sum, F chip.qS2 (s + i) = ((qS2Values ns).getD i 0 : ℕ)) ∧ F chip.yQ s = cellY Q := by
  have h1 := h.advice
  have h2 := h.fixed
  simp only [hashPatch, List.forall_mem_cons] at h1 h2
  obtain ⟨k0, k1, k2, k3, k4, -⟩ := h1
  refine ⟨fun i hi => ?_, k0 ns.sum (Nat.lt_succ_self _), k3 ns.sum (Nat.lt_succ_self _), h2.1, hasStrip_one.1 h2.2.1⟩
  have e0 : T (chip.col, s + i) = (r i).xA := k0 i (Nat.lt_succ_of_lt hi)
  have e1 : T (chip.col + 1, s + i) = (r i).xP := k1 i hi
  have e2 : T (chip.col + 2, s + i) = (r i).bits := k2 i hi
  have e3 : T (chip.col + 3, s + i) = (r i).lambda1 := k3 i (Nat.lt_succ_of_lt hi)
  have e4 : T (chip.col + 4, s + i) = (r i).lambda2 := k4 i hi
  simp only [tableRow, e0, e1, e2, e3, e4]

theorem hashPatch_region (hn : ∀ n ∈ ns, 0 < n) (h0 : ns ≠ []) (hs : s + ns.sum < usableRows) (hx : (r 0).xA = extractP Q)
    (h : Contains T F (hashPatch chip Q ns s r)) : HashRegion T F chip Q ns s := by
  obtain ⟨h1, h2, h3, h4, h5⟩ := hashPatch_cells h
  have hlen := length_qS2Values ns hn
  have hpos : 0 < ns.sum := by
    cases ns with
    | nil => exact absurd rfl h0
    | cons n ns =>
      have := hn n (by simp)
      rw [List.sum_cons]; omega
  refine ⟨hs, fun i hi => ?_, fun i v hv => ?_, h.on (i := 0) (List.mem_cons_self ..) (by norm_num), h5, ?_⟩
  · have := h.on (List.mem_cons_of_mem _ (List.mem_cons_self ..)) hi
    rw [On] at this
    simpa using this
  · have hi : i < ns.sum := by rw [← hlen]; exact (List.getElem?_eq_some_iff.1 hv).1
    rw [h4 i hi, List.getD_eq_getElem?_getD, hv]
    rfl
  · have := congrArg HashRow.xA (h1 0 hpos)
    rw [← hx, ← this]
    rfl

theorem initialYQ_gateAt (hc : chip = hashChip1 ∨ chip = hashChip2) {row : ℕ} (hr : row < numRows)
    (h : Gate (initialYQGate (F chip.yQ row) (tableRow T chip.col row))) : GateAt T F chip.qS4 row := by
  rw [← hashRow_cur (F := F) (by omega), ← rowAt_fixed T F (by omega)] at h
  rcases hc with rfl | rfl
  · exact hash1_gateAt 0 rfl rfl h
  · exact hash2_gateAt 0 rfl rfl h

theorem sinsemilla_gateAt (hc : chip = hashChip1 ∨ chip = hashChip2) {row : ℕ} (hr : row + 1 < numRows)
    (h : Gate (sinsemillaGate (F chip.qS2 row) (tableRow T chip.col row) (tableRow T chip.col (row + 1)))) :
    GateAt T F ⟨chip.qS1, 1, 1⟩ row := by
  rw [← hashRow_cur (F := F) (by omega), ← hashRow_next (F := F) hr, ← rowAt_fixed T F (by omega)] at h
  rcases hc with rfl | rfl
  · exact hash1_gateAt 1 rfl rfl h
  · exact hash2_gateAt 1 rfl rfl h

theorem hashPatch_ok (hc : chip = hashChip1 ∨ chip = hashChip2) (hn : ∀ n ∈ ns, 0 < n) (h0 : ns ≠ [])
    (hs : s + ns.sum < usableRows) {y : ℕ → Fp} {w : ℕ → ℕ} (hy0 : y 0 = cellY Q) (hyn : (r ns.sum).lambda1 = y ns.sum)
    (hw : ∀ i v, (qS2Values ns)[i]? = some v → w i < 2 ^ 10 ∧
      (i + 1 < ns.sum → sinsemillaWord (v : ℕ) (r i).bits (r (i + 1)).bits = (w i : ℕ)) ∧
      (i + 1 = ns.sum → (r i).bits = (w i : ℕ)))
    (hr : ∀ i < ns.sum, StepHolds P (r i) (y i) (w i) (r (i + 1)).xA (y (i + 1))) :
    (hashPatch chip Q ns s r).Ok P where
  cols st h := by
    simp only [hashPatch, List.mem_cons, List.not_mem_nil, or_false] at h
    rcases hc with rfl | rfl <;> rcases h with rfl | rfl <;> exact ⟨by norm_num [hashChip1, hashChip2], by norm_num [hashChip1, hashChip2]⟩
  codes x h := by
    simp only [hashPatch, List.mem_cons, List.not_mem_nil, or_false] at h
    rcases hc with rfl | rfl <;> rcases h with rfl | rfl <;> exact mem_gateCodes rfl
  gates T F hC x hx i hi := by
    have hu := usable_le
    have hlen := length_qS2Values ns hn
    obtain ⟨h1, h2, h3, h4, h5⟩ := hashPatch_cells hC
    have hpos : 0 < ns.sum := by
      cases ns with
      | nil => exact absurd rfl h0
      | cons n ns =>
        have := hn n (by simp)
        rw [List.sum_cons]; omega
    simp only [hashPatch, List.mem_cons, List.not_mem_nil, or_false] at hx
    rcases hx with rfl | rfl
    · dsimp only at hi ⊢
      obtain rfl : i = 0 := by omega
      refine ⟨by omega, initialYQ_gateAt hc (by omega) ?_, ?_, ?_⟩
      · rw [h1 0 hpos, Nat.add_zero, h5, initialYQGate, gate_cons]
        refine ⟨?_, gate_nil⟩
        rw [(hr 0 hpos).twice, hy0]
        ring
      · rcases hc with rfl | rfl <;> simp [hashChip1, hashChip2]
      · rcases hc with rfl | rfl <;> simp [hashChip1, hashChip2]
    · dsimp only at hi ⊢
      obtain ⟨v, hv⟩ : ∃ v, (qS2Values ns)[i]? = some v :=
        ⟨_, List.getElem?_eq_getElem (by rw [hlen]; exact hi)⟩
      have hFv : F chip.qS2 (s + i) = (v : ℕ) := by
        rw [h4 i hi, List.getD_eq_getElem?_getD, hv]
        rfl
      obtain ⟨w1, w2, w3⟩ := hw i v hv
      have hstep := hr i hi
      have hword : WordAt P T F chip.col chip.qS2 (s + i) := by
        refine ⟨w i, w1, ?_, ?_, ?_⟩
        · rw [hFv, h1 i hi]
          rcases qS2Values_spec ns hn i v hv with ⟨a, rfl⟩ | ⟨a, -⟩
          · rw [word_last (Or.inr rfl)]
            exact w3 a
          · rw [Nat.add_assoc, h1 (i + 1) a]
            exact w2 a
        · rw [h1 i hi]
          exact hstep.xP
        · rw [h1 i hi, HashRow.yP, hstep.twice, mul_comm 2 (y i), mul_assoc, mul_comm 2 half, half_mul_two, mul_one]
          exact hstep.yP
      refine ⟨by omega, sinsemilla_gateAt hc (by omega) ?_, ?_, ?_⟩
      · have hx' : (tableRow T chip.col (s + i + 1)).xA = (r (i + 1)).xA := by
          rcases Nat.lt_or_ge (i + 1) ns.sum with a | a
          · rw [Nat.add_assoc, h1 (i + 1) a]
          · rw [Nat.add_assoc, show i + 1 = ns.sum by omega]
            exact h2
        rw [sinsemillaGate, gate_cons, gate_cons, hFv, h1 i hi, hx']
        refine ⟨sub_eq_zero.2 hstep.addX, ?_, gate_nil⟩
        rw [hstep.twice]
        rcases qS2Values_spec ns hn i v hv with ⟨a, rfl⟩ | ⟨a, hv01⟩
        · have h3' : (tableRow T chip.col (s + i + 1)).lambda1 = y (i + 1) := by
            rw [Nat.add_assoc, a, h3, hyn]
          rw [h3']
          simp only [qS3, Nat.cast_ofNat]
          linear_combination 4 * hstep.addY
        · have e3 : qS3 ((v : ℕ) : Fp) = 0 := by
            rcases hv01 with rfl | rfl <;> simp [qS3]
          rw [e3, Nat.add_assoc, h1 (i + 1) a, (hr (i + 1) a).twice]
          linear_combination 4 * hstep.addY
      · rcases hc with rfl | rfl
        · exact fun _ => hword
        · simp [hashChip2]
      · rcases hc with rfl | rfl
        · simp [hashChip1]
        · exact fun _ => hword
  lookups T F _ x h := by cases h

end

/-- The cells of the pieces contain their running sums. -/
def PieceCells (T : Table) (chip : HashChip) : List Piece → ℕ → Prop
  | [], _ => True
  | m :: ms, s => (∀ i < m.words, T (chip.col + 2, s + i) = m.z i) ∧ PieceCells T chip ms (s + m.words)

theorem pieceCells_of {chip : HashChip} : ∀ (ms : List Piece) (s : ℕ),
    (∀ i v, (pieceSums ms)[i]? = some v → T (chip.col + 2, s + i) = v) → PieceCells T chip ms s
  | [], _, _ => trivial
  | m :: ms, s, h => by
    have es : pieceSums (m :: ms) = (List.range m.words).map m.z ++ pieceSums ms := by
      rw [pieceSums, List.flatMap_cons]; rfl
    rw [es] at h
    refine ⟨fun i hi => h i _ ?_, pieceCells_of ms _ fun i v hv => ?_⟩
    · rw [List.getElem?_append_left (by simpa using hi), List.getElem?_map, List.getElem?_range hi]
      rfl
    · rw [Nat.add_assoc]
      refine h _ v ?_
      rw [List.getElem?_append_right (by simp), ← hv]
      congr 1
      simp

/-- The hash of a message for which it is defined. -/
theorem exists_hashPatch {chip : HashChip} (hc : chip = hashChip1 ∨ chip = hashChip2) {Q A : Point} {ms : List Piece}
    (hok : ∀ m ∈ ms, m.Ok) (hpos : ∀ m ∈ ms, 0 < m.words) (h0 : ms ≠ []) {s : ℕ}
    (hs : s + (ms.map Piece.words).sum < usableRows)
    (hA : (messageWords ms).foldlM (sinsemillaStep P) Q = some A) :
    ∃ r, (hashPatch chip Q (ms.map Piece.words) s r).Ok P ∧
      ∀ T F, Contains T F (hashPatch chip Q (ms.map Piece.words) s r) →
        HashRegion T F chip Q (ms.map Piece.words) s ∧ PieceCells T chip ms s ∧
          hashResult T chip (ms.map Piece.words) s = cells A := by
  obtain ⟨acc, a0, a1, a2⟩ := foldlM_steps _ _ _ hA
  rw [length_messageWords] at a1
  have hl : ∀ i : ℕ, ∃ l : Fp × Fp, ∀ w, (messageWords ms)[i]? = some w →
      ∀ bits, StepHolds P ⟨extractP (acc i), extractP (P.sinsemillaS w), bits, l.1, l.2⟩ (cellY (acc i)) w
        (extractP (acc (i + 1))) (cellY (acc (i + 1))) := by
    intro i
    cases hw : (messageWords ms)[i]? with
    | none => exact ⟨(0, 0), by simp⟩
    | some w =>
      obtain ⟨l1, l2, h⟩ := step_cells (a2 i w hw)
      refine ⟨(l1, l2), fun w' hw' => ?_⟩
      obtain rfl := Option.some.inj hw'
      exact h
  choose l hl using hl
  have hlen := length_messageWords ms
  have hlen2 := length_pieceSums ms
  generalize hN : (ms.map Piece.words).sum = N at *
  let r : ℕ → HashRow := fun i => ⟨extractP (acc i), extractP (P.sinsemillaS ((messageWords ms).getD i 0)),
    (pieceSums ms).getD i 0, if i < N then (l i).1 else cellY (acc i), (l i).2⟩
  have hn : ∀ n ∈ ms.map Piece.words, 0 < n := by
    intro n hn
    obtain ⟨m, hm, rfl⟩ := List.mem_map.1 hn
    exact hpos m hm
  have hne : ms.map Piece.words ≠ [] := by simpa using h0
  have hword : ∀ i < N, (messageWords ms)[i]? = some ((messageWords ms).getD i 0) := by
    intro i hi
    rw [List.getD_eq_getElem?_getD, List.getElem?_eq_getElem (by omega)]
    rfl
  refine ⟨r, hashPatch_ok hc hn hne (by rw [hN]; exact hs) (y := fun i => cellY (acc i))
    (w := fun i => (messageWords ms).getD i 0) (by rw [a0]) ?_ ?_ ?_, fun T F hC => ⟨?_, ?_, ?_⟩⟩
  · rw [hN]
    simp only [r, lt_irrefl, if_false]
  · intro i v hv
    have hi : i < N := by
      rw [← hN, ← length_qS2Values _ hn]
      exact (List.getElem?_eq_some_iff.1 hv).1
    have hp := pieces_words ms hok hpos i v _ hv (hword i hi)
    refine ⟨hp.1, fun _ => hp.2, fun e => ?_⟩
    rcases qS2Values_spec _ hn i v hv with ⟨a, rfl⟩ | ⟨a, -⟩
    · have := hp.2
      rw [word_last (Or.inr rfl)] at this
      exact this
    · omega
  · intro i hi
    rw [hN] at hi
    have := hl i _ (hword i hi) ((pieceSums ms).getD i 0)
    simp only [r, if_pos hi]
    exact this
  · exact hashPatch_region hn hne (by rw [hN]; exact hs) (by simp only [r, a0]) hC
  · refine pieceCells_of ms s fun i v hv => ?_
    have hi : i < N := by
      rw [← hlen2]
      exact (List.getElem?_eq_some_iff.1 hv).1
    have := congrArg HashRow.bits ((hashPatch_cells hC).1 i (by rw [hN]; exact hi))
    simp only [r, List.getD_eq_getElem?_getD, hv, Option.getD_some] at this
    exact this
  · obtain ⟨-, h2, h3, -⟩ := hashPatch_cells hC
    rw [hN] at h2 h3
    rw [hashResult, hN]
    refine Prod.ext ?_ ?_
    · rw [← a1]
      exact h2
    · simp only [r, lt_irrefl, if_false] at h3
      rw [← a1]
      exact h3

end Orchard.Regions
