import Verif.Lemmas.TableGates
import Verif.Lemmas.MulFixed

/-!
# Tables from pieces

A patch lists what some regions put into columns.  If its gates and lookups hold for every table that contains it and
nothing is written twice, then there is a table that contains it and satisfies all gates and lookups.
-/

namespace Orchard.Regions

open Halo2 Layout Pinned Spec

/-- Neighbouring cells of a column, with contents. -/
structure Strip where
  col : ℕ
  start : ℕ
  len : ℕ
  val : ℕ → Fp

/-- Advice and fixed cells, gates that are on (by code, first row and number of rows), and range lookups (by first
row, number of rows, and whether they are of running sums). -/
structure Patch where
  advice : List Strip
  fixed : List Strip
  gates : List (SelectorCode × ℕ × ℕ)
  lookups : List (ℕ × ℕ × Bool)

def Patch.append (p q : Patch) : Patch :=
  ⟨p.advice ++ q.advice, p.fixed ++ q.fixed, p.gates ++ q.gates, p.lookups ++ q.lookups⟩

instance : Append Patch := ⟨Patch.append⟩

def Patch.empty : Patch := ⟨[], [], [], []⟩

/-- The strips of the selectors. -/
def gateStrip (x : SelectorCode × ℕ × ℕ) : Strip := ⟨x.1.column, x.2.1, x.2.2, fun _ => (x.1.index : ℕ)⟩
def lookupStrip (x : ℕ × ℕ × Bool) : Strip := ⟨14, x.1, x.2.1, fun _ => 1⟩
def runningStrip (x : ℕ × ℕ × Bool) : Strip := ⟨15, x.1, x.2.1, fun _ => if x.2.2 then 1 else 0⟩

/-- The table contains the strip. -/
def HasStrip (f : ℕ → ℕ → Fp) (st : Strip) : Prop := ∀ i < st.len, f st.col (st.start + i) = st.val i

/-- The table contains the patch. -/
structure Contains (T : Table) (F : FixedTable) (p : Patch) : Prop where
  advice : ∀ st ∈ p.advice, HasStrip (fun c r => T (c, r)) st
  fixed : ∀ st ∈ p.fixed, HasStrip F st
  gates : ∀ x ∈ p.gates, HasStrip F (gateStrip x)
  lookups : ∀ x ∈ p.lookups, HasStrip F (lookupStrip x) ∧ HasStrip F (runningStrip x)

theorem Contains.on {T : Table} {F : FixedTable} {p : Patch} (h : Contains T F p) {c : SelectorCode} {s n : ℕ}
    (hm : (c, s, n) ∈ p.gates) {i : ℕ} (hi : i < n) : On F c (s + i) := h.gates _ hm i hi

theorem contains_append {T : Table} {F : FixedTable} {p q : Patch} :
    Contains T F (p ++ q) ↔ Contains T F p ∧ Contains T F q := by
  constructor
  · rintro ⟨h1, h2, h3, h4⟩
    exact ⟨⟨fun st h => h1 st (List.mem_append_left _ h), fun st h => h2 st (List.mem_append_left _ h),
      fun st h => h3 st (List.mem_append_left _ h), fun st h => h4 st (List.mem_append_left _ h)⟩,
      ⟨fun st h => h1 st (List.mem_append_right _ h), fun st h => h2 st (List.mem_append_right _ h),
      fun st h => h3 st (List.mem_append_right _ h), fun st h => h4 st (List.mem_append_right _ h)⟩⟩
  · rintro ⟨⟨h1, h2, h3, h4⟩, ⟨k1, k2, k3, k4⟩⟩
    exact ⟨fun st h => (List.mem_append.1 h).elim (h1 st) (k1 st), fun st h => (List.mem_append.1 h).elim (h2 st) (k2 st),
      fun st h => (List.mem_append.1 h).elim (h3 st) (k3 st), fun st h => (List.mem_append.1 h).elim (h4 st) (k4 st)⟩

/-- The gate of a selector holds on a row. -/
def GateAt (T : Table) (F : FixedTable) (c : SelectorCode) (row : ℕ) : Prop :=
  ∀ ps, (c, ps) ∈ gateCodes.zip (circuitGates (rowAt T F row)) → Gate ps

/-- What a Sinsemilla lookup says on a row. -/
def WordAt (P : Prims) (T : Table) (F : FixedTable) (c qS2 row : ℕ) : Prop :=
  ∃ j < 2 ^ 10, sinsemillaWord (F qS2 row) (tableRow T c row).bits (tableRow T c (row + 1)).bits = (j : ℕ) ∧
    (tableRow T c row).xP = extractP (P.sinsemillaS j) ∧ (tableRow T c row).yP = cellY (P.sinsemillaS j)

/-- What the range lookup says on a row. -/
def RangeAt (T : Table) (running : Bool) (row : ℕ) : Prop :=
  InTable (if running then T (9, row) - T (9, row + 1) * 2 ^ 10 else T (9, row))

/-- The gates and lookups of a patch hold in every table that contains it. -/
structure Patch.Ok (P : Prims) (p : Patch) : Prop where
  cols : ∀ st ∈ p.fixed, 3 ≤ st.col ∧ st.col < 14
  codes : ∀ x ∈ p.gates, x.1 ∈ gateCodes
  gates : ∀ T F, Contains T F p → ∀ x ∈ p.gates, ∀ i < x.2.2, x.2.1 + i + 1 < numRows ∧
    GateAt T F x.1 (x.2.1 + i) ∧ (x.1.column = 16 → WordAt P T F 0 12 (x.2.1 + i)) ∧
    (x.1.column = 17 → WordAt P T F 5 13 (x.2.1 + i))
  lookups : ∀ T F, Contains T F p → ∀ x ∈ p.lookups, ∀ i < x.2.1, x.1 + i + 1 < numRows ∧
    RangeAt T x.2.2 (x.1 + i)

theorem Patch.Ok.append {P : Prims} {p q : Patch} (hp : p.Ok P) (hq : q.Ok P) : (p ++ q).Ok P where
  cols st h := (List.mem_append.1 h).elim (hp.cols st) (hq.cols st)
  codes x h := (List.mem_append.1 h).elim (hp.codes x) (hq.codes x)
  gates T F hc x h := (List.mem_append.1 h).elim (hp.gates T F (contains_append.1 hc).1 x)
    (hq.gates T F (contains_append.1 hc).2 x)
  lookups T F hc x h := (List.mem_append.1 h).elim (hp.lookups T F (contains_append.1 hc).1 x)
    (hq.lookups T F (contains_append.1 hc).2 x)

theorem Patch.empty_ok (P : Prims) : Patch.empty.Ok P where
  cols st h := by cases h
  codes x h := by cases h
  gates T F _ x h := by cases h
  lookups T F _ x h := by cases h

/-! ### Filling columns -/

/-- Where a strip is. -/
def Strip.place (st : Strip) : ℕ × ℕ × ℕ := (st.col, st.start, st.len)

/-- No common cell. -/
def Apart (a b : ℕ × ℕ × ℕ) : Prop := a.1 ≠ b.1 ∨ a.2.1 + a.2.2 ≤ b.2.1 ∨ b.2.1 + b.2.2 ≤ a.2.1

instance : DecidableRel Apart := fun _ _ => inferInstanceAs (Decidable (_ ∨ _))

/-- The contents of the columns: those of the first strip with the cell. -/
def fill (l : List Strip) (c r : ℕ) : Fp :=
  match l.find? (fun st => decide (st.col = c ∧ st.start ≤ r ∧ r < st.start + st.len)) with
  | some st => st.val (r - st.start)
  | none => 0

theorem fill_cases (l : List Strip) (c r : ℕ) : fill l c r = 0 ∨
    ∃ st ∈ l, st.col = c ∧ st.start ≤ r ∧ r < st.start + st.len ∧ fill l c r = st.val (r - st.start) := by
  unfold fill
  cases h : l.find? (fun st => decide (st.col = c ∧ st.start ≤ r ∧ r < st.start + st.len)) with
  | none => exact Or.inl rfl
  | some st =>
    have := List.find?_some h
    rw [decide_eq_true_eq] at this
    exact Or.inr ⟨st, List.mem_of_find?_eq_some h, this.1, this.2.1, this.2.2, rfl⟩

theorem fill_eq : ∀ {l : List Strip}, (l.map Strip.place).Pairwise Apart → ∀ st ∈ l, HasStrip (fill l) st
  | [], _, st, h => by cases h
  | a :: l, hl, st, h => by
    intro i hi
    rw [List.map_cons, List.pairwise_cons] at hl
    rcases List.mem_cons.1 h with rfl | h
    · unfold fill
      rw [List.find?_cons_of_pos (by simp [hi])]
      simp
    · have ih := fill_eq hl.2 st h i hi
      have ha := hl.1 _ (List.mem_map_of_mem h)
      unfold fill at ih ⊢
      rw [List.find?_cons_of_neg, ih]
      simp only [decide_eq_true_eq]
      rintro ⟨h1, h2, h3⟩
      simp only [Apart, Strip.place] at ha
      rcases ha with ha | ha | ha
      · exact ha h1
      · omega
      · omega

/-- All fixed strips of a patch. -/
def Patch.fixedStrips (p : Patch) : List Strip :=
  p.fixed ++ p.gates.map gateStrip ++ p.lookups.map lookupStrip ++ p.lookups.map runningStrip

/-- The fixed columns of a patch, with the lookup table. -/
noncomputable def patchFixed (P : Prims) (p : Patch) : FixedTable := fun c r =>
  let j := if r < 2 ^ 10 then r else 0
  if c = 0 then (j : ℕ) else if c = 1 then extractP (P.sinsemillaS j) else if c = 2 then cellY (P.sinsemillaS j)
  else fill p.fixedStrips c r

theorem patchFixed_ge (P : Prims) (p : Patch) {c : ℕ} (hc : 3 ≤ c) (r : ℕ) :
    patchFixed P p c r = fill p.fixedStrips c r := by
  unfold patchFixed
  rw [if_neg (by omega), if_neg (by omega), if_neg (by omega)]

theorem patchFixed_loaded (P : Prims) (p : Patch) : TableLoaded P (patchFixed P p) := by
  intro row _
  refine ⟨if row < 2 ^ 10 then row else 0, ?_, rfl, rfl, rfl⟩
  split_ifs with h
  · exact h
  · norm_num

theorem gateCodes_column : ∀ c ∈ gateCodes, 16 ≤ c.column ∧ (c.column = 16 → c = ⟨16, 1, 1⟩) ∧
    (c.column = 17 → c = ⟨17, 1, 1⟩) := by decide +kernel

theorem patch_table {P : Prims} (hS : FirstGenerator P) {p : Patch} (hp : p.Ok P)
    (ha : (p.advice.map Strip.place).Pairwise Apart) (hf : (p.fixedStrips.map Strip.place).Pairwise Apart) :
    ∃ T, Satisfied T (patchFixed P p) ∧ Contains T (patchFixed P p) p := by
  have hcol : ∀ st ∈ p.fixedStrips, 3 ≤ st.col := by
    intro st hst
    simp only [Patch.fixedStrips, List.mem_append, List.mem_map] at hst
    rcases hst with ((h | ⟨x, hx, rfl⟩) | ⟨x, hx, rfl⟩) | ⟨x, hx, rfl⟩
    · exact (hp.cols st h).1
    · have := (gateCodes_column _ (hp.codes x hx)).1
      simp only [gateStrip]
      omega
    · simp [lookupStrip]
    · simp [runningStrip]
  have hF : ∀ st ∈ p.fixedStrips, HasStrip (patchFixed P p) st := by
    intro st hst i hi
    rw [patchFixed_ge P p (hcol st hst)]
    exact fill_eq hf st hst i hi
  have hC : Contains (fun c => fill p.advice c.1 c.2) (patchFixed P p) p := by
    refine ⟨fun st h => fill_eq ha st h, fun st h => hF st ?_, fun x h => hF _ ?_, fun x h => ⟨hF _ ?_, hF _ ?_⟩⟩
    all_goals simp only [Patch.fixedStrips, List.mem_append, List.mem_map]
    · exact Or.inl (Or.inl (Or.inl h))
    · exact Or.inl (Or.inl (Or.inr ⟨x, h, rfl⟩))
    · exact Or.inl (Or.inr ⟨x, h, rfl⟩)
    · exact Or.inr ⟨x, h, rfl⟩
  have hL := patchFixed_loaded P p
  have hG := hp.gates _ _ hC
  have hK := hp.lookups _ _ hC
  refine ⟨_, ⟨?_, ?_⟩, hC⟩
  · intro row hr
    rw [forall_circuitPolys]
    rintro ⟨c, ps⟩ hz
    have hc : c ∈ gateCodes := (List.of_mem_zip hz).1
    have h16 := gateCodes_column c hc
    dsimp only
    rw [rowAt_fixed _ _ hr, patchFixed_ge P p (by omega)]
    rcases fill_cases p.fixedStrips c.column row with h0 | ⟨st, hst, h1, h2, h3, h4⟩
    · left
      rw [h0]
      simp [SelectorCode.eval]
    · rw [h4]
      simp only [Patch.fixedStrips, List.mem_append, List.mem_map] at hst
      rcases hst with ((h | ⟨⟨c', s, n⟩, hx, rfl⟩) | ⟨x, hx, rfl⟩) | ⟨x, hx, rfl⟩
      · have := (hp.cols st h).2
        omega
      · simp only [gateStrip] at h1 h2 h3 ⊢
        by_cases hcc : c' = c
        · right
          have := (hG _ hx (row - s) (by dsimp only; omega)).2.1
          dsimp only at this
          rw [show s + (row - s) = row by omega, hcc] at this
          exact this ps hz
        · left
          have hc' := hp.codes _ hx
          have hk := codes_ok.2.2.1 _ hc'
          rw [eval_eq_zero_iff hc (codes_ok.2.2.2 _ hc' _ hc h1 ▸ hk.2.1)]
          intro he
          have hk2 := codes_ok.2.2.1 _ hc
          dsimp only at hk
          have hi := cast_inj_small (by omega) (by omega) he
          exact hcc (List.inj_on_of_nodup_map codes_ok.2.1 hc' hc (Prod.ext h1 hi))
      · simp only [lookupStrip] at h1
        omega
      · simp only [runningStrip] at h1
        omega
  · have hu := usableRows_eq
    have hS0 : ∀ q c : ℕ, q = 16 ∧ c = 0 ∨ q = 17 ∧ c = 5 → ∀ row < usableRows, ∃ row' < usableRows,
        sinsemillaLookup (rowAt (fun c => fill p.advice c.1 c.2) (patchFixed P p) row) c q (q - 4) =
          [patchFixed P p 0 row', patchFixed P p 1 row', patchFixed P p 2 row'] := by
      intro q c hqc row hr
      have hrn := usable_lt hr
      simp only [sinsemillaLookup, rowAt_fixed _ _ hrn]
      rw [patchFixed_ge P p (c := q) (by omega)]
      have hcase : fill p.fixedStrips q row = 0 ∨ fill p.fixedStrips q row = 1 ∧ row + 1 < numRows ∧
          WordAt P (fun c => fill p.advice c.1 c.2) (patchFixed P p) c (q - 4) row := by
        rcases fill_cases p.fixedStrips q row with h0 | ⟨st, hst, h1, h2, h3, h4⟩
        · exact Or.inl h0
        · simp only [Patch.fixedStrips, List.mem_append, List.mem_map] at hst
          rcases hst with ((h | ⟨⟨c', s, n⟩, hx, rfl⟩) | ⟨x, hx, rfl⟩) | ⟨x, hx, rfl⟩
          · have := (hp.cols st h).2
            omega
          · right
            simp only [gateStrip] at h1 h2 h3 h4
            obtain ⟨k1, k2, k3, k4⟩ := hG _ hx (row - s) (by dsimp only; omega)
            dsimp only at k1 k3 k4
            rw [show s + (row - s) = row by omega] at k1 k3 k4
            have hc' := gateCodes_column _ (hp.codes _ hx)
            dsimp only at hc'
            rw [h4]
            rcases hqc with ⟨rfl, rfl⟩ | ⟨rfl, rfl⟩
            · rw [hc'.2.1 h1]
              exact ⟨by simp, k1, k3 h1⟩
            · rw [hc'.2.2 h1]
              exact ⟨by simp, k1, k4 h1⟩
          · simp only [lookupStrip] at h1
            omega
          · simp only [runningStrip] at h1
            omega
      rcases hcase with h0 | ⟨h1, hr1, j, hj, hw, hx, hy⟩
      · refine ⟨0, by omega, ?_⟩
        rw [h0]
        simp only [zero_mul, sub_zero, one_mul, zero_add]
        rw [← hS.1, ← hS.2]
        simp [patchFixed]
      · refine ⟨j, by rw [hu]; omega, ?_⟩
        rw [h1, hashRow_cur hrn, hashRow_next hr1]
        simp only [one_mul, sub_self, zero_mul, add_zero]
        rw [hw, hx, hy]
        simp only [patchFixed, if_pos hj]
        norm_num
    have hR : ∀ row < usableRows, ∃ row' < usableRows,
        rangeLookup (rowAt (fun c => fill p.advice c.1 c.2) (patchFixed P p) row) = [patchFixed P p 0 row'] := by
      intro row hr
      have hrn := usable_lt hr
      simp only [rangeLookup, rowAt_fixed _ _ hrn]
      have hcase : patchFixed P p 14 row = 0 ∨ patchFixed P p 14 row = 1 ∧ row + 1 < numRows ∧ ∃ b : Bool,
          patchFixed P p 15 row = (if b then 1 else 0) ∧ RangeAt (fun c => fill p.advice c.1 c.2) b row := by
        rw [patchFixed_ge P p (c := 14) (by omega)]
        rcases fill_cases p.fixedStrips 14 row with h0 | ⟨st, hst, h1, h2, h3, h4⟩
        · exact Or.inl h0
        · simp only [Patch.fixedStrips, List.mem_append, List.mem_map] at hst
          rcases hst with ((h | ⟨x, hx, rfl⟩) | ⟨⟨s, n, b⟩, hx, rfl⟩) | ⟨x, hx, rfl⟩
          · have := (hp.cols st h).2
            omega
          · have := (gateCodes_column _ (hp.codes _ hx)).1
            simp only [gateStrip] at h1
            omega
          · right
            simp only [lookupStrip] at h2 h3 h4
            obtain ⟨k1, k2⟩ := hK _ hx (row - s) (by dsimp only; omega)
            dsimp only at k1 k2
            have k3 := (hC.lookups _ hx).2 (row - s) (by simp only [runningStrip]; omega)
            simp only [runningStrip] at k3
            rw [show s + (row - s) = row by omega] at k1 k2 k3
            exact ⟨h4, k1, b, k3, k2⟩
          · simp only [runningStrip] at h1
            omega
      rcases hcase with h0 | ⟨h1, hr1, b, hb, j, hj, hw⟩
      · refine ⟨0, by omega, ?_⟩
        rw [h0]
        simp [patchFixed]
      · refine ⟨j, by rw [hu]; omega, ?_⟩
        rw [h1, hb, rowAt_cur hrn, rowAt_next hr1]
        have : patchFixed P p 0 j = (j : ℕ) := by simp only [patchFixed, if_pos hj, if_true]
        rw [this, ← hw]
        cases b <;> simp
    intro row hr l hl
    obtain ⟨i, hi⟩ := List.getElem?_of_mem hl
    have key : ∀ row, (circuitLookups (rowAt (fun c => fill p.advice c.1 c.2) (patchFixed P p) row))[i]? =
        some (l.1.map (Expr.eval (rowAt (fun c => fill p.advice c.1 c.2) (patchFixed P p) row)),
          l.2.map (Expr.eval (rowAt (fun c => fill p.advice c.1 c.2) (patchFixed P p) row))) := by
      intro row
      rw [← lookups_eval, List.getElem?_map, hi]
      rfl
    have h1 := key row
    match i, h1, key with
    | 0, h1, key =>
      obtain ⟨row', hr', h⟩ := hR row hr
      have h2 := Option.some.inj (key row')
      rw [Prod.mk.injEq] at h2
      have h1 := Option.some.inj h1
      rw [Prod.mk.injEq] at h1
      exact ⟨row', hr', by rw [← h1.1, ← h2.2, h, rowAt_fixed _ _ (usable_lt hr')]⟩
    | 1, h1, key =>
      obtain ⟨row', hr', h⟩ := hS0 16 0 (Or.inl ⟨rfl, rfl⟩) row hr
      have h2 := Option.some.inj (key row')
      rw [Prod.mk.injEq] at h2
      have h1 := Option.some.inj h1
      rw [Prod.mk.injEq] at h1
      exact ⟨row', hr', by rw [← h1.1, ← h2.2, h, rowAt_fixed _ _ (usable_lt hr'), rowAt_fixed _ _ (usable_lt hr'), rowAt_fixed _ _ (usable_lt hr')]⟩
    | 2, h1, key =>
      obtain ⟨row', hr', h⟩ := hS0 17 5 (Or.inr ⟨rfl, rfl⟩) row hr
      have h2 := Option.some.inj (key row')
      rw [Prod.mk.injEq] at h2
      have h1 := Option.some.inj h1
      rw [Prod.mk.injEq] at h1
      exact ⟨row', hr', by rw [← h1.1, ← h2.2, h, rowAt_fixed _ _ (usable_lt hr'), rowAt_fixed _ _ (usable_lt hr'), rowAt_fixed _ _ (usable_lt hr')]⟩
    | i + 3, h1, key => simp [circuitLookups] at h1

/-! ### Gates by number -/

theorem gateAt_of {T : Table} {F : FixedTable} {row : ℕ} {c : SelectorCode} {ps : List Fp}
    (hz : (c, ps) ∈ gateCodes.zip (circuitGates (rowAt T F row))) (h : Gate ps) : GateAt T F c row := by
  intro ps' hz'
  obtain ⟨i, hi⟩ := List.getElem?_of_mem hz
  obtain ⟨j, hj⟩ := List.getElem?_of_mem hz'
  rw [List.getElem?_zip_eq_some] at hi hj
  have hij : i = j := by
    have h1 := List.getElem?_eq_some_iff.1 hi.1
    have h2 := List.getElem?_eq_some_iff.1 hj.1
    obtain ⟨l1, e1⟩ := h1
    obtain ⟨l2, e2⟩ := h2
    exact (codes_ok.1.getElem_inj_iff).1 (e1.trans e2.symm)
  subst hij
  have := hi.2.symm.trans hj.2
  have e : ps = ps' := Option.some.inj this
  rwa [← e]

variable {T : Table} {F : FixedTable} {row : ℕ}

theorem ecc_gateAt (i : ℕ) {c : SelectorCode} {ps : List Fp} (hc : eccCodes[i]? = some c)
    (hp : (eccGates (rowAt T F row))[i]? = some ps) (h : Gate ps) : GateAt T F c row := by
  obtain ⟨l, l', hz⟩ := zip_gadgets (rowAt T F row)
  refine gateAt_of ?_ h
  have hm := List.mem_of_getElem? ((List.getElem?_zip_eq_some (z := (c, ps))).2 ⟨hc, hp⟩)
  rw [hz]
  simp only [List.mem_append]
  exact Or.inl (Or.inr (Or.inl (Or.inl (Or.inl hm))))

theorem poseidon_gateAt (i : ℕ) {c : SelectorCode} {ps : List Fp} (hc : poseidonCodes[i]? = some c)
    (hp : (poseidonGates (rowAt T F row))[i]? = some ps) (h : Gate ps) : GateAt T F c row := by
  obtain ⟨l, l', hz⟩ := zip_gadgets (rowAt T F row)
  refine gateAt_of ?_ h
  have hm := List.mem_of_getElem? ((List.getElem?_zip_eq_some (z := (c, ps))).2 ⟨hc, hp⟩)
  rw [hz]
  simp only [List.mem_append]
  exact Or.inl (Or.inr (Or.inl (Or.inl (Or.inr hm))))

theorem hash1_gateAt (i : ℕ) {c : SelectorCode} {ps : List Fp} (hc : hash1Codes[i]? = some c)
    (hp : (sinsemillaGates (rowAt T F row) 0 0 12)[i]? = some ps) (h : Gate ps) : GateAt T F c row := by
  obtain ⟨l, l', hz⟩ := zip_gadgets (rowAt T F row)
  refine gateAt_of ?_ h
  have hm := List.mem_of_getElem? ((List.getElem?_zip_eq_some (z := (c, ps))).2 ⟨hc, hp⟩)
  rw [hz]
  simp only [List.mem_append]
  exact Or.inl (Or.inr (Or.inl (Or.inr hm)))

theorem hash2_gateAt (i : ℕ) {c : SelectorCode} {ps : List Fp} (hc : hash2Codes[i]? = some c)
    (hp : (sinsemillaGates (rowAt T F row) 5 1 13)[i]? = some ps) (h : Gate ps) : GateAt T F c row := by
  obtain ⟨l, l', hz⟩ := zip_gadgets (rowAt T F row)
  refine gateAt_of ?_ h
  have hm := List.mem_of_getElem? ((List.getElem?_zip_eq_some (z := (c, ps))).2 ⟨hc, hp⟩)
  rw [hz]
  simp only [List.mem_append]
  exact Or.inl (Or.inr (Or.inr hm))

theorem patch_satisfied {P : Prims} (hS : FirstGenerator P) {p : Patch} (hp : p.Ok P)
    (ha : (p.advice.map Strip.place).Pairwise Apart) (hf : (p.fixedStrips.map Strip.place).Pairwise Apart) :
    ∃ T F, Satisfied T F ∧ TableLoaded P F ∧ Contains T F p := by
  obtain ⟨T, h1, h2⟩ := patch_table hS hp ha hf
  exact ⟨T, _, h1, patchFixed_loaded P p, h2⟩

end Orchard.Regions
