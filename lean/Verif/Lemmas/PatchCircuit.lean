import Verif.Lemmas.PatchPack
import Verif.Props.Pinned

/-!
# A table for the circuit
-/

namespace Orchard.Regions

open Halo2 Layout Pinned Spec

/-- The numbers of cells of the gadgets before each one. -/
def offsets : List ℕ :=
  [
    0, 2, 4, 6, 71, 73, 75, 77, 78, 80, 82, 84, 86, 87, 88, 89, 90, 91, 92, 93, 183, 197, 212, 214, 216, 217, 218,
    219, 220, 221, 222, 223, 224, 225, 226, 227, 228, 229, 230, 231, 232, 233, 259, 273, 274, 275, 301, 315, 534,
    548, 563, 578, 592, 594, 596, 597, 598, 599, 600, 601, 602, 603, 604, 605, 606, 607, 608, 609, 610, 611, 612,
    613, 639, 653, 654, 655, 681, 695, 914, 928, 943, 958]

/-- A floor plan: regions below each other, then the cells of gadgets. -/
def plan1 : Plan where
  start n := 2 * n
  gadget n i := ((offsets.getD n 0 + i) % 10, 70 + (offsets.getD n 0 + i) / 10)

/-- The number of rows of `plan1`. -/
def blockRows : ℕ := 168

/-- The selectors that synthesis enables, with rows. -/
def enables1 : List (ℕ × ℕ) :=
  [
    (1, 14), (2, 16), (13, 18), (13, 20), (3, 22), (4, 24), (5, 26), (6, 28), (7, 30), (8, 32), (9, 34), (10, 36),
    (11, 38), (12, 40), (24, 44), (24, 46), (14, 48), (15, 50), (16, 52), (17, 54), (18, 56), (19, 58), (20, 60),
    (21, 62), (22, 64), (23, 66), (0, 68)]

/-- The rows of the layers of the Merkle path: the second hash chip or the first, swap, hash, decomposition and two
range checks. -/
def layers1 : List (Bool × ℕ × ℕ × ℕ × ℕ × ℕ) :=
  [
    (false, 305, 306, 359, 1643, 1646), (true, 305, 306, 359, 1649, 1652), (false, 361, 362, 415, 1655, 1658),
    (true, 361, 362, 415, 1661, 1664), (false, 417, 418, 471, 1667, 1670), (true, 417, 418, 471, 1673, 1676),
    (false, 473, 474, 527, 1679, 1682), (true, 473, 474, 527, 1685, 1688), (false, 529, 530, 583, 1691, 1694),
    (true, 529, 530, 583, 1697, 1700), (false, 585, 586, 639, 1703, 1706), (true, 585, 586, 639, 1709, 1712),
    (false, 641, 642, 695, 1715, 1718), (true, 641, 642, 695, 1721, 1724), (false, 697, 698, 751, 1727, 1730),
    (true, 697, 698, 751, 1733, 1736), (false, 753, 754, 807, 1739, 1742), (true, 753, 754, 807, 1745, 1748),
    (false, 809, 810, 863, 1751, 1754), (true, 809, 810, 863, 1757, 1760), (false, 865, 866, 919, 1763, 1766),
    (true, 865, 866, 919, 1769, 1772), (false, 921, 922, 975, 1775, 1778), (true, 921, 922, 975, 1781, 1784),
    (false, 977, 978, 1031, 1787, 1790), (true, 977, 978, 1031, 1793, 1796), (false, 1033, 1034, 1087, 1799, 1802),
    (true, 1033, 1034, 1087, 1805, 1808), (false, 1089, 1090, 1143, 1811, 1814),
    (true, 1089, 1090, 1143, 1817, 1820), (false, 1145, 1146, 1199, 1823, 1826),
    (true, 1145, 1146, 1199, 1829, 1832)]

/-- Where the regions of the gadget calls go. -/
def sites1 : List Site :=
  [
    .point 1385, .nonId 1556, .nonId 1900, .merkle fun l => layers1.getD l (false, 0, 0, 0, 0, 0),
    .mulShort 1363 1897, .mulFull 1386 1899, .add 1901, .poseidon 1348 1311, .mulBase 1471 1903 1351 1310,
    .add 1905, .mulFull 1557 1907, .add 1909, .piece, .short 4 1835, .short 5 1838, .piece, .piece, .short 9 1841,
    .piece, .commit false [25, 1, 24, 1] 1201 1642 1911 1913, .range 13 1324, .range 14 1338,
    .mulVar 168 1354 1353, .nonId 1902, .piece, .short 4 1844, .short 4 1847, .piece, .piece, .short 8 1850,
    .piece, .short 6 1853, .short 4 1856, .piece, .piece, .short 9 1859, .piece, .short 5 1862, .piece,
    .short 9 1865, .short 4 1868, .range 25 1367, .range 13 1393, .short 9 1871, .short 4 1874, .range 25 1407,
    .range 13 1433, .commit false [25, 1, 25, 6, 1, 25, 25, 1] 1253 1727 1915 1917, .range 13 1447, .range 14 1461,
    .range 14 1476, .range 13 1491, .nonId 1904, .nonId 1906, .piece, .short 4 1877, .short 4 1880, .piece, .piece,
    .short 8 1883, .piece, .short 6 1886, .short 4 1889, .piece, .piece, .short 9 1892, .piece, .short 5 1895,
    .piece, .short 9 1898, .short 4 1901, .range 25 1505, .range 13 1531, .short 9 1904, .short 4 1907,
    .range 25 1545, .range 13 1571, .commit true [25, 1, 25, 6, 1, 25, 25, 1] 1201 1812 1919 1921, .range 13 1585,
    .range 14 1599, .range 14 1614, .range 13 1629]

/-! ### The cells of synthesis -/

def inBlock (c : Cell) : Bool := Nat.ble (c.1 + 1) 10 && Nat.ble (c.2 + 1) blockRows

/-- Written cells and cells of gadgets are within the rows of the plan. -/
def eventInBlock : Event → Bool
  | .write c _ => inBlock c
  | .gadget g => (callCells g).all inBlock
  | _ => true

def enableOf : Event → Option (ℕ × ℕ)
  | .enable s row => some (s, row)
  | _ => none

def callOf : Event → Option GadgetCall
  | .gadget g => some g
  | _ => none

/-- The events of some synthesis. -/
noncomputable def events1 (P : Prims) : List Event := events P plan1 (fun _ => 0) Examples.circuit0

/-- The gadget calls. -/
noncomputable def calls1 (P : Prims) : List GadgetCall := (events1 P).filterMap callOf

/-- The gates of this crate. -/
def blockGates : List (SelectorCode × ℕ × ℕ) := enables1.map fun x => (crateCodes.getD x.1 ⟨0, 0, 0⟩, x.2, 1)

/-- The cells of synthesis and the gates of this crate. -/
def blockPatch (T : Table) : Patch :=
  ⟨(List.range 10).map fun c => ⟨c, 0, blockRows, fun r => T (c, r)⟩, [], blockGates, []⟩

/-- All regions. -/
noncomputable def shape1 (P : Prims) : Patch := blockPatch (fun _ => 0) ++ allShapes sites1 (calls1 P)

/-- The fixed columns. -/
noncomputable def fixed1 (P : Prims) : FixedTable := patchFixed P (shape1 P)

theorem events1_distinct (P : Prims) : Examples.distinct (fun c => c.1 + 10 * c.2) 0 (events1 P) = true := by
  kernel_rfl

theorem events1_inBlock (P : Prims) : (events1 P).all eventInBlock = true := by kernel_rfl

theorem events1_enables (P : Prims) : (events1 P).filterMap enableOf = enables1 := by kernel_rfl

theorem events1_fit (P : Prims) : fitAll sites1 (calls1 P) = true := by kernel_rfl

theorem shape1_advice (P : Prims) : packs 0 ((shape1 P).advice.map Strip.place) = true := by kernel_rfl

theorem shape1_fixed (P : Prims) : packs 0 ((shape1 P).fixedStrips.map Strip.place) = true := by kernel_rfl

/-! ### From one synthesis to all -/

theorem filterMap_shape {α : Type} (f : Event → Option α) (hf : ∀ e, f (Spec.shape e) = f e) (l : List Event) :
    (l.map Spec.shape).filterMap f = l.filterMap f := by
  rw [List.filterMap_map]
  congr 1
  funext e
  exact hf e

theorem callOf_shape (e : Event) : callOf (Spec.shape e) = callOf e := by cases e <;> rfl
theorem enableOf_shape (e : Event) : enableOf (Spec.shape e) = enableOf e := by cases e <;> rfl
theorem eventInBlock_shape (e : Event) : eventInBlock (Spec.shape e) = eventInBlock e := by cases e <;> rfl

variable (P : Prims) (pub : ℕ → Fp) (w : Circuit)

theorem shape_events1 : (events P plan1 pub w).map Spec.shape = (events1 P).map Spec.shape :=
  (C69_shape P plan1 pub (fun _ => 0) w Examples.circuit0).1

theorem possible_plan1 : Spec.PossiblePlan P plan1 where
  columns _ _ := Nat.mod_lt _ (by norm_num)
  disjoint w inst := by
    rw [← Examples.written_shape, shape_events1, Examples.written_shape]
    exact (Examples.nodup_of_distinct _ _ _ (events1_distinct P)).1

theorem calls_eq : (events P plan1 pub w).filterMap callOf = calls1 P := by
  rw [← filterMap_shape callOf callOf_shape, shape_events1, filterMap_shape callOf callOf_shape]
  rfl

theorem enables_eq : (events P plan1 pub w).filterMap enableOf = enables1 := by
  rw [← filterMap_shape enableOf enableOf_shape, shape_events1, filterMap_shape enableOf enableOf_shape]
  exact events1_enables P

theorem inBlock_of_mem {e : Event} (he : e ∈ events P plan1 pub w) : eventInBlock e = true := by
  have h : Spec.shape e ∈ (events P plan1 pub w).map Spec.shape := List.mem_map_of_mem he
  rw [shape_events1] at h
  obtain ⟨e', he', h'⟩ := List.mem_map.1 h
  rw [← eventInBlock_shape, ← h', eventInBlock_shape]
  exact List.all_eq_true.1 (events1_inBlock P) e' he'

variable {P pub w} {T T₀ : Table} {F : FixedTable}

theorem block_cell (h : Contains T F (blockPatch T₀)) {c : Cell} (hc : inBlock c = true) : T c = T₀ c := by
  simp only [inBlock, Bool.and_eq_true, Nat.ble_eq] at hc
  have := h.advice ⟨c.1, 0, blockRows, fun r => T₀ (c.1, r)⟩ (List.mem_map.2 ⟨c.1, List.mem_range.2 hc.1, rfl⟩) c.2 hc.2
  simpa using this

/-- A table with the prover's values where synthesis puts them. -/
theorem block_holds (h : Contains T F (blockPatch T₀)) (h₀ : ∀ e ∈ events P plan1 pub w, Spec.Holds T₀ e) :
    ∀ e ∈ events P plan1 pub w, Spec.Holds T e := by
  intro e he
  have h1 := h₀ e he
  have h2 := inBlock_of_mem P pub w he
  cases e with
  | write c v => exact (block_cell h h2).trans h1
  | _ => trivial

theorem enables_small : ∀ x ∈ enables1, x.2 + 1 < 2048 ∧ ∃ c, crateCodes[x.1]? = some c ∧
    crateCodes.getD x.1 ⟨0, 0, 0⟩ = c ∧ c.column ≠ 16 ∧ c.column ≠ 17 := by
  have h : ∀ x ∈ enables1, x.2 + 1 < 2048 ∧ x.1 < 25 := by decide
  have h' : ∀ i : Fin 25, ∃ c ∈ crateCodes, crateCodes[i.val]? = some c ∧
    crateCodes.getD i.val ⟨0, 0, 0⟩ = c ∧ c.column ≠ 16 ∧ c.column ≠ 17 := by decide
  intro x hx
  obtain ⟨c, -, hc⟩ := h' ⟨x.1, (h x hx).2⟩
  exact ⟨(h x hx).1, c, hc⟩

/-- The gate of an enabled selector holds. -/
theorem gateAt_of_enable {s row : ℕ} {c : SelectorCode} (hc : crateCodes[s]? = some c) (hrow : row + 1 < numRows)
    {inst : List Fp} (h : (Event.enable s row).Holds configured.2 T inst) : GateAt T F c row := by
  intro ps hz
  have hs : s < 25 := (List.getElem?_eq_some_iff.1 hc).1
  obtain ⟨g, hg⟩ : ∃ g, configured.2.gates[s]? = some g := by
    have hl := congrArg List.length crateGates_fst
    rw [List.length_map, List.length_range] at hl
    exact ⟨_, List.getElem?_eq_getElem (by rw [hl]; exact hs)⟩
  have hz' := mem_zip_crate (Spec.rowAt T F row) hc (ps := g.2 (Spec.rowAt T F row).query)
    (by rw [crateGates, List.getElem?_map, hg]; rfl)
  have hev := h g.2 (gatesOf_get crateGates_fst hg)
  rw [← rowAt_query T F hrow] at hev
  rwa [zip_unique codes_ok.1 hz hz']

theorem mem_enable {s row : ℕ} : Event.enable s row ∈ events P plan1 pub w ↔ (s, row) ∈ enables1 := by
  rw [← enables_eq P pub w, List.mem_filterMap]
  constructor
  · exact fun h => ⟨_, h, rfl⟩
  · rintro ⟨e, he, h⟩
    cases e with
    | enable s' row' =>
      simp only [enableOf, Option.some.injEq, Prod.mk.injEq] at h
      rwa [← h.1, ← h.2]
    | _ => cases h

theorem block_ok {inst : List Fp} (h₀ : ∀ e ∈ events P plan1 pub w, Spec.Holds T₀ e)
    (h : ∀ T : Table, (∀ e ∈ events P plan1 pub w, Spec.Holds T e) →
      ∀ e ∈ events P plan1 pub w, e.Holds configured.2 T inst) : (blockPatch T₀).Ok P where
  cols st h := by cases h
  codes x hx := by
    obtain ⟨y, hy, rfl⟩ := List.mem_map.1 hx
    obtain ⟨-, c, h1, h2, -⟩ := enables_small y hy
    have hm := List.mem_of_getElem? h1
    have : ∀ x ∈ crateCodes, x ∈ gateCodes := by decide
    rw [h2]
    exact this c hm
  gates T F hc x hx i hi := by
    obtain ⟨y, hy, rfl⟩ := List.mem_map.1 hx
    obtain ⟨h0, c, h1, h2, h3, h4⟩ := enables_small y hy
    obtain rfl : i = 0 := by
      dsimp only at hi
      omega
    dsimp only
    rw [h2, Nat.add_zero]
    have hr : y.2 + 1 < numRows := h0
    exact ⟨hr, gateAt_of_enable h1 hr (h T (block_holds hc h₀) _ (mem_enable.2 hy)), fun e => absurd e h3,
      fun e => absurd e h4⟩
  lookups T F hc x hx := by cases hx

/-- **The table of the circuit.** -/
theorem circuit_table (hP : ∀ x y, P.poseidon x y = Poseidon.hash x y) (hS : FirstGenerator P)
    {k : ActionCircuit.Cells} {i : Instance} {inst : List Fp} (hi : i.toHalo2 = .ret inst)
    (hk : ActionCircuit.assign P w = some k) (h : ActionCircuit.Synthesize P true k inst) :
    ∃ T : Table, Satisfied T (fixed1 P) ∧
      Selected (fixed1 P) (events P plan1 (fun row => inst.getD row 0) w) ∧
      (∀ g, Event.gadget g ∈ events P plan1 (fun row => inst.getD row 0) w → Placed P T (fixed1 P) g) ∧
      (∀ e ∈ events P plan1 (fun row => inst.getD row 0) w,
        Spec.Holds T e ∧ e.Holds configured.2 T inst ∧ e.Permitted configured.2) := by
  obtain ⟨T₀, h₀⟩ := exists_table _ ((possible_plan1 P).disjoint w fun row => inst.getD row 0)
  have hon := honest_events P plan1 (possible_plan1 P) w k i inst hi hk h
  obtain ⟨p, p1, p2, p3⟩ := sites_placed hP (T₀ := T₀) (events1_fit P) fun g hg => by
    rw [← calls_eq P (fun row => inst.getD row 0) w, List.mem_filterMap] at hg
    obtain ⟨e, he, hg⟩ := hg
    cases e with
    | gadget g' =>
      simp only [callOf, Option.some.injEq] at hg
      rw [← hg]
      exact (hon T₀ h₀ _ he).2.2
    | _ => cases hg
  have hb : (blockPatch T₀).Ok P := block_ok h₀ fun T hT e he => (hon T hT e he).1
  have hf : SameFoot (blockPatch T₀ ++ p) (shape1 P) := SameFoot.append ⟨rfl, rfl, rfl, rfl⟩ p2
  obtain ⟨T, t1, t2⟩ := patch_table hS (hb.append p1)
    (by rw [hf.advice]; exact (pairwise_of_packs (shape1_advice P)).1)
    (by rw [hf.fixedStrips]; exact (pairwise_of_packs (shape1_fixed P)).1)
  rw [hf.patchFixed P] at t1 t2
  change Satisfied T (fixed1 P) at t1
  change Contains T (fixed1 P) _ at t2
  obtain ⟨c1, c2⟩ := contains_append.1 t2
  have hT := block_holds c1 h₀
  refine ⟨T, t1, ?_, ?_, fun e he => ⟨hT e he, (hon T hT e he).1, (hon T hT e he).2.1⟩⟩
  · intro s row he
    have hm := mem_enable.1 he
    obtain ⟨k0, c, k1, k2, -⟩ := enables_small _ hm
    refine ⟨k0, c, k1, ?_⟩
    have := c1.on (c := c) (s := row) (n := 1) (i := 0)
      (List.mem_map.2 ⟨_, hm, by dsimp only at k2 ⊢; rw [k2]⟩) (by omega)
    exact this
  · intro g hg
    refine p3 T _ t1 (patchFixed_loaded P _) c2 (fun g hg c hc => ?_) g ?_
    · rw [← calls_eq P (fun row => inst.getD row 0) w, List.mem_filterMap] at hg
      obtain ⟨e, he, hg⟩ := hg
      cases e with
      | gadget g' =>
        simp only [callOf, Option.some.injEq] at hg
        have := inBlock_of_mem P _ w he
        rw [hg] at this
        exact block_cell c1 (List.all_eq_true.1 this c hc)
      | _ => cases hg
    · rw [← calls_eq P (fun row => inst.getD row 0) w, List.mem_filterMap]
      exact ⟨_, hg, rfl⟩

end Orchard.Regions
