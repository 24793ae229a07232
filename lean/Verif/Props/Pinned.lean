import Verif.Lemmas.PinnedRows
import Verif.Spec.Pinned
import Verif.Props.Layout

/-!
# Property C81: the pinned constraint system
-/

namespace Orchard

open Halo2 Layout Pinned

/-! ### C81 -/

/-- **C81** (gates). The 193 polynomials of `circuit_description` are, in this order and on every row, the
polynomials of the model's gates multiplied with their selectors: this crate's gates as `configure` creates them
on their columns (`Layout.configured`), and the gates of the gadgets. -/
theorem C81_gates (r : Row) : Pinned.gates.map (Expr.eval r) = circuitPolys r := gates_eval r

/-- **C81** (lookups). So are the three lookup arguments. -/
theorem C81_lookups (r : Row) :
    Pinned.lookups.map (fun l => (l.1.map (Expr.eval r), l.2.map (Expr.eval r))) = circuitLookups r := by
  exact lookups_eval r

/-- **C81** (columns). The permutation argument covers the instance column, the advice columns for which the
model's `configure` enables equality, and four fixed columns; there are no other advice columns. -/
theorem C81_columns :
    Pinned.permutation = [.instance 0] ++ configured.2.equality.map AnyColumn.advice ++
      [.fixed 3, .fixed 8, .fixed 9, .fixed 10] ∧
    Pinned.numAdviceColumns = configured.2.advices ∧
    (∀ i, AnyColumn.instance i ∈ Pinned.permutation ↔ i < Pinned.numInstanceColumns) ∧
    Pinned.constants ⊆ Pinned.permutation ∧
    Pinned.numSelectors = gateCodes.length + 2 := by
  refine ⟨?_, ?_, fun i => by simp [Pinned.permutation, Pinned.numInstanceColumns], by decide, by decide⟩
  · rw [equality_configured]
    decide
  · eval_configured
    rfl

/-- **C81** (selectors). The value of a selector vanishes exactly if the fixed column contains 0 or the number of
another selector of the column. -/
theorem C81_selector (c : SelectorCode) (q : Fp) :
    c.eval q = 0 ↔ q = 0 ∨ ∃ j : ℕ, 1 ≤ j ∧ j ≤ c.size ∧ j ≠ c.index ∧ q = j := by
  exact eval_eq_zero c q

/-- **C81** (codes). No two selectors have the same number in the same column; each has a number between 1 and the
number of selectors of the column. -/
theorem C81_codes : gateCodes.Nodup ∧ (gateCodes.map fun c => (c.column, c.index)).Nodup ∧
    (∀ c ∈ gateCodes, 1 ≤ c.index ∧ c.index ≤ c.size ∧ c.column < Pinned.numFixedColumns) ∧
    ∀ c ∈ gateCodes, ∀ c' ∈ gateCodes, c.column = c'.column → c.size = c'.size := by
  exact ⟨codes_ok.1, codes_ok.2.1, fun c hc => ⟨(codes_ok.2.2.1 c hc).1, (codes_ok.2.2.1 c hc).2.1,
    (codes_ok.2.2.1 c hc).2.2.1⟩, codes_ok.2.2.2⟩

/-- **C81** (rows). All 193 polynomials vanish on a row if and only if the polynomials of those gates do whose number
is in their column. -/
theorem C81_rows (r : Row) (h : ∀ c ∈ gateCodes, ∃ q ≤ c.size, r.fixed c.column 0 = (q : ℕ)) :
    (∀ g ∈ Pinned.gates, g.eval r = 0) ↔
      ∀ g ∈ gateCodes.zip (circuitGates r), r.fixed g.1.column 0 = g.1.index → Gate g.2 := by
  rw [forall_circuitPolys]
  refine forall_congr' fun g => forall_congr' fun hg => ?_
  have hc : g.1 ∈ gateCodes := (List.of_mem_zip (a := g.1) (b := g.2) hg).1
  obtain ⟨q, hq, e⟩ := h g.1 hc
  rw [e, eval_eq_zero_iff hc hq]
  exact ⟨fun hx he => hx.resolve_left fun hn => hn he, fun hx => or_iff_not_imp_left.2 fun hn =>
    hx (not_not.1 hn)⟩

/-- A row on which the gate of the addition chip is selected, with `1 + 2` in its cells. -/
def addRow (sum : Fp) : Row where
  advice c rot := if rot = 0 then [0, 0, 0, 0, 0, 0, sum, 1, 2, 0].getD c 0 else 0
  fixed c _ := if c = 18 then 2 else 0

/-- The pinned gates hold on it if the sum is 3. -/
example : ∀ g ∈ Pinned.gates, g.eval (addRow 3) = 0 := by decide +kernel

/-- They do not if it is 4. -/
example : ¬ ∀ g ∈ Pinned.gates, g.eval (addRow 4) = 0 := by decide +kernel

/-- The hypothesis of `C81_rows` for these rows. -/
example (s : Fp) (c : SelectorCode) (hc : c ∈ gateCodes) :
    ∃ q ≤ c.size, (addRow s).fixed c.column 0 = (q : ℕ) := by
  have h : ∀ c ∈ gateCodes, c.column = 18 → 2 ≤ c.size := by decide
  by_cases h18 : c.column = 18
  · exact ⟨2, h c hc h18, by simp [addRow, h18]⟩
  · exact ⟨0, Nat.zero_le _, by simp [addRow, h18]⟩

/-- **C81** (soundness of the layout under the pinned gates). C68 with the gates of the pinned constraint system:
a table that satisfies them on all rows, with fixed columns that select the gates as synthesis does, and satisfies
the copy constraints and gadgets, contains a witness of the Action statement. -/
theorem C81_layout_sound (P : Prims) (plan : Plan) (pub : ℕ → Fp) (w : Circuit) (T : Table)
    (F : Spec.FixedTable) (i : Instance) (inst : List Fp) (hi : i.toHalo2 = .ret inst)
    (hF : Spec.Selected F (events P plan pub w)) (hT : Spec.GatesHold T F)
    (h : ∀ e ∈ events P plan pub w, (∀ s row, e ≠ .enable s row) → e.Holds configured.2 T inst) :
    ∃ aw, Spec.ActionStatement P i aw ∧ Spec.Contain (witnessCells P plan pub w) T aw := by
  refine C68_layout_sound P plan pub w T i inst hi fun e he => ?_
  cases e with
  | enable s row =>
    intro polys hp
    obtain ⟨hrow, c, hc, hF⟩ := hF s row he
    have hz := mem_zip_crate (Spec.rowAt T F row) hc (ps := polys (Spec.rowAt T F row).query)
      (by rw [crateGates, List.getElem?_map, gatesOf_mem crateGates_fst hp]; rfl)
    have hr : row < Spec.numRows := by omega
    have hcm := (List.of_mem_zip hz).1
    have h1 := (forall_circuitPolys _).1 (hT row hr) _ hz
    rw [rowAt_fixed T F hr, hF, eval_eq_zero_iff hcm (codes_ok.2.2.1 c hcm).2.1, rowAt_query T F hrow] at h1
    exact h1.resolve_left fun hn => hn rfl
  | equal a b => exact h _ he (by simp)
  | «instance» a row => exact h _ he (by simp)
  | gadget p => exact h _ he (by simp)
  | write c v => exact h _ he (by simp)

/-- **C81** (completeness of the layout under the pinned gates). C70 with the gates of the pinned constraint system:
if the fixed columns select this crate's gates as synthesis does and no others, the prover's table satisfies
all polynomials on all rows. -/
theorem C81_layout_complete (P : Prims) (plan : Plan) (hplan : Spec.PossiblePlan P plan) (w : Circuit)
    (k : ActionCircuit.Cells) (i : Instance) (inst : List Fp) (hi : i.toHalo2 = .ret inst)
    (hk : ActionCircuit.assign P w = some k) (h : ActionCircuit.Synthesize P true k inst)
    (F : Spec.FixedTable)
    (hF : Spec.Selected F (events P plan (fun row => inst.getD row 0) w))
    (hF' : Spec.OnlySelected F (events P plan (fun row => inst.getD row 0) w)) (T : Table)
    (hT : ∀ e ∈ events P plan (fun row => inst.getD row 0) w, Spec.Holds T e) :
    Spec.GatesHold T F := by
  intro row hr
  rw [forall_circuitPolys]
  rintro ⟨c, ps⟩ hz
  have hcm := (List.of_mem_zip hz).1
  change c.eval ((Spec.rowAt T F row).fixed c.column 0) = 0 ∨ Gate ps
  rw [rowAt_fixed T F hr]
  rcases hF' c hcm row hr with h0 | ⟨s, c', he, hc', hcol, hv⟩
  · exact Or.inl ((eval_eq_zero c _).2 (Or.inl h0))
  have hcm' : c' ∈ gateCodes := by
    have hm := List.mem_of_getElem? hc'
    have : ∀ x ∈ crateCodes, x ∈ gateCodes := by decide
    exact this c' hm
  have hsize := codes_ok.2.2.2 c' hcm' c hcm hcol
  obtain ⟨hi1, hi2, -, -⟩ := codes_ok.2.2.1 c' hcm'
  by_cases hidx : c'.index = c.index
  · have hcc : c' = c := by
      cases c; cases c'
      simp only [SelectorCode.mk.injEq]
      exact ⟨hcol, hidx, hsize⟩
    subst hcc
    refine Or.inr ?_
    obtain ⟨hrow, -⟩ := hF s row he
    have hs : s < 25 := (List.getElem?_eq_some_iff.1 hc').1
    obtain ⟨g, hg⟩ : ∃ g, configured.2.gates[s]? = some g := by
      have hl := congrArg List.length crateGates_fst
      rw [List.length_map, List.length_range] at hl
      exact ⟨_, List.getElem?_eq_getElem (by rw [hl]; exact hs)⟩
    have hz' := mem_zip_crate (Spec.rowAt T F row) hc' (ps := g.2 (Spec.rowAt T F row).query)
      (by rw [crateGates, List.getElem?_map, hg]; rfl)
    have hev := ((C70_layout_complete P plan hplan w k i inst hi hk h).2 T hT _ he).1 g.2
      (gatesOf_get crateGates_fst hg)
    rw [← rowAt_query T F hrow] at hev
    rwa [zip_unique codes_ok.1 hz hz']
  · exact Or.inl ((eval_eq_zero c _).2 (Or.inr ⟨c'.index, hi1, by omega, hidx, hv⟩))

end Orchard
