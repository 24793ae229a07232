import Verif.Lemmas.LayoutShape
import Verif.Lemmas.LayoutProver
import Verif.Spec.Layout
import Verif.Props.ActionCircuit

/-!
# Properties C68-C70: the table of the Action circuit
-/

namespace Orchard

open Halo2 Layout

theorem pointIn_of {T : Table} {c : Cell × Cell} {A : Point}
    (h : T c.1 = extractP A ∧ T c.2 = cellY A) : Spec.PointIn T c A := by
  cases A <;> exact h

/-! ### C68 -/

/-- **C68** (soundness of the layout). Take the constraint system of `configure` and the regions,
selectors and copies of `synthesize`, for whatever floor plan and whatever values the prover wanted to
assign.  Every table whatsoever that satisfies the gates on the rows where their selectors are enabled,
the copy constraints and the constraints of the gadgets, with the public inputs of an instance in the
instance column, contains in the cells of the private inputs a witness of the Action statement for that
instance. -/
theorem C68_layout_sound (P : Prims) (plan : Plan) (pub : ℕ → Fp) (w : Circuit) (T : Table)
    (i : Instance) (inst : List Fp) (hi : i.toHalo2 = .ret inst)
    (h : ∀ e ∈ events P plan pub w, e.Holds configured.2 T inst) :
    ∃ aw, Spec.ActionStatement P i aw ∧ Spec.Contain (witnessCells P plan pub w) T aw := by
  obtain ⟨k, hk, hc⟩ := ens_synthesize (P := P) circuitGates_configured ⟨plan, pub⟩ ⟨0, 0⟩ h
  refine ⟨k.witness, C54_sound P k i inst hi hk, ?_⟩
  refine ⟨hc.psiOld, hc.rhoOld, pointIn_of hc.cmOld, pointIn_of hc.gdOld, pointIn_of hc.ak, hc.nk,
    congrArg ZMod.val hc.vOld, congrArg ZMod.val hc.vNew, hc.path, ⟨hk.2.2.2.1, fun l hl => ?_⟩,
    pointIn_of hc.pkdOld, pointIn_of hc.gdNew, pointIn_of hc.pkdNew, hc.psiNew⟩
  have e := congrArg ZMod.val (hc.bit l hl)
  refine e.trans ?_
  change _ = k.pos / 2 ^ l % 2
  rw [Nat.testBit_eq_decide_div_mod_eq]
  have h2 : k.pos / 2 ^ l % 2 < 2 := Nat.mod_lt _ (by norm_num)
  by_cases h1 : k.pos / 2 ^ l % 2 = 1
  · rw [h1]; rfl
  · have h0 : k.pos / 2 ^ l % 2 = 0 := by omega
    rw [h0]; rfl

/-! ### C69 -/

theorem shape_eq : Spec.shape = Event.shape := by
  funext e
  cases e <;> rfl

/-- **C69** (the circuit does not depend on the witness). Synthesis for two witnesses and two sets of
public inputs enables the same selectors on the same rows, copies the same cells, uses the same
gadgets and assigns the same cells, in the same order; only the assigned values differ. -/
theorem C69_shape (P : Prims) (plan : Plan) (pub pub' : ℕ → Fp) (w w' : Circuit) :
    (events P plan pub w).map Spec.shape = (events P plan pub' w').map Spec.shape ∧
      witnessCells P plan pub w = witnessCells P plan pub' w' := by
  have h := same_synthesize (P := P) (w := w) (w' := w') (cfg := configured.1) plan pub pub' ⟨0, 0⟩
  rw [shape_eq]
  exact ⟨h.2.2, h.2.1⟩

theorem holds_shape {cs : ConstraintSystem} {T : Table} {inst : List Fp} {e : Event} :
    (Spec.shape e).Holds cs T inst ↔ e.Holds cs T inst := by
  cases e <;> rfl

/-- **C69** (constraints). So a table satisfies the constraints that key generation saw, without a
witness, iff it satisfies those that the prover's synthesis produces. -/
theorem C69_constraints (P : Prims) (plan : Plan) (pub pub' : ℕ → Fp) (w w' : Circuit) (T : Table)
    (inst : List Fp) :
    (∀ e ∈ events P plan pub w, e.Holds configured.2 T inst) ↔
      ∀ e ∈ events P plan pub' w', e.Holds configured.2 T inst := by
  have key : ∀ l : List Event, (∀ e ∈ l, e.Holds configured.2 T inst) ↔
      ∀ e ∈ l.map Spec.shape, e.Holds configured.2 T inst := by
    intro l
    rw [List.forall_mem_map]
    exact forall_congr' fun e => forall_congr' fun _ => holds_shape.symm
  rw [key, key (events P plan pub' w'), (C69_shape P plan pub pub' w w').1]

/-! ### C70 -/

/-- A table that holds all writes, if no cell is written twice. -/
theorem exists_table : ∀ l : List Event, (l.filterMap Spec.written).Nodup →
    ∃ T : Table, ∀ e ∈ l, Spec.Holds T e
  | [], _ => ⟨fun _ => 0, by simp⟩
  | e :: l, h => by
    have hl : (l.filterMap Spec.written).Nodup := by
      refine h.sublist ?_
      rw [List.filterMap_cons]
      split
      · exact List.Sublist.refl _
      · exact List.sublist_cons_self _ _
    obtain ⟨T, hT⟩ := exists_table l hl
    cases e with
    | write c v =>
      refine ⟨Function.update T c v, fun e he => ?_⟩
      rcases List.mem_cons.1 he with rfl | he'
      · exact Function.update_self ..
      · have hne : ∀ c' v', e = .write c' v' → c' ≠ c := by
          rintro c' v' rfl rfl
          exact (List.nodup_cons.1 h).1 (List.mem_filterMap.2 ⟨.write c' v', he', rfl⟩)
        have := hT e he'
        cases e with
        | write c' v' =>
          change Function.update T c v c' = v'
          rw [Function.update_of_ne (hne c' v' rfl)]
          exact this
        | _ => trivial
    | _ =>
      refine ⟨T, fun e he => ?_⟩
      rcases List.mem_cons.1 he with rfl | he
      · trivial
      · exact hT e he

/-- What every table with the prover's values satisfies. -/
theorem honest_events (P : Prims) (plan : Plan) (hplan : Spec.PossiblePlan P plan) (w : Circuit)
    (k : ActionCircuit.Cells) (i : Instance) (inst : List Fp) (hi : i.toHalo2 = .ret inst)
    (hk : ActionCircuit.assign P w = some k) (h : ActionCircuit.Synthesize P true k inst) (T : Table)
    (hT : ∀ e ∈ events P plan (fun row => inst.getD row 0) w, Spec.Holds T e) :
    ∀ e ∈ events P plan (fun row => inst.getD row 0) w,
      e.Holds configured.2 T inst ∧ e.Permitted configured.2 ∧ e.Feasible P T := by
  refine (hon_synthesize (env := ⟨plan, fun row => inst.getD row 0⟩) circuitGates_configured
    columns_configured ?_ ?_ hk h ⟨0, 0⟩ ?_).1
  · intro n j
    rw [equality_configured, List.mem_range]
    exact hplan.columns n j
  · intro row hr
    have hl : inst.length = 9 := by rw [toHalo2_eq hi]; rfl
    have hr' : row < inst.length := by omega
    change inst[row]? = some (inst.getD row 0)
    rw [List.getElem?_eq_getElem hr', List.getD_eq_getElem _ _ hr']
  · rintro e he c v rfl
    exact hT _ he

/-- **C70** (completeness of the layout, one action). If the values assigned from a circuit witness
satisfy the circuit for the public inputs (`C55`), then for every possible floor plan the table that
the prover fills in exists, and every table that holds the prover's values satisfies all gates, copies
and gadgets; copies are only made between columns that are enabled for it. -/
theorem C70_layout_complete (P : Prims) (plan : Plan) (hplan : Spec.PossiblePlan P plan) (w : Circuit)
    (k : ActionCircuit.Cells) (i : Instance) (inst : List Fp) (hi : i.toHalo2 = .ret inst)
    (hk : ActionCircuit.assign P w = some k) (h : ActionCircuit.Synthesize P true k inst) :
    (∃ T : Table, ∀ e ∈ events P plan (fun row => inst.getD row 0) w, Spec.Holds T e) ∧
    ∀ T : Table, (∀ e ∈ events P plan (fun row => inst.getD row 0) w, Spec.Holds T e) →
      ∀ e ∈ events P plan (fun row => inst.getD row 0) w,
        e.Holds configured.2 T inst ∧ e.Permitted configured.2 := by
  refine ⟨exists_table _ (hplan.disjoint _ _), fun T hT e he =>
    (fun h => ⟨h.1, h.2.1⟩) (honest_events P plan hplan w k i inst hi hk h T hT e he)⟩

variable {V : Type} {P : Prims} {tryFrom : I64 → Option V} {rng : BuildDraws} {anchor : Fp}
    {ty : BundleType} {spends : List SpendInfo} {outputs : List OutputInfo}
    {b : UnauthorizedBundle V} {m : BundleMetadata}

/-- **C70** (built bundles). In every built bundle, for every action whose `rk` is not the identity,
and for every possible floor plan, the prover's table exists and satisfies the circuit, unless a
Sinsemilla hash on the Merkle path is `⊥`. -/
theorem C70_built (hP : P.hashToCurve keyDiversificationPersonalization [] ≠ 0)
    (h : bundle P tryFrom rng anchor ty spends outputs = .ok (some (b, m)))
    (hs : ∀ s ∈ spends, Spec.Requestable P s) (ho : ∀ o ∈ outputs, o.recipient.pkd ≠ 0)
    (i : ℕ) (a : Action SigningMetadata) (c : Circuit) (ha : b.actions[i]? = some a)
    (hc : b.authorization.proof.circuits[i]? = some c) (hrk : a.rk.point ≠ 0)
    (plan : Plan) (hplan : Spec.PossiblePlan P plan) :
    (∃ inst T, (a.toInstance b.flags b.anchor).toHalo2 = .ret inst ∧
      ∀ e ∈ events P plan (fun row => inst.getD row 0) c,
        Spec.Holds T e ∧ e.Holds configured.2 T inst ∧ e.Permitted configured.2) ∨
    ∃ x ∈ pathInputs P c.pos.toNat 0 c.path (extractP c.cmOld),
      sinsemillaHashToPoint P Constants.qMerkleCrh (merkleBits x.1 x.2.1 x.2.2) = none := by
  rcases C55_complete hP h hs ho i a c ha hc hrk with ⟨k, inst, hk, hi, hsyn⟩ | ⟨x, hx, e, -⟩
  · left
    obtain ⟨⟨T, hT⟩, hall⟩ := C70_layout_complete P plan hplan c k _ inst hi hk hsyn
    exact ⟨inst, T, hi, fun e he => ⟨hT e he, hall T hT e he⟩⟩
  · exact Or.inr ⟨x, hx, e⟩

namespace Examples

/-- A floor plan: regions below each other, gadgets below the regions. -/
def plan0 : Plan where
  start n := 2 * n
  gadget n i := (i % 10, 200 + 30 * n + i / 10)

/-- No number occurs twice: linear, with the set of numbers seen so far as a bit mask. -/
def distinct (f : Cell → ℕ) : ℕ → List Event → Bool
  | _, [] => true
  | m, .write c _ :: l => !m.testBit (f c) && distinct f (m ||| 1 <<< f c) l
  | m, _ :: l => distinct f m l

theorem nodup_of_distinct (f : Cell → ℕ) : ∀ (l : List Event) (m : ℕ), distinct f m l = true →
    (l.filterMap Spec.written).Nodup ∧ ∀ c ∈ l.filterMap Spec.written, m.testBit (f c) = false
  | [], _, _ => by simp
  | e :: l, m, h => by
    cases e with
    | write c v =>
      rw [distinct, Bool.and_eq_true, Bool.not_eq_true'] at h
      obtain ⟨h1, h2⟩ := nodup_of_distinct f l _ h.2
      have h3 : ∀ c' ∈ l.filterMap Spec.written, m.testBit (f c') = false ∧ f c ≠ f c' := by
        intro c' hc'
        have := h2 c' hc'
        rw [Nat.testBit_or, Bool.or_eq_false_iff, Nat.one_shiftLeft, Nat.testBit_two_pow] at this
        exact ⟨this.1, of_decide_eq_false this.2⟩
      refine ⟨List.nodup_cons.2 ⟨fun hm => (h3 c hm).2 rfl, h1⟩, ?_⟩
      intro c' hc'
      rcases List.mem_cons.1 hc' with rfl | hc'
      · exact h.1
      · exact (h3 c' hc').1
    | _ => exact nodup_of_distinct f l m h

def circuit0 : Circuit where
  path := []
  pos := 0
  gdOld := 0
  pkdOld := 0
  vOld := ⟨0⟩
  rhoOld := 0
  psiOld := 0
  rcmOld := 0
  cmOld := 0
  alpha := 0
  ak := ⟨0⟩
  nk := 0
  rivk := 0
  gdNew := 0
  pkdNew := 0
  vNew := ⟨0⟩
  psiNew := 0
  rcmNew := 0
  rcv := ⟨0⟩

theorem written_shape (l : List Event) :
    (l.map Spec.shape).filterMap Spec.written = l.filterMap Spec.written := by
  rw [List.filterMap_map]
  congr 1
  funext e
  cases e <;> rfl

/-- `plan0` is possible. -/
theorem possible_plan0 : Spec.PossiblePlan P0 plan0 where
  columns _ _ := Nat.mod_lt _ (by norm_num)
  disjoint w inst := by
    have h : distinct (fun c => c.1 + 10 * c.2) 0 (events P0 plan0 (fun _ => 0) circuit0) = true := by
      decide +kernel
    rw [← written_shape, (C69_shape P0 plan0 inst (fun _ => 0) w circuit0).1, written_shape]
    exact (nodup_of_distinct _ _ _ h).1

/-- The synthesis enables 27 selectors (one each for the circuit's own gate, the addition chip and
`CommitIvk`, twelve for each of the two note commitments) and assigns 881 cells. -/
theorem events_plan0 :
    ((events P0 plan0 (fun _ => 0) circuit0).filterMap fun e =>
      match e with
      | .enable q row => some (q, row)
      | _ => none).length = 27 ∧
    ((events P0 plan0 (fun _ => 0) circuit0).filterMap Spec.written).length = 881 := by
  constructor <;> decide +kernel

/-- The hypotheses of `C68`, `C70` are met: the two actions of the bundle of `circuit_P0` (a spend of
value 5 and a dummy) have a satisfying table with `plan0`. -/
theorem layout_P0 : ∃ (b : UnauthorizedBundle I64), b.actions.length = 2 ∧
    (∃ c ∈ b.authorization.proof.circuits, c.vOld.inner = 5) ∧
    ∀ (i : ℕ) (a : Action SigningMetadata) (c : Circuit), b.actions[i]? = some a →
      b.authorization.proof.circuits[i]? = some c →
      ∃ inst T, (a.toInstance b.flags b.anchor).toHalo2 = .ret inst ∧
        ∀ e ∈ events P0 plan0 (fun row => inst.getD row 0) c,
          Spec.Holds T e ∧ e.Holds configured.2 T inst ∧ e.Permitted configured.2 := by
  obtain ⟨b, h1, -, h2, h3⟩ := circuit_P0
  refine ⟨b, h1, h2, fun i a c ha hc => ?_⟩
  obtain ⟨k, inst, hk, hi, hsyn, -⟩ := h3 i a c ha hc
  obtain ⟨⟨T, hT⟩, hall⟩ := C70_layout_complete P0 plan0 possible_plan0 c k _ inst hi hk hsyn
  exact ⟨inst, T, hi, fun e he => ⟨hT e he, hall T hT e he⟩⟩

end Examples

end Orchard
