import Verif.Model.Views
import Verif.Props.Build

/-!
# C07: the views used in fee calculation
-/

namespace Orchard

/-- The values of the inputs in a view, converted to `V`. -/
def Spec.viewedInputs {V : Type} (fromU64 : UInt64 → V) (v : (I : Type) × InputView Unit I × List I) :
    List V := v.2.2.map (v.2.1.value fromU64)

/-- The values of the outputs in a view, converted to `V`. -/
def Spec.viewedOutputs {V : Type} (fromU64 : UInt64 → V) (v : (O : Type) × OutputView O × List O) :
    List V := v.2.2.map (v.2.1.value fromU64)

/-- **C07** (views). After any history of calls on a new builder, the views of its inputs (outputs) show
the values of the spends (outputs) of exactly those calls that returned `Ok`, in call order, whatever type
they are converted to; and if `value_balance` succeeds then its result is the conversion of the sum of the
input values shown minus the sum of the output values shown. -/
theorem C07_views (P : Prims) (ty : BundleType) (anchor : Fp) (cs : List Builder.Call)
    (hcs : ∀ c ∈ cs, Spec.CallOk P c) :
    ∃ rs b, (Builder.new ty anchor).calls P cs = .ret (rs, b) ∧
      (∀ (V : Type) (fromU64 : UInt64 → V),
        Spec.viewedInputs fromU64 b.viewSpends =
          (Spec.acceptedSpends cs rs).map (fun x => fromU64 x.2.1.value.inner) ∧
        Spec.viewedOutputs fromU64 b.viewOutputs =
          (Spec.acceptedOutputs cs rs).map (fun x => fromU64 x.2.2.1.inner)) ∧
      ∀ (V : Type) (tryFrom : I64 → Option V) (v : V), b.valueBalance tryFrom = .ret (.ok v) →
        ∃ i : I64, tryFrom i = some v ∧
          i.val = (Spec.viewedInputs (fun x => (x.toNat : ℤ)) b.viewSpends).sum -
            (Spec.viewedOutputs (fun x => (x.toNat : ℤ)) b.viewOutputs).sum := by
  obtain ⟨rs, b, h1, -, -, -, h4, h5, -⟩ := C06_history P ty anchor cs hcs
  refine ⟨rs, b, h1, fun V f => ⟨?_, ?_⟩, fun V tryFrom v h => ?_⟩
  · rw [← h4, List.map_map]; rfl
  · rw [← h5, List.map_map]; rfl
  · obtain ⟨r, e, e1, -⟩ := C07_value_balance tryFrom b
    rw [e, Outcome.ret.injEq] at h
    obtain ⟨-, i, e2, e3⟩ := (e1 v).1 h
    exact ⟨i, e3, e2⟩

/-- Two outputs of values 3 and 4 added to a coinbase builder, and a spend that is refused. -/
example (s : SpendInfo) :
    ∃ rs b, (Builder.new .coinbase 0).calls Examples.P0
      [.output none (Examples.output0 3).recipient ⟨3⟩ none, .spend s.fvk s.note s.merklePath,
        .output none (Examples.output0 3).recipient ⟨4⟩ none] = .ret (rs, b) ∧
      Spec.viewedInputs UInt64.toNat b.viewSpends = [] ∧
      Spec.viewedOutputs UInt64.toNat b.viewOutputs = [3, 4] := by
  refine ⟨[true, false, true], ⟨[], [OutputInfo.new none _ ⟨3⟩ none, OutputInfo.new none _ ⟨4⟩ none],
    .coinbase, 0⟩, rfl, rfl, rfl⟩

end Orchard
