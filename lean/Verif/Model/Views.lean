import Verif.Model.Builder

/-!
# The views of a builder's inputs and outputs

Models the traits `InputView` and `OutputView` of `/repo/src/builder.rs`, their implementations, and the
accessors that return them.  A trait method generic over `V: From<u64>` takes the conversion as an
argument.
-/

namespace Orchard

/-- `builder.rs:939-944` `trait InputView<NoteRef>`, for an implementing type `I`. -/
structure InputView (NoteRef I : Type) where
  noteId : I → NoteRef
  value {V : Type} (fromU64 : UInt64 → V) : I → V

/-- `builder.rs:959-962` `trait OutputView`, for an implementing type `O`. -/
structure OutputView (O : Type) where
  value {V : Type} (fromU64 : UInt64 → V) : O → V

/-- `builder.rs:946-955` `impl InputView<()> for SpendInfo`. -/
def SpendInfo.view : InputView Unit SpendInfo where
  noteId _ := ()
  value fromU64 s := fromU64 s.note.value.inner

/-- `builder.rs:964-968` `impl OutputView for OutputInfo`. -/
def OutputInfo.view : OutputView OutputInfo where
  value fromU64 o := fromU64 o.value.inner

/-- `builder.rs:504-506` `Builder::spends`: what is visible of the spends is the view. -/
def Builder.viewSpends (b : Builder) : (I : Type) × InputView Unit I × List I :=
  ⟨SpendInfo, SpendInfo.view, b.spends⟩

/-- `builder.rs:510-512` `Builder::outputs`: what is visible of the outputs is the view. -/
def Builder.viewOutputs (b : Builder) : (O : Type) × OutputView O × List O :=
  ⟨OutputInfo, OutputInfo.view, b.outputs⟩

end Orchard
