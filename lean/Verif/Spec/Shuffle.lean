import Mathlib.Logic.Function.Basic
import Mathlib.Data.Fintype.Pi

/-!
# Specification of a fair shuffle

A shuffle of `n` elements makes one choice for every `i < n`, a number at most `i`.  It is fair if every
ordering comes from exactly one table of choices.
-/

namespace Orchard.Spec

/-- The choices: for every `i < n` one of `0, ..., i`. -/
abbrev Choices (n : ℕ) : Type := (i : Fin n) → Fin (i.val + 1)

/-- The choices as numbers; there is none beyond `n`. -/
def Choices.at {n : ℕ} (c : Choices n) (i : ℕ) : ℕ := if h : i < n then (c ⟨i, h⟩).val else 0

end Orchard.Spec
