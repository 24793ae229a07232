import Mathlib.Algebra.Order.Ring.Int
import Mathlib.Algebra.Ring.Parity

/-!
# Specification of windowed non-adjacent forms
-/

namespace Orchard.Spec

/-- The integer spelled by binary digits (of either sign), least significant first. -/
def digitsValue : List ℤ → ℤ
  | [] => 0
  | d :: l => d + 2 * digitsValue l

/-- A windowed non-adjacent form: every digit is zero or odd and below `2^(w-1)` in absolute value, and
among any `w` digits in a row at most one is not zero. -/
structure IsWnaf (w : ℕ) (l : List ℤ) : Prop where
  digit : ∀ d ∈ l, d = 0 ∨ (Odd d ∧ |d| < 2 ^ (w - 1))
  sparse : ∀ (i j : ℕ) (d e : ℤ), l[i]? = some d → l[j]? = some e → i < j → j < i + w → d = 0 ∨ e = 0

end Orchard.Spec
