import Verif.Basic.PallasOrder

/-!
# Specification of the fixed-base tables (halo2 book, "Fixed-base scalar multiplication")

A scalar is given by `n` digits in base 8.  To keep the partial sums away from the exceptional cases of
incomplete addition, digit `k` of window `w` adds `(k + 2) 8^w`, and the last window subtracts again what
was added too much.
-/

namespace Orchard.Spec

/-- What digit `k` of window `w` of `n` contributes. -/
def windowScalar (n w k : ℕ) : ℤ :=
  if w + 1 < n then (k + 2) * 8 ^ w
  else k * 8 ^ w - ∑ j ∈ Finset.range w, 2 * 8 ^ j

/-- The table entries `u` and `z` fit the point `A` of their window: `A` is affine, the bytes of `u`
decode to a field element, `z` fits into a `u64`, `u² = y + z`, and `z - y` is not a square. -/
def EntryFits (A : Point) (z u : ℕ) : Prop :=
  u < p ∧ z < 2 ^ 64 ∧
    ∃ (x y : Fp) (h : y ^ 2 = x ^ 3 + 5), A = Point.ofXY x y h ∧
      (u : Fp) ^ 2 = y + z ∧ ∀ s : Fp, s ^ 2 ≠ -y + z

/-- Tables with `n` windows of 8 digits for the base `B`. -/
def TablesFit (B : Point) (n : ℕ) (z : List ℕ) (u : List (List ℕ)) : Prop :=
  z.length = n ∧ u.length = n ∧
    ∀ w < n, (u.getD w []).length = 8 ∧
      ∀ k < 8, EntryFits (windowScalar n w k • B) (z.getD w 0) ((u.getD w []).getD k 0)

end Orchard.Spec
