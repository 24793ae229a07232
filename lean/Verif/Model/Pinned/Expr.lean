import Verif.Basic.Field

/-!
# Expressions of the pinned constraint system

`/repo/src/circuit_description` is what the test `circuit.rs:1045-1054` compares the verification key with: the
constraint system after `configure` (of this crate and of the chips of `halo2_gadgets`), with selectors already
replaced by fixed columns.
-/

namespace Orchard.Pinned

/-- `halo2_proofs::plonk::Expression` after selectors are replaced. -/
inductive Expr
  /-- `Constant` -/
  | c (n : ℕ)
  /-- `Fixed`: column and rotation -/
  | f (column : ℕ) (rotation : ℤ)
  /-- `Advice`: column and rotation -/
  | a (column : ℕ) (rotation : ℤ)
  /-- `Negated` -/
  | neg (e : Expr)
  /-- `Sum` -/
  | sum (e e' : Expr)
  /-- `Product` -/
  | prod (e e' : Expr)
  /-- `Scaled` -/
  | scaled (e : Expr) (n : ℕ)

/-- The contents of advice and fixed columns around a row, by rotation.
For the expressions of `circuit_description:14-28081`. -/
structure Row where
  advice : ℕ → ℤ → Fp
  fixed : ℕ → ℤ → Fp

/-- `Expression::evaluate`. For the expressions of `circuit_description:14-28081`. -/
def Expr.eval (r : Row) : Expr → Fp
  | c n => n
  | f i rot => r.fixed i rot
  | a i rot => r.advice i rot
  | neg e => -e.eval r
  | sum e e' => e.eval r + e'.eval r
  | prod e e' => e.eval r * e'.eval r
  | scaled e n => e.eval r * n

/-- `Column<Any>` (`circuit_description:27425-27488`) -/
inductive AnyColumn
  | instance (i : ℕ)
  | advice (i : ℕ)
  | fixed (i : ℕ)
  deriving DecidableEq

end Orchard.Pinned
