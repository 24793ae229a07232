import Verif.Model.Halo2
import Verif.Model.FixedBase
import Mathlib.LinearAlgebra.Lagrange

/-!
# Fixed-base multiplication in the circuit (dependency `halo2_gadgets`, `ecc/chip`) with the tables of the crate

`Model/Halo2.lean` states the contracts `MulFixed`, `MulFixedShort` and `MulFixedBase`.  Here are the
constraints behind them.  They use the tables of `constants/fixed_bases.rs`: the interpolation of the `x`
coordinates and the numbers `z` are fixed columns, the numbers `u` are what witness generation assigns.
Written from the halo2 book and memory of `halo2_gadgets`.
-/

namespace Orchard.Halo2

/-- Gate of `ecc/chip/add_incomplete.rs`: `R = P + Q`. Chip configured at `circuit.rs:303-304`. -/
def addIncomplete (P Q R : Fp × Fp) : List Fp :=
  [(R.1 + Q.1 + P.1) * (P.1 - Q.1) * (P.1 - Q.1) - (P.2 - Q.2) ^ 2,
    (R.2 + Q.2) * (P.1 - Q.1) - (P.2 - Q.2) * (Q.1 - R.1)]

/-- Gate of `ecc/chip/add.rs`: `R = P + Q`, with further witnesses `l`, `α`, `β`, `γ`, `δ`.
Chip configured at `circuit.rs:303-304`. -/
def addComplete (P Q R : Fp × Fp) (l α β γ δ : Fp) : List Fp :=
  [(Q.1 - P.1) * ((Q.1 - P.1) * l - (Q.2 - P.2)),
    (1 - (Q.1 - P.1) * α) * (2 * P.2 * l - 3 * P.1 ^ 2),
    P.1 * Q.1 * (Q.1 - P.1) * (l ^ 2 - P.1 - Q.1 - R.1),
    P.1 * Q.1 * (Q.1 - P.1) * (l * (P.1 - R.1) - P.2 - R.2),
    P.1 * Q.1 * (Q.2 + P.2) * (l ^ 2 - P.1 - Q.1 - R.1),
    P.1 * Q.1 * (Q.2 + P.2) * (l * (P.1 - R.1) - P.2 - R.2),
    (1 - P.1 * β) * (R.1 - Q.1),
    (1 - P.1 * β) * (R.2 - Q.2),
    (1 - Q.1 * γ) * (R.1 - P.1),
    (1 - Q.1 * γ) * (R.2 - P.2),
    (1 - (Q.1 - P.1) * α - (Q.2 + P.2) * δ) * R.1,
    (1 - (Q.1 - P.1) * α - (Q.2 + P.2) * δ) * R.2]

/-- `ecc/chip/constants.rs` `compute_window_table`.
Tables checked at `constants/fixed_bases/spend_auth_g.rs:2951-2961`. -/
noncomputable def windowTable (B : Point) (n w k : ℕ) : Point :=
  if w + 1 < n then (((k : Fq) + 2) * (fixedBaseH : Fq) ^ w) • B
  else ((k : Fq) * (fixedBaseH : Fq) ^ (n - 1) -
    ∑ j ∈ Finset.range (n - 1), (2 : Fq) ^ (fixedBaseWindowSize * j + 1)) • B

/-- `ecc/chip/constants.rs` `compute_lagrange_coeffs`: coefficients of the polynomial of degree below 8 that
takes the digits of a window to the `x` coordinates. -/
noncomputable def lagrangeCoeffs (B : Point) (n w i : ℕ) : Fp :=
  (Lagrange.interpolate (Finset.range fixedBaseH) (fun k => (k : Fp))
    (fun k => extractP (windowTable B n w k))).coeff i

/-- `coords_check` of `ecc/chip/mul_fixed.rs`: interpolation of `x`, `y + z = u²`, and the curve equation.
Chip configured at `circuit.rs:303-304`. -/
def coordsCheck (coeffs : ℕ → Fp) (z window u : Fp) (A : Fp × Fp) : List Fp :=
  [(∑ i ∈ Finset.range fixedBaseH, window ^ i * coeffs i) - A.1,
    u ^ 2 - A.2 - z,
    A.2 ^ 2 - A.1 ^ 2 * A.1 - 5]

/-- `utilities::range_check(x, n)`: `x (1 - x) (2 - x) ... (n - 1 - x)`.
Chip configured at `circuit.rs:303-304`. -/
def rangePoly (n : ℕ) (x : Fp) : Fp := x * ∏ i ∈ Finset.range (n - 1), (((i + 1 : ℕ) : Fp) - x)

/-- Cells of the windows: points, `u`, and the running total up to each window.
Chip configured at `circuit.rs:303-304`. -/
structure WindowCells where
  point : ℕ → Fp × Fp
  u : ℕ → Fp
  acc : ℕ → Fp × Fp

/-- `ecc/chip/mul_fixed.rs` `assign_region_inner` and the last addition: incomplete additions for all
windows but the last, complete addition for the last. Chip configured at `circuit.rs:303-304`. -/
def MulWindows (F : FixedBase) (n : ℕ) (window : ℕ → Fp) (c : WindowCells) (out : Fp × Fp) : Prop :=
  (∀ w < n, Gate (coordsCheck (lagrangeCoeffs F.generator n w) (F.z.getD w 0 : ℕ) (window w) (c.u w)
    (c.point w))) ∧
  c.acc 0 = c.point 0 ∧
  (∀ w, 0 < w → w + 1 < n → Gate (addIncomplete (c.point w) (c.acc (w - 1)) (c.acc w))) ∧
  ∃ l α β γ δ, Gate (addComplete (c.point (n - 1)) (c.acc (n - 2)) out l α β γ δ)

/-- `ecc/chip/mul_fixed/full_width.rs`: the scalar is witnessed as 85 windows of three bits. -/
def MulFixedGates (F : FixedBase) (window : ℕ → Fp) (c : WindowCells) (out : Fp × Fp) : Prop :=
  (∀ w < numWindows, Gate [rangePoly fixedBaseH (window w)]) ∧ MulWindows F numWindows window c out

/-- `utilities/decompose_running_sum.rs`, strict: windows of three bits of `z 0`. -/
def Decompose (n : ℕ) (z : ℕ → Fp) : Prop :=
  (∀ w < n, Gate [rangePoly fixedBaseH (z w - 2 ^ fixedBaseWindowSize * z (w + 1))]) ∧ z n = 0

/-- The window in a running sum. Chip configured at `circuit.rs:303-304`. -/
def windowOf (z : ℕ → Fp) (w : ℕ) : Fp := z w - 2 ^ fixedBaseWindowSize * z (w + 1)

/-- `ecc/chip/mul_fixed/short.rs`: 22 windows, the last one a bit; the `y` coordinate of the product is
multiplied by the sign. -/
def MulFixedShortGates (F : FixedBase) (magnitude sign : Fp) (z : ℕ → Fp) (c : WindowCells)
    (mid out : Fp × Fp) : Prop :=
  z 0 = magnitude ∧ Decompose numWindowsShort z ∧ MulWindows F numWindowsShort (windowOf z) c mid ∧
  out.1 = mid.1 ∧
  Gate [boolCheck (z (numWindowsShort - 1)), sign ^ 2 - 1, (out.2 - mid.2) * (out.2 + mid.2),
    sign * out.2 - mid.2]

/-- Cells of the canonicity check of a base field element. Chip configured at `circuit.rs:303-304`. -/
structure CanonCells where
  α₁ : Fp
  α₂ : Fp
  /-- Running sum of `α₀ + 2^130 - t_P` in 10-bit words. -/
  zPrime : ℕ → Fp

/-- Canonicity gate of `ecc/chip/mul_fixed/base_field_elem.rs`. Chip configured at `circuit.rs:303-304`. -/
def baseFieldCanonicity (z : ℕ → Fp) (k : CanonCells) : List Fp :=
  [rangePoly 4 k.α₁, boolCheck k.α₂, z 84 - (k.α₁ + k.α₂ * 4),
    k.zPrime 0 - (z 0 - z 84 * 2 ^ 252 + 2 ^ 130 - (Constants.T_P : ℕ)),
    k.α₂ * k.α₁,
    k.α₂ * (z 44 - z 84 * 2 ^ 120),
    k.α₂ * boolCheck (z 43 - z 44 * 2 ^ 3),
    k.α₂ * k.zPrime 13]

/-- `ecc/chip/mul_fixed/base_field_elem.rs`: 85 windows of a base field element, which is canonical. -/
def MulFixedBaseGates (F : FixedBase) (scalar : Fp) (z : ℕ → Fp) (k : CanonCells) (c : WindowCells)
    (out : Fp × Fp) : Prop :=
  z 0 = scalar ∧ Decompose numWindows z ∧ MulWindows F numWindows (windowOf z) c out ∧
  RangeCheck 13 false k.zPrime ∧ Gate (baseFieldCanonicity z k)

end Orchard.Halo2
