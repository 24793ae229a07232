import Verif.Basic.Field
import Mathlib.AlgebraicGeometry.EllipticCurve.Affine.Point
import Mathlib.GroupTheory.OrderOfElement
import Mathlib.Algebra.Module.ZMod
import Mathlib.FieldTheory.Finite.Basic
import Mathlib.Tactic.LinearCombination
import Mathlib.Tactic.FieldSimp
import Mathlib.Tactic.ReduceModChar

/-!
# The Pallas curve `y² = x³ + 5` over `Fp`

This is `pallas::Point` / `pallas::Affine` of crate `pasta_curves`, modelled by Mathlib's group of
nonsingular affine points.
-/

namespace Orchard

open WeierstrassCurve.Affine

/-- The Pallas curve. -/
def pallas : WeierstrassCurve.Affine Fp := ⟨0, 0, 0, 0, 5⟩

/-- `pallas::Point`. -/
abbrev Point := pallas.Point

theorem five_ne_zero_Fp : (5 : Fp) ≠ 0 := by decide +kernel
theorem two_ne_zero_Fp : (2 : Fp) ≠ 0 := by decide +kernel
theorem three_ne_zero_Fp : (3 : Fp) ≠ 0 := by decide +kernel

theorem pallas_Δ : pallas.Δ ≠ 0 := by
  simp only [WeierstrassCurve.Δ, WeierstrassCurve.b₂, WeierstrassCurve.b₄, WeierstrassCurve.b₆,
    WeierstrassCurve.b₈, pallas]
  decide +kernel

theorem pallas_equation_iff (x y : Fp) : pallas.Equation x y ↔ y ^ 2 = x ^ 3 + 5 := by
  rw [equation_iff]; simp [pallas]

theorem pallas_nonsingular_iff (x y : Fp) : pallas.Nonsingular x y ↔ y ^ 2 = x ^ 3 + 5 := by
  rw [← equation_iff_nonsingular_of_Δ_ne_zero pallas_Δ, pallas_equation_iff]

theorem pallas_negY (x y : Fp) : pallas.negY x y = -y := by simp [negY, pallas]

namespace Point

/-- The affine point `(x, y)`. -/
def ofXY (x y : Fp) (h : y ^ 2 = x ^ 3 + 5) : Point :=
  .some x y ((pallas_nonsingular_iff x y).2 h)

theorem neg_ofXY (x y : Fp) (h : y ^ 2 = x ^ 3 + 5) :
    -ofXY x y h = ofXY x (-y) (by rw [neg_sq]; exact h) := by
  unfold ofXY
  rw [Point.neg_some, Point.some.injEq]
  exact ⟨rfl, pallas_negY x y⟩

theorem ofXY_ne_zero (x y : Fp) (h : y ^ 2 = x ^ 3 + 5) : ofXY x y h ≠ 0 :=
  Point.some_ne_zero _

theorem ofXY_inj {x y x' y' : Fp} {h : y ^ 2 = x ^ 3 + 5} {h' : y' ^ 2 = x' ^ 3 + 5} :
    ofXY x y h = ofXY x' y' h' ↔ x = x' ∧ y = y' := by
  simp [ofXY]

/-- Case analysis on a point. -/
theorem cases_xy (P : Point) : P = 0 ∨ ∃ x y h, P = ofXY x y h := by
  rcases P with _ | ⟨x, y, h⟩
  · exact Or.inl rfl
  · exact Or.inr ⟨x, y, (pallas_nonsingular_iff x y).1 h, rfl⟩

/-- Chord addition with the slope given as a witness. -/
theorem add_chord {x₁ y₁ x₂ y₂ x₃ y₃ l : Fp} (h₁ : y₁ ^ 2 = x₁ ^ 3 + 5) (h₂ : y₂ ^ 2 = x₂ ^ 3 + 5)
    (hx : x₁ ≠ x₂) (hl : l * (x₁ - x₂) = y₁ - y₂)
    (hx3 : x₃ = l ^ 2 - x₁ - x₂) (hy3 : y₃ = l * (x₁ - x₃) - y₁) :
    ∃ h₃, ofXY x₁ y₁ h₁ + ofXY x₂ y₂ h₂ = ofXY x₃ y₃ h₃ := by
  have hs : pallas.slope x₁ x₂ y₁ y₂ = l := by
    rw [slope_of_X_ne hx, div_eq_iff (sub_ne_zero.2 hx), hl]
  have hX : pallas.addX x₁ x₂ (pallas.slope x₁ x₂ y₁ y₂) = x₃ := by
    rw [hs, hx3]; simp [addX, pallas]
  have hY : pallas.addY x₁ x₂ y₁ (pallas.slope x₁ x₂ y₁ y₂) = y₃ := by
    rw [addY, negAddY, hX, hs, pallas_negY, hy3]; ring
  have hns := nonsingular_add ((pallas_nonsingular_iff _ _).2 h₁)
    ((pallas_nonsingular_iff _ _).2 h₂) (fun hxy => hx hxy.1)
  refine ⟨?_, ?_⟩
  · rw [hX, hY] at hns; exact (pallas_nonsingular_iff _ _).1 hns
  · unfold ofXY
    rw [Point.add_of_X_ne hx]
    simp only [Point.some.injEq]
    exact ⟨hX, hY⟩

/-- Tangent doubling with the slope given as a witness. -/
theorem add_tangent {x₁ y₁ x₃ y₃ l : Fp} (h₁ : y₁ ^ 2 = x₁ ^ 3 + 5)
    (hy : y₁ ≠ 0) (hl : l * (2 * y₁) = 3 * x₁ ^ 2)
    (hx3 : x₃ = l ^ 2 - x₁ - x₁) (hy3 : y₃ = l * (x₁ - x₃) - y₁) :
    ∃ h₃, ofXY x₁ y₁ h₁ + ofXY x₁ y₁ h₁ = ofXY x₃ y₃ h₃ := by
  have h2y : y₁ - -y₁ ≠ 0 := by
    rw [sub_neg_eq_add, ← two_mul]; exact mul_ne_zero two_ne_zero_Fp hy
  have hyn : y₁ ≠ pallas.negY x₁ y₁ := by
    rw [pallas_negY]; exact sub_ne_zero.1 h2y
  have hs : pallas.slope x₁ x₁ y₁ y₁ = l := by
    rw [slope_of_Y_ne rfl hyn, pallas_negY, div_eq_iff h2y]
    simp only [pallas]
    linear_combination -hl
  have hX : pallas.addX x₁ x₁ (pallas.slope x₁ x₁ y₁ y₁) = x₃ := by
    rw [hs, hx3]; simp [addX, pallas]
  have hY : pallas.addY x₁ x₁ y₁ (pallas.slope x₁ x₁ y₁ y₁) = y₃ := by
    rw [addY, negAddY, hX, hs, pallas_negY, hy3]; ring
  have hns := nonsingular_add ((pallas_nonsingular_iff _ _).2 h₁)
    ((pallas_nonsingular_iff _ _).2 h₁) (fun hxy => hyn hxy.2)
  refine ⟨?_, ?_⟩
  · rw [hX, hY] at hns; exact (pallas_nonsingular_iff _ _).1 hns
  · unfold ofXY
    rw [Point.add_self_of_Y_ne hyn]
    simp only [Point.some.injEq]
    exact ⟨hX, hY⟩

end Point

/-! ### No point has `x = 0`; no point has `y = 0` -/

/-- Euler criterion, in the direction used here. -/
theorem not_square_of_pow {a : ℕ} (h : Pratt.powMod a ((p - 1) / 2) p ≠ 1) (ha : (a : Fp) ≠ 0) :
    ∀ y : Fp, y ^ 2 ≠ (a : Fp) := by
  intro y hy
  rw [Pratt.powMod_eq _ _ _ (by decide +kernel)] at h
  have hy0 : y ≠ 0 := by
    rintro rfl; rw [zero_pow two_ne_zero] at hy; exact ha hy.symm
  have h1 : (a : Fp) ^ ((p - 1) / 2) = 1 := by
    rw [← hy, ← pow_mul, show 2 * ((p - 1) / 2) = p - 1 by decide +kernel]
    exact ZMod.pow_card_sub_one_eq_one hy0
  have h2 : ((a ^ ((p - 1) / 2) : ℕ) : Fp) = ((1 : ℕ) : Fp) := by simpa using h1
  rw [ZMod.natCast_eq_natCast_iff'] at h2
  exact h (h2.trans (by decide +kernel))

/-- `5` is not a square modulo `p`, so no point has `x = 0`. -/
theorem five_not_square : ∀ y : Fp, y ^ 2 ≠ 5 := by
  have := not_square_of_pow (a := 5) (by decide +kernel) (by decide +kernel)
  simpa using this

/-- `13 = 2³ + 5` is not a square modulo `p`, so no point has `x = 2`. -/
theorem thirteen_not_square : ∀ y : Fp, y ^ 2 ≠ 13 := by
  have := not_square_of_pow (a := 13) (by decide +kernel) (by decide +kernel)
  simpa using this

theorem x_ne_zero_of_onCurve {x y : Fp} (h : y ^ 2 = x ^ 3 + 5) : x ≠ 0 := by
  rintro rfl
  exact five_not_square y (by rw [h]; ring)

theorem x_ne_two_of_onCurve {x y : Fp} (h : y ^ 2 = x ^ 3 + 5) : x ≠ 2 := by
  rintro rfl
  exact thirteen_not_square y (by rw [h]; norm_num)

end Orchard
