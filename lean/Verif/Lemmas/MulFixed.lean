import Verif.Model.MulFixed
import Verif.Spec.FixedBase

/-!
# Helper lemmas for C75: soundness of the gates of fixed-base multiplication
-/

namespace Orchard.Halo2

open Finset

/-! ### Additions -/

@[simp] theorem cells_zero : cells 0 = (0, 0) := rfl
@[simp] theorem cells_ofXY (x y : Fp) (h : y ^ 2 = x ^ 3 + 5) : cells (Point.ofXY x y h) = (x, y) := rfl

theorem cells_injective : Function.Injective cells := by
  intro A B h
  rcases Point.cases_xy A with rfl | ⟨x, y, e, rfl⟩ <;> rcases Point.cases_xy B with rfl | ⟨x', y', e', rfl⟩
  · rfl
  · rw [cells_zero, cells_ofXY, Prod.mk.injEq] at h
    exact absurd h.1.symm (x_ne_zero_of_onCurve e')
  · rw [cells_zero, cells_ofXY, Prod.mk.injEq] at h
    exact absurd h.1 (x_ne_zero_of_onCurve e)
  · rw [cells_ofXY, cells_ofXY, Prod.mk.injEq] at h
    exact Point.ofXY_inj.2 h

theorem gate_cons {e : Fp} {l : List Fp} : Gate (e :: l) ↔ e = 0 ∧ Gate l := by simp [Gate]
theorem gate_nil : Gate [] := by simp [Gate]

theorem addIncomplete_sound {A B : Point} (hA : A ≠ 0) (hB : B ≠ 0) (h1 : A ≠ B) (h2 : A ≠ -B)
    {R : Fp × Fp} (h : Gate (addIncomplete (cells A) (cells B) R)) : R = cells (A + B) := by
  rcases Point.cases_xy A with rfl | ⟨x, y, e, rfl⟩
  · exact absurd rfl hA
  rcases Point.cases_xy B with rfl | ⟨x', y', e', rfl⟩
  · exact absurd rfl hB
  have hx : x ≠ x' := by
    intro hx
    subst hx
    have hy : (y - y') * (y + y') = 0 := by linear_combination e - e'
    rcases mul_eq_zero.1 hy with hy | hy
    · exact h1 (Point.ofXY_inj.2 ⟨rfl, sub_eq_zero.1 hy⟩)
    · rw [Point.neg_ofXY] at h2
      exact h2 (Point.ofXY_inj.2 ⟨rfl, eq_neg_of_add_eq_zero_left hy⟩)
  obtain ⟨xr, yr⟩ := R
  rw [addIncomplete, gate_cons, gate_cons, cells_ofXY, cells_ofXY] at h
  obtain ⟨g1, g2, -⟩ := h
  have hd : x - x' ≠ 0 := sub_ne_zero.2 hx
  have hl : (y - y') / (x - x') * (x - x') = y - y' := div_mul_cancel₀ _ hd
  have hl2 : ((y - y') / (x - x')) ^ 2 * (x - x') ^ 2 = (y - y') ^ 2 := by rw [← mul_pow, hl]
  have hX : xr = ((y - y') / (x - x')) ^ 2 - x - x' := by
    apply mul_right_cancel₀ (pow_ne_zero 2 hd)
    linear_combination g1 - hl2
  have hY : yr = (y - y') / (x - x') * (x - xr) - y := by
    apply mul_right_cancel₀ hd
    linear_combination g2 - (x - xr) * hl
  obtain ⟨e3, h3⟩ := Point.add_chord e e' hx hl hX hY
  rw [h3]
  rfl

theorem addComplete_sound {A B : Point} {R : Fp × Fp} {l α β γ δ : Fp}
    (h : Gate (addComplete (cells A) (cells B) R l α β γ δ)) : R = cells (A + B) := by
  obtain ⟨xr, yr⟩ := R
  simp only [addComplete, gate_cons, gate_nil, and_true] at h
  obtain ⟨g1, g2, g3, g4, g5, g6, g7, g8, g9, g10, g11, g12⟩ := h
  rcases Point.cases_xy A with rfl | ⟨x, y, e, rfl⟩
  · rw [zero_add]
    simp only [cells_zero, zero_mul, sub_zero, one_mul] at g7 g8
    exact Prod.ext (sub_eq_zero.1 g7) (sub_eq_zero.1 g8)
  rcases Point.cases_xy B with rfl | ⟨x', y', e', rfl⟩
  · rw [add_zero]
    simp only [cells_zero, zero_mul, sub_zero, one_mul] at g9 g10
    exact Prod.ext (sub_eq_zero.1 g9) (sub_eq_zero.1 g10)
  simp only [cells_ofXY] at *
  have hx0 := x_ne_zero_of_onCurve e
  have hx0' := x_ne_zero_of_onCurve e'
  have hy0 := y_ne_zero_of_onCurve e
  by_cases hx : x = x'
  · subst hx
    have hy : (y - y') * (y + y') = 0 := by linear_combination e - e'
    by_cases hyy : y + y' = 0
    · have : Point.ofXY x y e + Point.ofXY x y' e' = 0 := by
        rw [add_eq_zero_iff_eq_neg, Point.neg_ofXY, Point.ofXY_inj]
        exact ⟨rfl, eq_neg_of_add_eq_zero_left hyy⟩
      rw [this]
      have hc : 1 - (x - x) * α - (y' + y) * δ = 1 := by linear_combination (-δ) * hyy
      rw [hc, one_mul] at g11 g12
      exact Prod.ext g11 g12
    · rcases mul_eq_zero.1 hy with hy | hy
      · obtain rfl : y = y' := sub_eq_zero.1 hy
        have hc : x * x * (y + y) ≠ 0 := mul_ne_zero (mul_ne_zero hx0 hx0) hyy
        have hX := (mul_eq_zero.1 g5).resolve_left hc
        have hY := (mul_eq_zero.1 g6).resolve_left hc
        rw [sub_self, zero_mul, sub_zero, one_mul] at g2
        obtain ⟨e3, h3⟩ := Point.add_tangent e hy0 (l := l) (x₃ := xr) (y₃ := yr)
          (by linear_combination g2) (by linear_combination -hX) (by linear_combination -hY)
        rw [h3]
        rfl
      · exact absurd hy hyy
  · have hd : x' - x ≠ 0 := sub_ne_zero.2 (Ne.symm hx)
    have hc : x * x' * (x' - x) ≠ 0 := mul_ne_zero (mul_ne_zero hx0 hx0') hd
    have hL := (mul_eq_zero.1 g1).resolve_left hd
    have hX := (mul_eq_zero.1 g3).resolve_left hc
    have hY := (mul_eq_zero.1 g4).resolve_left hc
    obtain ⟨e3, h3⟩ := Point.add_chord e e' hx (l := l) (x₃ := xr) (y₃ := yr)
      (by linear_combination -hL) (by linear_combination -hX) (by linear_combination -hY)
    rw [h3]
    rfl

/-- Witness generation for complete addition. -/
theorem addComplete_complete (A B : Point) :
    ∃ l α β γ δ, Gate (addComplete (cells A) (cells B) (cells (A + B)) l α β γ δ) := by
  have inv : ∀ a : Fp, ∃ b, (a = 0 → b = 0) ∧ (a ≠ 0 → a * b = 1) := fun a =>
    ⟨a⁻¹, fun h => by rw [h, inv_zero], fun h => mul_inv_cancel₀ h⟩
  rcases Point.cases_xy A with rfl | ⟨x, y, e, rfl⟩
  · rcases Point.cases_xy B with rfl | ⟨x', y', e', rfl⟩
    · exact ⟨0, 0, 0, 0, 0, by simp [addComplete, gate_cons, gate_nil]⟩
    · have hx0' := x_ne_zero_of_onCurve e'
      refine ⟨y' / x', x'⁻¹, 0, x'⁻¹, 0, ?_⟩
      rw [zero_add]
      simp only [addComplete, gate_cons, gate_nil, cells_zero, cells_ofXY, and_true]
      have h1 : x' * (y' / x') = y' := mul_div_cancel₀ _ hx0'
      have h2 : x' * x'⁻¹ = 1 := mul_inv_cancel₀ hx0'
      simp [h1, h2]
  rcases Point.cases_xy B with rfl | ⟨x', y', e', rfl⟩
  · have hx0 := x_ne_zero_of_onCurve e
    refine ⟨y / x, -x⁻¹, x⁻¹, 0, 0, ?_⟩
    rw [add_zero]
    simp only [addComplete, gate_cons, gate_nil, cells_zero, cells_ofXY, and_true]
    have h1 : x * (y / x) = y := mul_div_cancel₀ _ hx0
    have h2 : x * x⁻¹ = 1 := mul_inv_cancel₀ hx0
    simp [h1, h2]
  have hx0 := x_ne_zero_of_onCurve e
  have hx0' := x_ne_zero_of_onCurve e'
  have hy0 := y_ne_zero_of_onCurve e
  have hβ := mul_inv_cancel₀ hx0
  have hγ := mul_inv_cancel₀ hx0'
  by_cases hx : x = x'
  · subst hx
    have hy : (y - y') * (y + y') = 0 := by linear_combination e - e'
    have h2y : (2 : Fp) * y ≠ 0 := mul_ne_zero two_ne_zero_Fp hy0
    have hL : 2 * y * (3 * x ^ 2 / (2 * y)) = 3 * x ^ 2 := mul_div_cancel₀ _ h2y
    by_cases hyy : y + y' = 0
    · have : Point.ofXY x y e + Point.ofXY x y' e' = 0 := by
        rw [add_eq_zero_iff_eq_neg, Point.neg_ofXY, Point.ofXY_inj]
        exact ⟨rfl, eq_neg_of_add_eq_zero_left hyy⟩
      rw [this]
      refine ⟨3 * x ^ 2 / (2 * y), 0, x⁻¹, x⁻¹, 0, ?_⟩
      simp only [addComplete, gate_cons, gate_nil, cells_zero, cells_ofXY, and_true]
      rw [hL, add_comm y' y, hyy]
      simp [hβ]
    · obtain rfl : y = y' := sub_eq_zero.1 ((mul_eq_zero.1 hy).resolve_right hyy)
      obtain ⟨e3, h3⟩ := Point.add_tangent e hy0 (l := 3 * x ^ 2 / (2 * y)) (by rw [mul_comm]; exact hL) rfl rfl
      rw [h3]
      refine ⟨3 * x ^ 2 / (2 * y), 0, x⁻¹, x⁻¹, (y + y)⁻¹, ?_⟩
      simp only [addComplete, gate_cons, gate_nil, cells_ofXY, and_true]
      rw [hL, hβ, mul_inv_cancel₀ hyy]
      simp
  · have hd : x' - x ≠ 0 := sub_ne_zero.2 (Ne.symm hx)
    have hL : (x' - x) * ((y' - y) / (x' - x)) = y' - y := mul_div_cancel₀ _ hd
    obtain ⟨e3, h3⟩ := Point.add_chord e e' hx (l := (y' - y) / (x' - x))
      (by linear_combination -hL) rfl rfl
    rw [h3]
    refine ⟨(y' - y) / (x' - x), (x' - x)⁻¹, x⁻¹, x'⁻¹, 0, ?_⟩
    simp only [addComplete, gate_cons, gate_nil, cells_ofXY, and_true]
    rw [hL, hβ, hγ, mul_inv_cancel₀ hd]
    simp

/-! ### Windows -/

theorem rangePoly_eq_zero {n : ℕ} (hn : 0 < n) {x : Fp} : rangePoly n x = 0 ↔ ∃ k < n, x = (k : Fp) := by
  rw [rangePoly, mul_eq_zero, prod_eq_zero_iff]
  constructor
  · rintro (h | ⟨i, hi, h⟩)
    · exact ⟨0, hn, by rw [h, Nat.cast_zero]⟩
    · exact ⟨i + 1, by rw [mem_range] at hi; omega, (sub_eq_zero.1 h).symm⟩
  · rintro ⟨k, hk, h⟩
    cases k with
    | zero => exact Or.inl (by rw [h, Nat.cast_zero])
    | succ i => exact Or.inr ⟨i, by rw [mem_range]; omega, by rw [h, sub_self]⟩

theorem intCast_smul (n : ℤ) (A : Point) : ((n : ℤ) : Fq) • A = n • A := Int.cast_smul_eq_zsmul Fq n A

theorem windowTable_eq {B : Point} {n w k : ℕ} (hw : w < n) :
    windowTable B n w k = Spec.windowScalar n w k • B := by
  rw [windowTable, Spec.windowScalar]
  split
  · rw [← intCast_smul]; push_cast; rfl
  · obtain rfl : w = n - 1 := by omega
    rw [← intCast_smul]
    congr 1
    push_cast
    congr 1
    refine sum_congr rfl fun j _ => ?_
    rw [fixedBaseWindowSize, pow_succ, pow_mul]
    norm_num [mul_comm]

/-- The fixed columns interpolate the `x` coordinates. -/
theorem interpolate_eval {B : Point} {n w k : ℕ} (hk : k < 8) :
    ∑ i ∈ range fixedBaseH, (k : Fp) ^ i * lagrangeCoeffs B n w i = extractP (windowTable B n w k) := by
  have hinj : Set.InjOn (fun k : ℕ => (k : Fp)) (range fixedBaseH : Finset ℕ) := by
    intro a ha b hb h
    rw [coe_range, Set.mem_Iio] at ha hb
    have h8 : fixedBaseH = 8 := rfl
    have hp : 8 < p := by decide +kernel
    have := congrArg ZMod.val h
    simpa [ZMod.val_natCast, Nat.mod_eq_of_lt (show a < p by omega),
      Nat.mod_eq_of_lt (show b < p by omega)] using this
  have hev := Lagrange.eval_interpolate_at_node (s := range fixedBaseH) (v := fun k : ℕ => (k : Fp))
    (fun k => extractP (windowTable B n w k)) hinj (i := k) (by rw [mem_range]; exact hk)
  rw [← hev, Polynomial.eval_eq_sum_range' (n := fixedBaseH)]
  · exact sum_congr rfl fun i _ => mul_comm _ _
  · have hd := Lagrange.degree_interpolate_lt (s := range fixedBaseH) (v := fun k : ℕ => (k : Fp))
      (fun k => extractP (windowTable B n w k)) hinj
    rw [card_range] at hd
    rcases eq_or_ne (Lagrange.interpolate (range fixedBaseH) (fun k : ℕ => (k : Fp))
      (fun k => extractP (windowTable B n w k))) 0 with h0 | h0
    · rw [h0, Polynomial.natDegree_zero]; decide
    · exact (Polynomial.natDegree_lt_iff_degree_lt h0).2 hd

/-- A window whose gate holds contains the point of its digit. -/
theorem window_sound {B : Point} {n w k z u' : ℕ} (hw : w < n) (hk : k < 8)
    (hf : Spec.EntryFits (Spec.windowScalar n w k • B) z u') {u : Fp} {A : Fp × Fp}
    (h : Gate (coordsCheck (lagrangeCoeffs B n w) z k u A)) : A = cells (Spec.windowScalar n w k • B) := by
  obtain ⟨-, -, x, y, e, hA, -, hns⟩ := hf
  obtain ⟨ax, ay⟩ := A
  simp only [coordsCheck, gate_cons, gate_nil, and_true] at h
  rw [interpolate_eval hk, windowTable_eq hw, hA] at h
  obtain ⟨h1, h2, h3⟩ := h
  have h1 : x = ax := sub_eq_zero.1 h1
  subst h1
  rw [hA, cells_ofXY]
  have hy : (ay - y) * (ay + y) = 0 := by linear_combination h3 - e
  rcases mul_eq_zero.1 hy with hy | hy
  · rw [sub_eq_zero.1 hy]
  · exfalso
    refine hns u ?_
    linear_combination h2 + hy

theorem window_complete {B : Point} {n w k z u : ℕ} (hw : w < n) (hk : k < 8)
    (hf : Spec.EntryFits (Spec.windowScalar n w k • B) z u) :
    Gate (coordsCheck (lagrangeCoeffs B n w) z k u (cells (Spec.windowScalar n w k • B))) := by
  obtain ⟨-, -, x, y, e, hA, hu, -⟩ := hf
  simp only [coordsCheck, gate_cons, gate_nil, and_true]
  rw [interpolate_eval hk, windowTable_eq hw, hA, cells_ofXY]
  refine ⟨sub_self _, ?_, ?_⟩
  · linear_combination hu
  · linear_combination e

/-! ### Sums of windows -/

theorem addIncomplete_complete {A B : Point} (hA : A ≠ 0) (hB : B ≠ 0) (h1 : A ≠ B) (h2 : A ≠ -B) :
    Gate (addIncomplete (cells A) (cells B) (cells (A + B))) := by
  rcases Point.cases_xy A with rfl | ⟨x, y, e, rfl⟩
  · exact absurd rfl hA
  rcases Point.cases_xy B with rfl | ⟨x', y', e', rfl⟩
  · exact absurd rfl hB
  have hx : x ≠ x' := by
    intro hx
    subst hx
    have hy : (y - y') * (y + y') = 0 := by linear_combination e - e'
    rcases mul_eq_zero.1 hy with hy | hy
    · exact h1 (Point.ofXY_inj.2 ⟨rfl, sub_eq_zero.1 hy⟩)
    · rw [Point.neg_ofXY] at h2
      exact h2 (Point.ofXY_inj.2 ⟨rfl, eq_neg_of_add_eq_zero_left hy⟩)
  have hd : x - x' ≠ 0 := sub_ne_zero.2 hx
  obtain ⟨l, hl⟩ : ∃ l, l * (x - x') = y - y' := ⟨_, div_mul_cancel₀ _ hd⟩
  obtain ⟨e3, h3⟩ := Point.add_chord e e' hx hl rfl rfl
  rw [h3]
  rw [addIncomplete, gate_cons, gate_cons]
  simp only [cells_ofXY]
  refine ⟨?_, ?_, gate_nil⟩
  · linear_combination (l * (x - x') + y - y') * hl
  · linear_combination (2 * x + x' - l ^ 2) * hl

/-- What the first `w` windows add. -/
def partialSum (d : ℕ → ℕ) (w : ℕ) : ℕ := ∑ j ∈ range w, (d j + 2) * 8 ^ j

theorem partialSum_lt {d : ℕ → ℕ} {n : ℕ} (hd : ∀ w < n, d w < 8) : ∀ w ≤ n,
    7 * partialSum d w + 9 ≤ 9 * 8 ^ w
  | 0, _ => by simp [partialSum]
  | w + 1, hw => by
    have ih := partialSum_lt hd w (by omega)
    have hdw := hd w (by omega)
    unfold partialSum at ih ⊢
    rw [sum_range_succ, pow_succ]
    have : (d w + 2) * 8 ^ w ≤ 9 * 8 ^ w := Nat.mul_le_mul_right _ (by omega)
    omega

theorem partialSum_pos {d : ℕ → ℕ} {w : ℕ} (hw : 0 < w) : 0 < partialSum d w := by
  obtain ⟨w, rfl⟩ : ∃ v, w = v + 1 := ⟨w - 1, by omega⟩
  unfold partialSum
  rw [sum_range_succ]
  positivity

theorem nsmul_ne_zero {B : Point} (hB : B ≠ 0) {a : ℕ} (h0 : 0 < a) (hq : a < q) : a • B ≠ 0 := by
  intro h
  rw [← natCast_smul, smul_eq_zero_iff'] at h
  rcases h with h | h
  · rw [ZMod.natCast_eq_zero_iff] at h
    exact absurd (Nat.le_of_dvd h0 h) (by omega)
  · exact hB h

/-- The additions of the windows before the last meet no exceptional case of incomplete addition. -/
theorem no_exception {B : Point} (hB : B ≠ 0) {d : ℕ → ℕ} {n : ℕ} (hn : n ≤ 85) (hd : ∀ w < n, d w < 8)
    {w : ℕ} (h0 : 0 < w) (hw : w + 1 < n) :
    ((d w + 2) * 8 ^ w) • B ≠ 0 ∧ partialSum d w • B ≠ 0 ∧
      ((d w + 2) * 8 ^ w) • B ≠ partialSum d w • B ∧ ((d w + 2) * 8 ^ w) • B ≠ -(partialSum d w • B) := by
  have h1 := partialSum_lt hd w (by omega)
  have h2 := partialSum_pos (d := d) h0
  have h3 : (d w + 2) * 8 ^ w ≤ 9 * 8 ^ w := Nat.mul_le_mul_right _ (by have := hd w (by omega); omega)
  have h4 : 2 * 8 ^ w ≤ (d w + 2) * 8 ^ w := Nat.mul_le_mul_right _ (by omega)
  have h5 : 8 ^ w ≤ 8 ^ 83 := Nat.pow_le_pow_right (by norm_num) (by omega)
  have h6 : 11 * 8 ^ 83 < q := by decide +kernel
  generalize (d w + 2) * 8 ^ w = T at *
  generalize partialSum d w = S at *
  generalize 8 ^ w = E at *
  generalize 8 ^ 83 = M at *
  refine ⟨nsmul_ne_zero hB (by omega) (by omega), nsmul_ne_zero hB h2 (by omega), ?_, ?_⟩
  · intro h
    refine nsmul_ne_zero hB (a := T - S) (by omega) (by omega) ?_
    have e : T • B = (T - S) • B + S • B := by rw [← add_nsmul]; congr 1; omega
    rw [e] at h
    exact add_eq_right.1 h
  · intro h
    refine nsmul_ne_zero hB (a := T + S) (by omega) (by omega) ?_
    rw [add_nsmul, h, neg_add_cancel]

theorem windowScalar_lt {n w k : ℕ} (hw : w + 1 < n) (B : Point) :
    Spec.windowScalar n w k • B = ((k + 2) * 8 ^ w) • B := by
  rw [Spec.windowScalar, if_pos hw, ← natCast_zsmul]
  push_cast
  rfl

/-- The last window takes back what the others added too much. -/
theorem last_window {n : ℕ} (hn : 0 < n) (d : ℕ → ℕ) (B : Point) :
    Spec.windowScalar n (n - 1) (d (n - 1)) • B + partialSum d (n - 1) • B =
      (∑ w ∈ range n, d w * 8 ^ w) • B := by
  obtain ⟨m, rfl⟩ : ∃ m, n = m + 1 := ⟨n - 1, by omega⟩
  rw [Nat.add_sub_cancel, Spec.windowScalar, if_neg (by omega), ← natCast_zsmul _ (partialSum d m),
    ← natCast_zsmul, ← add_zsmul]
  congr 1
  rw [partialSum, sum_range_succ]
  push_cast
  simp only [add_mul, sum_add_distrib]
  ring

theorem base_ne_zero {B : Point} {n : ℕ} {z : List ℕ} {u : List (List ℕ)} (hn : 2 ≤ n)
    (hT : Spec.TablesFit B n z u) : B ≠ 0 := by
  rintro rfl
  obtain ⟨-, -, x, y, e, h, -⟩ := (hT.2.2 0 (by omega)).2 0 (by omega)
  rw [zsmul_zero] at h
  exact Point.ofXY_ne_zero _ _ _ h.symm

theorem mulWindows_sound {F : FixedBase} {n : ℕ} (hn : 2 ≤ n) (hn' : n ≤ 85)
    (hT : Spec.TablesFit F.generator n F.z F.u) {window : ℕ → Fp} {d : ℕ → ℕ} (hd : ∀ w < n, d w < 8)
    (hwin : ∀ w < n, window w = d w) {c : WindowCells} {out : Fp × Fp}
    (h : MulWindows F n window c out) : out = cells ((∑ w ∈ range n, d w * 8 ^ w) • F.generator) := by
  have hB := base_ne_zero hn hT
  obtain ⟨h1, h2, h3, l, α, β, γ, δ, h4⟩ := h
  have hp : ∀ w < n, c.point w = cells (Spec.windowScalar n w (d w) • F.generator) := by
    intro w hw
    have := h1 w hw
    rw [hwin w hw] at this
    exact window_sound hw (hd w hw) ((hT.2.2 w hw).2 _ (hd w hw)) this
  have ha : ∀ w, w + 1 < n → c.acc w = cells (partialSum d (w + 1) • F.generator) := by
    intro w
    induction w with
    | zero =>
      intro hw
      rw [h2, hp 0 (by omega), windowScalar_lt hw]
      simp [partialSum]
    | succ w ih =>
      intro hw
      have g := h3 (w + 1) (by omega) hw
      rw [Nat.add_sub_cancel, ih (by omega), hp (w + 1) (by omega), windowScalar_lt hw] at g
      obtain ⟨e1, e2, e3, e4⟩ := no_exception hB hn' hd (w := w + 1) (by omega) hw
      rw [addIncomplete_sound e1 e2 e3 e4 g]
      congr 1
      rw [partialSum, partialSum, sum_range_succ _ (w + 1), add_nsmul, add_comm]
  rw [hp (n - 1) (by omega), ha (n - 2) (by omega), show n - 2 + 1 = n - 1 by omega] at h4
  rw [addComplete_sound h4, last_window (by omega)]

/-- The cells that witness generation assigns to the windows. -/
noncomputable def assignWindows (F : FixedBase) (n : ℕ) (d : ℕ → ℕ) : WindowCells where
  point w := cells (windowTable F.generator n w (d w))
  u w := (((F.u.getD w []).getD (d w) 0 : ℕ) : Fp)
  acc w := cells (partialSum d (w + 1) • F.generator)

theorem mulWindows_complete {F : FixedBase} {n : ℕ} (hn : 2 ≤ n) (hn' : n ≤ 85)
    (hT : Spec.TablesFit F.generator n F.z F.u) {window : ℕ → Fp} {d : ℕ → ℕ} (hd : ∀ w < n, d w < 8)
    (hwin : ∀ w < n, window w = d w) :
    MulWindows F n window (assignWindows F n d)
      (cells ((∑ w ∈ range n, d w * 8 ^ w) • F.generator)) := by
  have hB := base_ne_zero hn hT
  refine ⟨?_, ?_, ?_, ?_⟩
  · intro w hw
    rw [hwin w hw]
    show Gate (coordsCheck _ _ _ _ (cells (windowTable F.generator n w (d w))))
    rw [windowTable_eq hw]
    exact window_complete hw (hd w hw) ((hT.2.2 w hw).2 _ (hd w hw))
  · show cells _ = cells _
    rw [windowTable_eq (by omega), windowScalar_lt (by omega)]
    simp [partialSum]
  · intro w h0 hw
    obtain ⟨e1, e2, e3, e4⟩ := no_exception hB hn' hd h0 hw
    have g := addIncomplete_complete e1 e2 e3 e4
    show Gate (addIncomplete (cells (windowTable F.generator n w (d w)))
      (cells (partialSum d (w - 1 + 1) • F.generator)) (cells (partialSum d (w + 1) • F.generator)))
    rw [windowTable_eq (by omega), windowScalar_lt hw, show w - 1 + 1 = w by omega]
    convert g using 3
    rw [partialSum, partialSum, sum_range_succ, add_nsmul, add_comm]
  · show ∃ l α β γ δ, Gate (addComplete (cells (windowTable F.generator n (n - 1) (d (n - 1))))
      (cells (partialSum d (n - 2 + 1) • F.generator)) _ l α β γ δ)
    rw [windowTable_eq (by omega), show n - 2 + 1 = n - 1 by omega, ← last_window (by omega)]
    exact addComplete_complete _ _

end Orchard.Halo2
