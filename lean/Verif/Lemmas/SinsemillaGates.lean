import Verif.Model.Gadgets
import Verif.Lemmas.MulFixed
import Verif.Lemmas.Sinsemilla

/-!
# Double-and-add steps: what the gates of Sinsemilla and of variable-base multiplication say
-/

namespace Orchard.Halo2

theorem two_ne_zero_Fp : (2 : Fp) ≠ 0 := by decide +kernel

theorem half_mul_two : half * 2 = 1 := inv_mul_cancel₀ two_ne_zero_Fp

theorem twice_half (a : Fp) : a * half * 2 = a := by rw [mul_assoc, half_mul_two, mul_one]

/-- A point from its cells. -/
theorem cases_cells {A : Point} (hA : A ≠ 0) :
    ∃ x y h, A = Point.ofXY x y h ∧ cells A = (x, y) := by
  rcases Point.cases_xy A with rfl | ⟨x, y, h, rfl⟩
  · exact absurd rfl hA
  · exact ⟨x, y, h, rfl, rfl⟩

/-- Two points with the same `x` are equal or opposite. -/
theorem ne_x {x y x' y' : Fp} {h : y ^ 2 = x ^ 3 + 5} {h' : y' ^ 2 = x' ^ 3 + 5}
    (h1 : Point.ofXY x y h ≠ Point.ofXY x' y' h') (h2 : Point.ofXY x y h ≠ -Point.ofXY x' y' h') : x ≠ x' := by
  intro hx
  subst hx
  have hy : (y - y') * (y + y') = 0 := by linear_combination h - h'
  rcases mul_eq_zero.1 hy with hy | hy
  · exact h1 (Point.ofXY_inj.2 ⟨rfl, sub_eq_zero.1 hy⟩)
  · rw [Point.neg_ofXY] at h2
    exact h2 (Point.ofXY_inj.2 ⟨rfl, eq_neg_of_add_eq_zero_left hy⟩)

/-- A double-and-add step `(A + S) + A` without exceptional case, with the slopes as witnesses. -/
theorem double_and_add {A S : Point} (hA : A ≠ 0) (hS : S ≠ 0) (h1 : A ≠ S) (h2 : A ≠ -S)
    (h3 : A + S ≠ -A) {xA yA xS yS l1 l2 x' y' xR : Fp} (cA : cells A = (xA, yA)) (cS : cells S = (xS, yS))
    (hR : xR = l1 ^ 2 - xA - xS) (e1 : l1 * (xA - xS) = yA - yS) (e2 : (l1 + l2) * (xA - xR) = 2 * yA)
    (e3 : l2 ^ 2 = x' + xR + xA) (e4 : l2 * (xA - x') = yA + y') : cells (A + S + A) = (x', y') := by
  obtain ⟨x, y, h, rfl, c⟩ := cases_cells hA
  rw [c, Prod.mk.injEq] at cA
  obtain ⟨rfl, rfl⟩ := cA
  obtain ⟨u, v, g, rfl, c'⟩ := cases_cells hS
  rw [c', Prod.mk.injEq] at cS
  obtain ⟨rfl, rfl⟩ := cS
  obtain ⟨k, hk⟩ := Point.add_chord (l := l1) h g (ne_x h1 h2) e1 hR rfl
  have hRA : Point.ofXY x y h + Point.ofXY u v g ≠ Point.ofXY x y h := by
    intro he
    exact hS (by simpa using he)
  rw [hk] at h3 hRA ⊢
  obtain ⟨k', hk'⟩ := Point.add_chord (l := l2) (x₃ := x') (y₃ := y') k h (ne_x hRA h3)
    (by linear_combination -e2) (by linear_combination -e3)
    (by linear_combination e2 - e4)
  rw [hk']
  rfl

/-! ### Sinsemilla -/

theorem incompleteAdd_none_or (A B : Point) : incompleteAdd A B = none ∨
    (incompleteAdd A B = some (A + B) ∧ A ≠ 0 ∧ B ≠ 0 ∧ A ≠ B ∧ A ≠ -B) := by
  unfold incompleteAdd
  split_ifs with h
  · exact Or.inl rfl
  · push Not at h
    exact Or.inr ⟨rfl, h⟩

/-- What is known about the cells of a row of the Sinsemilla chip on which `q_s1` is on: a table entry, and
the two equations, with `y'` the `y` coordinate of the next row. -/
structure StepHolds (P : Prims) (r : HashRow) (y : Fp) (w : ℕ) (x' y' : Fp) : Prop where
  twice : r.twiceYA = 2 * y
  xP : r.xP = extractP (P.sinsemillaS w)
  yP : y - r.lambda1 * (r.xA - r.xP) = cellY (P.sinsemillaS w)
  addX : r.lambda2 ^ 2 = x' + r.xR + r.xA
  addY : r.lambda2 * (r.xA - x') = y + y'

theorem step_sound {P : Prims} {r : HashRow} {y : Fp} {w : ℕ} {x' y' : Fp} (h : StepHolds P r y w x' y')
    {A : Point} (hA : cells A = (r.xA, y)) :
    sinsemillaStep P A w = none ∨ ∃ B, sinsemillaStep P A w = some B ∧ cells B = (x', y') := by
  unfold sinsemillaStep
  rcases incompleteAdd_none_or A (P.sinsemillaS w) with h1 | ⟨h1, a1, a2, a3, a4⟩
  · rw [h1]; exact Or.inl rfl
  rw [h1, Option.bind_some]
  rcases incompleteAdd_none_or (A + P.sinsemillaS w) A with h2 | ⟨h2, -, -, -, b4⟩
  · exact Or.inl h2
  · refine Or.inr ⟨_, h2, ?_⟩
    refine double_and_add (l1 := r.lambda1) (l2 := r.lambda2) a1 a2 a3 a4 b4 hA
      (xS := r.xP) (yS := y - r.lambda1 * (r.xA - r.xP)) (Prod.ext h.xP.symm h.yP.symm) rfl (by ring) h.twice
      h.addX h.addY

/-- All rows of a hash. -/
theorem rows_sound {P : Prims} {r : ℕ → HashRow} {y : ℕ → Fp} {w : ℕ → ℕ} {Q : Point}
    (h0 : cells Q = ((r 0).xA, y 0)) : ∀ {n : ℕ},
    (∀ i < n, StepHolds P (r i) (y i) (w i) (r (i + 1)).xA (y (i + 1))) →
      ((List.range n).map w).foldlM (sinsemillaStep P) Q = none ∨
      ∃ A, ((List.range n).map w).foldlM (sinsemillaStep P) Q = some A ∧ cells A = ((r n).xA, y n) := by
  intro n
  induction n with
  | zero => exact fun _ => Or.inr ⟨Q, rfl, h0⟩
  | succ n ih =>
    intro h
    rw [List.range_succ, List.map_append, List.foldlM_append]
    rcases ih fun i hi => h i (by omega) with hn | ⟨A, hA, hc⟩
    · rw [hn]; exact Or.inl rfl
    · rw [hA]
      have := step_sound (h n (by omega)) hc
      simpa using this

end Orchard.Halo2
