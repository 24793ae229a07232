import Verif.Lemmas.MulFixedScalars

/-!
# C74, C75: the tables for fixed-base multiplication, and multiplication with them

The specification of the tables is `Verif/Spec/FixedBase.lean`.
-/

namespace Orchard

open Halo2 Finset

/-- **C74.** The tables of all six bases are right in every window and digit: the lengths are those the
circuit expects, every entry of `U` is the canonical encoding of a field element, and each pair of entries
fits the point its window and digit stand for. -/
theorem C74_tables :
    (∀ b : FixedBasesFull, Spec.TablesFit b.point.generator 85 b.point.z b.point.u) ∧
    Spec.TablesFit nullifierKPoint.generator 85 nullifierKPoint.z nullifierKPoint.u ∧
    Spec.TablesFit valueCommitVPoint.generator 22 valueCommitVPoint.z valueCommitVPoint.u := by
  refine ⟨fun b => ?_, FixedBase.fit_nullifierK, FixedBase.fit_valueCommitV⟩
  cases b
  · exact FixedBase.fit_commitIvkR
  · exact FixedBase.fit_noteCommitR
  · exact FixedBase.fit_valueCommitR
  · exact FixedBase.fit_spendAuthG

/-- **C74.** Each base of the tables is the generator of the protocol it is named after, and the numbers of
windows of the crate are enough for any scalar, base field element and value. -/
theorem C74_bases_and_sizes :
    FixedBasesFull.commitIvkR.point.generator = Constants.commitIvkR ∧
    FixedBasesFull.noteCommitR.point.generator = Constants.noteCommitR ∧
    FixedBasesFull.valueCommitR.point.generator = Constants.valueCommitR ∧
    FixedBasesFull.spendAuthG.point.generator = Constants.spendAuthG ∧
    nullifierKPoint.generator = Constants.nullifierK ∧
    valueCommitVPoint.generator = Constants.valueCommitV ∧
    numWindows = 85 ∧ numWindowsShort = 22 ∧ q ≤ 8 ^ numWindows ∧ p ≤ 8 ^ numWindows ∧
    2 ^ 64 ≤ 8 ^ numWindowsShort :=
  ⟨rfl, rfl, rfl, rfl, rfl, rfl, rfl, rfl, by decide +kernel, by decide +kernel, by decide +kernel⟩

/-- **C74.** What the tables are for: whoever knows the `x` coordinate of the point of a window, and can
only use points of the curve for which `y + z` is a square, has no choice but that point. -/
theorem C74_no_sign_choice {A : Point} {z u : ℕ} (h : Spec.EntryFits A z u) {x y v : Fp}
    (hx : x = extractP A) (hc : y ^ 2 = x ^ 3 + 5) (hv : v ^ 2 = y + z) : A = Point.ofXY x y hc := by
  obtain ⟨-, -, x', y', e, rfl, -, hns⟩ := h
  obtain rfl : x = x' := hx
  rw [Point.ofXY_inj]
  refine ⟨rfl, ?_⟩
  have hy : (y' - y) * (y' + y) = 0 := by linear_combination e - hc
  rcases mul_eq_zero.1 hy with hy | hy
  · exact sub_eq_zero.1 hy
  · exact absurd (by linear_combination hv + hy) (hns v)

/-- A case for `C74_no_sign_choice`: window 3, digit 5 of the spend authorisation base. -/
example : ∃ (z u : ℕ) (x y : Fp) (_ : y ^ 2 = x ^ 3 + 5) (v : Fp),
    Spec.EntryFits (Spec.windowScalar 85 3 5 • Constants.spendAuthG) z u ∧
    x = extractP (Spec.windowScalar 85 3 5 • Constants.spendAuthG) ∧ v ^ 2 = y + z := by
  have h := ((C74_tables.1 .spendAuthG).2.2 3 (by norm_num)).2 5 (by norm_num)
  obtain ⟨h1, h2, x, y, e, hA, hu, hns⟩ := id h
  exact ⟨_, _, x, y, e, _, h, (congrArg extractP hA).symm, hu⟩

/-- **C75.** Multiplication by a full-width scalar, for all four bases, windows and outputs: the gates can be
satisfied exactly if all windows are three bits and the output is the multiple of the base by the number
the windows spell. -/
theorem C75_full (b : FixedBasesFull) (window : ℕ → Fp) (out : Fp × Fp) :
    (∃ c, MulFixedGates b.point window c out) ↔ (∀ w < 85, (window w).val < 8) ∧
      ∃ A, out = cells A ∧
        MulFixed b.point.generator (∑ w ∈ range 85, ((window w).val : Fq) * 8 ^ w) A :=
  mulFixedGates_iff (C74_tables.1 b)

/-- **C75.** Every scalar is spelled by some windows. -/
theorem C75_every_scalar (s : Fq) : ∃ window : ℕ → Fp, (∀ w < 85, (window w).val < 8) ∧
    ∑ w ∈ range 85, ((window w).val : Fq) * 8 ^ w = s := by
  have hp8 : 8 ≤ p := by decide +kernel
  have hv : ∀ w, (((s.val / 8 ^ w % 8 : ℕ) : Fp)).val = s.val / 8 ^ w % 8 := fun w =>
    ZMod.val_natCast_of_lt (lt_of_lt_of_le (Nat.mod_lt _ (by norm_num)) hp8)
  refine ⟨fun w => ((s.val / 8 ^ w % 8 : ℕ) : Fp), fun w _ => ?_, ?_⟩
  · rw [hv]; exact Nat.mod_lt _ (by norm_num)
  · have h := sum_digits s.val 85
    rw [Nat.mod_eq_of_lt ((ZMod.val_lt s).trans (by decide +kernel))] at h
    have h' := congrArg (Nat.cast : ℕ → Fq) h
    rw [ZMod.natCast_zmod_val] at h'
    push_cast at h'
    refine Eq.trans (sum_congr rfl fun w _ => ?_) h'
    rw [hv]

/-- **C75.** Multiplication of the value base by a short signed scalar: the gates can be satisfied exactly
if the magnitude is below `2^64`, the sign is `1` or `-1`, and the output is that multiple of the base. -/
theorem C75_short (magnitude sign : Fp) (out : Fp × Fp) :
    (∃ z c mid, MulFixedShortGates valueCommitVPoint magnitude sign z c mid out) ↔
      ∃ A, out = cells A ∧ MulFixedShort Constants.valueCommitV magnitude sign A :=
  mulFixedShortGates_iff C74_tables.2.2

/-- **C75.** Multiplication of the nullifier base by a base field element: the gates can be satisfied
exactly if the output is the multiple of the base by the canonical integer of the element. -/
theorem C75_base (scalar : Fp) (out : Fp × Fp) :
    (∃ z k c, MulFixedBaseGates nullifierKPoint scalar z k c out) ↔
      ∃ A, out = cells A ∧ MulFixedBase Constants.nullifierK scalar A :=
  mulFixedBaseGates_iff C74_tables.2.1

/-- **C75.** Complete addition: for any two points the gate can be satisfied exactly if the output is their
sum. -/
theorem C75_add (A B : Point) (out : Fp × Fp) :
    (∃ l α β γ δ, Gate (addComplete (cells A) (cells B) out l α β γ δ)) ↔ out = cells (A + B) := by
  constructor
  · rintro ⟨l, α, β, γ, δ, h⟩
    exact addComplete_sound h
  · rintro rfl
    exact addComplete_complete A B

/-- **C75.** Two points with the same cells are equal, so the outputs above are determined. -/
theorem C75_output_unique (A B : Point) (h : cells A = cells B) : A = B := cells_injective h

/-- A case for the right-hand sides of the above: windows that spell `1 + 8 + ... + 8^84`, the magnitude
`2^64 - 1` with sign `-1`, and the element `-1`. -/
example :
    (∃ A, MulFixed Constants.spendAuthG (∑ w ∈ range 85, ((1 : Fp).val : Fq) * 8 ^ w) A) ∧
    (∃ A, MulFixedShort Constants.valueCommitV ((2 ^ 64 - 1 : ℕ) : Fp) (-1) A) ∧
    ∃ A, MulFixedBase Constants.nullifierK (-1) A := by
  refine ⟨⟨_, rfl⟩, ⟨_, ?_, Or.inr ⟨rfl, rfl⟩⟩, ⟨_, rfl⟩⟩
  rw [ZMod.val_natCast_of_lt (by decide +kernel)]
  norm_num

end Orchard
