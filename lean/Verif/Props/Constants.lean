import Verif.Model.Constants

/-!
# C58, C59: the Pallas group and the hard-coded constants
-/

namespace Orchard

open Constants

/-- **C58.** The Pallas curve has exactly `q` points and `q` is prime. -/
theorem C58_pallas_order : q.Prime ∧ Nat.card Point = q := ⟨prime_q, card_Point⟩

/-- **C58.** No affine point has `x = 0` (so `0` is free to encode the identity), and no affine
point has `y = 0` (so a point and its negation are told apart by the parity of `y`). -/
theorem C58_no_zero_coordinates (x y : Fp) (h : y ^ 2 = x ^ 3 + 5) : x ≠ 0 ∧ y ≠ 0 :=
  ⟨x_ne_zero_of_onCurve h, y_ne_zero_of_onCurve h⟩

/-- Concrete point for the hypothesis of `C58_no_zero_coordinates`: `(-1, 2)`. -/
example : (2 : Fp) ^ 2 = (-1) ^ 3 + 5 := by norm_num

/-- **C59.** Every hard-coded generator table decodes, without tripping any of the three
`unwrap`s, to a point of the curve other than the identity. -/
theorem C59_generators_decode :
    pointFromTable spendAuthGBytes = some spendAuthG ∧
    pointFromTable nullifierKBytes = some nullifierK ∧
    pointFromTable valueCommitVBytes = some valueCommitV ∧
    pointFromTable valueCommitRBytes = some valueCommitR ∧
    pointFromTable noteCommitRBytes = some noteCommitR ∧
    pointFromTable commitIvkRBytes = some commitIvkR ∧
    pointFromTable qNoteCommitBytes = some qNoteCommit ∧
    pointFromTable qCommitIvkBytes = some qCommitIvk ∧
    pointFromTable qMerkleCrhBytes = some qMerkleCrh := by
  have key : ∀ (t : Bytes 32 × Bytes 32) (x y : Fp) (h : y ^ 2 = x ^ 3 + 5),
      t.1.toNat = x.val → t.2.toNat = y.val → pointFromTable t = some (Point.ofXY x y h) := by
    intro t x y h hx hy
    have h1 : Fp.fromRepr t.1 = some x :=
      Fp.fromRepr_eq_some_iff.2 (Bytes.toNat_injective (hx.trans (Fp.toNat_toRepr x).symm))
    have h2 : Fp.fromRepr t.2 = some y :=
      Fp.fromRepr_eq_some_iff.2 (Bytes.toNat_injective (hy.trans (Fp.toNat_toRepr y).symm))
    unfold pointFromTable
    rw [h1, h2]
    exact dif_pos h
  refine ⟨?_, ?_, ?_, ?_, ?_, ?_, ?_, ?_, ?_⟩ <;>
    exact key _ _ _ _ (by decide +kernel) (by decide +kernel)

/-- **C59.** `T_P`, `T_Q` are the offsets of the moduli from `2^254`, `INV_TWO_POW_K` is the
canonical encoding of the inverse of `2^10`, and `C` is the largest exponent with
`2^C ≤ (q-1)/2`. -/
theorem C59_constants :
    p = 2 ^ 254 + T_P ∧ q = 2 ^ 254 + T_Q ∧
    (∃ i : Fp, Fp.fromRepr invTwoPowK = some i ∧ i * 2 ^ K = 1) ∧
    (2 ^ C ≤ (q - 1) / 2 ∧ ∀ c, 2 ^ c ≤ (q - 1) / 2 → c ≤ C) := by
  refine ⟨by decide +kernel, by decide +kernel, ?_, by decide +kernel, ?_⟩
  · refine ⟨(invTwoPowK.toNat : Fp), ?_, ?_⟩
    · unfold Fp.fromRepr; rw [if_pos (by decide +kernel)]
    · decide +kernel
  · intro c hc
    by_contra hlt
    have h1 : 2 ^ (C + 1) ≤ 2 ^ c := Nat.pow_le_pow_right (by norm_num) (by omega)
    have h2 : (q - 1) / 2 < 2 ^ (C + 1) := by decide +kernel
    omega

end Orchard
