import Verif.Model.Regions
import Verif.Lemmas.TableGates
import Verif.Lemmas.MulFixed

/-!
# The Poseidon gadget, from its gates
-/

namespace Orchard.Regions

open Halo2 Layout Pinned Spec

variable {T : Table} {F : FixedTable}

theorem fp_mod_one {n : ℕ} (h : n % p = 1) : ((n : ℕ) : Fp) = 1 := by
  rw [← ZMod.natCast_mod, h, Nat.cast_one]

theorem fp_mod_zero {n : ℕ} (h : n % p = 0) : ((n : ℕ) : Fp) = 0 := by
  rw [← ZMod.natCast_mod, h, Nat.cast_zero]

open Poseidon in
/-- The matrix of the partial rounds gate is the inverse of the MDS matrix. -/
theorem mds_mdsInv (s : Fp × Fp × Fp) :
    mds (mdsInvRow mdsInv.1 s, mdsInvRow mdsInv.2.1 s, mdsInvRow mdsInv.2.2 s) = s := by
  have e00 := fp_mod_one (n := m00 * mdsInv.1.1 + m01 * mdsInv.2.1.1 + m02 * mdsInv.2.2.1) (by decide +kernel)
  have e01 := fp_mod_zero (n := m00 * mdsInv.1.2.1 + m01 * mdsInv.2.1.2.1 + m02 * mdsInv.2.2.2.1) (by decide +kernel)
  have e02 := fp_mod_zero (n := m00 * mdsInv.1.2.2 + m01 * mdsInv.2.1.2.2 + m02 * mdsInv.2.2.2.2) (by decide +kernel)
  have e10 := fp_mod_zero (n := m10 * mdsInv.1.1 + m11 * mdsInv.2.1.1 + m12 * mdsInv.2.2.1) (by decide +kernel)
  have e11 := fp_mod_one (n := m10 * mdsInv.1.2.1 + m11 * mdsInv.2.1.2.1 + m12 * mdsInv.2.2.2.1) (by decide +kernel)
  have e12 := fp_mod_zero (n := m10 * mdsInv.1.2.2 + m11 * mdsInv.2.1.2.2 + m12 * mdsInv.2.2.2.2) (by decide +kernel)
  have e20 := fp_mod_zero (n := m20 * mdsInv.1.1 + m21 * mdsInv.2.1.1 + m22 * mdsInv.2.2.1) (by decide +kernel)
  have e21 := fp_mod_zero (n := m20 * mdsInv.1.2.1 + m21 * mdsInv.2.1.2.1 + m22 * mdsInv.2.2.2.1) (by decide +kernel)
  have e22 := fp_mod_one (n := m20 * mdsInv.1.2.2 + m21 * mdsInv.2.1.2.2 + m22 * mdsInv.2.2.2.2) (by decide +kernel)
  generalize mdsInv = M at *
  simp only [Nat.cast_add, Nat.cast_mul] at *
  unfold mds mdsInvRow
  generalize ((m00 : ℕ) : Fp) = a00 at *
  generalize ((m01 : ℕ) : Fp) = a01 at *
  generalize ((m02 : ℕ) : Fp) = a02 at *
  generalize ((m10 : ℕ) : Fp) = a10 at *
  generalize ((m11 : ℕ) : Fp) = a11 at *
  generalize ((m12 : ℕ) : Fp) = a12 at *
  generalize ((m20 : ℕ) : Fp) = a20 at *
  generalize ((m21 : ℕ) : Fp) = a21 at *
  generalize ((m22 : ℕ) : Fp) = a22 at *
  obtain ⟨x, y, z⟩ := s
  refine Prod.ext ?_ (Prod.ext ?_ ?_)
  · linear_combination x * e00 + y * e01 + z * e02
  · linear_combination x * e10 + y * e11 + z * e12
  · linear_combination x * e20 + y * e21 + z * e22

theorem poseidonState_cur {row : ℕ} (h : row < numRows) : poseidonState (rowAt T F row) 0 = stateAt T row := by
  have e := fun c => rowAt_cur (T := T) (F := F) h c
  simp only [Row.cur] at e
  simp only [poseidonState, stateAt, e]

theorem poseidonState_next {row : ℕ} (h : row + 1 < numRows) :
    poseidonState (rowAt T F row) 1 = stateAt T (row + 1) := by
  have e := fun c => rowAt_next (T := T) (F := F) h c
  simp only [Row.next] at e
  simp only [poseidonState, stateAt, e]

theorem poseidonState_prev {row : ℕ} (h : row + 1 < numRows) :
    poseidonState (rowAt T F (row + 1)) (-1) = stateAt T row := by
  have e := fun c => rowAt_prev (T := T) (F := F) h c
  simp only [Row.prev] at e
  simp only [poseidonState, stateAt, e]

theorem rcA_at {row : ℕ} (h : row < numRows) : ((rowAt T F row).lagrange 2, (rowAt T F row).lagrange 3,
    (rowAt T F row).lagrange 4) = rcA F row := by
  simp only [Row.lagrange, rowAt_fixed T F h, rcA]

theorem rcB_at {row : ℕ} (h : row < numRows) : ((rowAt T F row).lagrange 5, (rowAt T F row).lagrange 6,
    (rowAt T F row).lagrange 7) = rcB F row := by
  simp only [Row.lagrange, rowAt_fixed T F h, rcB]

/-- The constants of a round, as numbers. -/
def rc (r : ℕ) : ℕ × ℕ × ℕ := Poseidon.roundConstants.getD r (0, 0, 0)

theorem fullRound_at (hT : GatesHold T F) {row r : ℕ} (hr : row + 1 < numRows) (h : On F ⟨21, 4, 4⟩ row)
    (hrc : rcA F row = roundConstant r) : stateAt T (row + 1) = Poseidon.fullRound (stateAt T row) (rc r) := by
  have hg := poseidon_at hT (row := row) (by omega) 0 rfl rfl h
  rw [poseidonState_cur (by omega), poseidonState_next hr, rcA_at (by omega), hrc] at hg
  simp only [fullRoundGate, stateDiff, gate_cons] at hg
  obtain ⟨h1, h2, h3, -⟩ := hg
  exact (Prod.ext (sub_eq_zero.1 h1) (Prod.ext (sub_eq_zero.1 h2) (sub_eq_zero.1 h3))).symm

theorem partialRounds_at (hT : GatesHold T F) {row r : ℕ} (hr : row + 1 < numRows) (h : On F ⟨24, 1, 4⟩ row)
    (hA : rcA F row = roundConstant r) (hB : rcB F row = roundConstant (r + 1)) :
    stateAt T (row + 1) =
      Poseidon.partialRound (Poseidon.partialRound (stateAt T row) (rc r)) (rc (r + 1)) := by
  have hg := poseidon_at hT (row := row) (by omega) 1 rfl rfl h
  rw [poseidonState_cur (by omega), poseidonState_next hr, rcA_at (by omega), rcB_at (by omega), hA, hB] at hg
  simp only [partialRoundsGate, gate_cons] at hg
  obtain ⟨h0, h1, h2, h3, -⟩ := hg
  rw [← sub_eq_zero.1 h0] at h1 h2 h3
  rw [← mds_mdsInv (stateAt T (row + 1)), ← sub_eq_zero.1 h1, ← sub_eq_zero.1 h2, ← sub_eq_zero.1 h3]
  rfl

theorem foldl_rows {α β : Type} (f : α → β → α) (st : ℕ → α) : ∀ (l : List β) (s : ℕ),
    (∀ i b, l[i]? = some b → st (s + i + 1) = f (st (s + i)) b) → st (s + l.length) = l.foldl f (st s)
  | [], _, _ => rfl
  | b :: l, s, h => by
    have h0 := h 0 b rfl
    have ih := foldl_rows f st l (s + 1) fun i c hc => by
      have := h (i + 1) c (by simpa using hc)
      rw [show s + 1 + i + 1 = s + (i + 1) + 1 by omega, show s + 1 + i = s + (i + 1) by omega]
      exact this
    rw [List.foldl_cons, List.length_cons, show s + (l.length + 1) = s + 1 + l.length by omega, ih]
    simp only [Nat.add_zero] at h0
    rw [h0]

theorem foldl_pairs {α β : Type} (f : α → β → α) (st : ℕ → α) (g : ℕ → β) : ∀ (n s r : ℕ),
    (∀ i < n, st (s + i + 1) = f (f (st (s + i)) (g (r + 2 * i))) (g (r + 2 * i + 1))) →
      st (s + n) = ((List.range' r (2 * n)).map g).foldl f (st s)
  | 0, _, _, _ => rfl
  | n + 1, s, r, h => by
    have h0 := h 0 (by omega)
    have ih := foldl_pairs f st g n (s + 1) (r + 2) fun i hi => by
      have := h (i + 1) (by omega)
      rw [show s + 1 + i + 1 = s + (i + 1) + 1 by omega, show s + 1 + i = s + (i + 1) by omega,
        show r + 2 + 2 * i = r + 2 * (i + 1) by omega]
      exact this
    rw [show 2 * (n + 1) = 2 * n + 1 + 1 by omega, List.range'_succ, List.range'_succ, List.map_cons,
      List.map_cons, List.foldl_cons, List.foldl_cons, show s + (n + 1) = s + 1 + n by omega, ih]
    simp only [Nat.add_zero, Nat.mul_zero] at h0
    rw [h0]

theorem rc_first : (List.range' 0 4).map rc = Poseidon.roundConstants.take 4 := by decide +kernel
theorem rc_partial : (List.range' 4 56).map rc = (Poseidon.roundConstants.drop 4).take 56 := by decide +kernel
theorem rc_last : (List.range' 60 4).map rc = Poseidon.roundConstants.drop 60 := by decide +kernel

theorem permute_sound (hT : GatesHold T F) {s0 s : ℕ} {x y : Fp} (h : PoseidonRegion T F s0 s x y) :
    stateAt T (s + 36) = Poseidon.permute (stateAt T s) := by
  have hf := h.fits
  have hu := usable_le
  have full : ∀ n s' r, (∀ i < n, s' + i + 1 < numRows ∧ On F ⟨21, 4, 4⟩ (s' + i) ∧
      rcA F (s' + i) = roundConstant (r + i)) →
      stateAt T (s' + n) = ((List.range' r n).map rc).foldl Poseidon.fullRound (stateAt T s') := by
    intro n s' r hn
    have := foldl_rows Poseidon.fullRound (stateAt T) ((List.range' r n).map rc) s' fun i b hb => by
      rw [List.getElem?_map, Option.map_eq_some_iff] at hb
      obtain ⟨a, ha, rfl⟩ := hb
      obtain ⟨hi, e⟩ := List.getElem?_eq_some_iff.1 ha
      rw [List.length_range'] at hi
      rw [List.getElem_range', one_mul] at e
      subst e
      exact fullRound_at hT (hn i hi).1 (hn i hi).2.1 (hn i hi).2.2
    rwa [List.length_map, List.length_range'] at this
  have e1 := full 4 s 0 fun i hi => ⟨by omega, (h.firstOn i hi).1, by rw [zero_add]; exact (h.firstOn i hi).2⟩
  have e3 := full 4 (s + 32) 60 fun i hi => ⟨by omega, (h.lastOn i hi).1, (h.lastOn i hi).2⟩
  have e2 := foldl_pairs Poseidon.partialRound (stateAt T) rc 28 (s + 4) 4 fun i hi =>
    partialRounds_at hT (by omega) (h.partialOn i hi).1 (h.partialOn i hi).2.1 (h.partialOn i hi).2.2
  rw [rc_first] at e1
  rw [rc_partial, e1] at e2
  rw [rc_last, show s + 32 = s + 4 + 28 by omega, e2] at e3
  exact e3

theorem poseidon_sound (hT : GatesHold T F) {s0 s : ℕ} {x y : Fp} (h : PoseidonRegion T F s0 s x y) :
    T (6, s + 36) = Poseidon.hash x y := by
  have hf := h.fits
  have hu := usable_le
  have e := permute_sound hT h
  have hg := poseidon_at hT (row := s0 + 1) (by omega) 2 rfl rfl h.padOn
  rw [poseidonState_cur (by omega), poseidonState_next (by omega), poseidonState_prev (by omega),
    h.initial] at hg
  simp only [padAndAddGate, gate_cons] at hg
  obtain ⟨h1, h2, h3, -⟩ := hg
  have e0 : stateAt T s = (x, y, 2 * 2 ^ 64) := by
    rw [h.load]
    refine (Prod.ext ?_ (Prod.ext ?_ ?_)).symm
    · have h1 := sub_eq_zero.1 h1
      rw [zero_add] at h1
      exact h.input.1.symm.trans h1
    · have h2 := sub_eq_zero.1 h2
      rw [zero_add] at h2
      exact h.input.2.symm.trans h2
    · exact sub_eq_zero.1 h3
  rw [e0] at e
  exact congrArg Prod.fst e

end Orchard.Regions
