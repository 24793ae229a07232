import Verif.Model.Spec
import Mathlib.Data.Nat.Bitwise

/-! # Lemmas about `spec.rs` -/

namespace Orchard

/-! ### Bit conversions -/

theorem getElem?_leBits (n x i : ℕ) : (leBits n x)[i]? = if i < n then some (x.testBit i) else none := by
  induction n generalizing x i with
  | zero => simp [leBits]
  | succ n ih =>
    cases i with
    | zero => simp [leBits, Nat.testBit_zero, beq_eq_decide]
    | succ i =>
      simp only [leBits, List.getElem?_cons_succ, ih, Nat.add_lt_add_iff_right, Nat.testBit_add_one]

theorem leBits_eq_map_range (n x : ℕ) : leBits n x = (List.range n).map fun i => x.testBit i := by
  apply List.ext_getElem?
  intro i
  rw [getElem?_leBits, List.getElem?_map]
  by_cases h : i < n
  · simp [h]
  · simp [h]

theorem toNat_one_shl_64 {i : ℕ} (h : i < 64) :
    ((1 : UInt64) <<< (UInt64.ofNat i)).toNat = 2 ^ i := by
  rw [UInt64.toNat_shiftLeft, UInt64.toNat_ofNat', UInt64.toNat_one]
  have h1 : i % 2 ^ 64 % 64 = i := by omega
  rw [h1, Nat.one_shiftLeft, Nat.mod_eq_of_lt (Nat.pow_lt_pow_right (by norm_num) h)]

theorem toNat_one_shl_32 {i : ℕ} (h : i < 32) :
    ((1 : UInt32) <<< (UInt32.ofNat i)).toNat = 2 ^ i := by
  rw [UInt32.toNat_shiftLeft, UInt32.toNat_ofNat', UInt32.toNat_one]
  have h1 : i % 2 ^ 32 % 32 = i := by omega
  rw [h1, Nat.one_shiftLeft, Nat.mod_eq_of_lt (Nat.pow_lt_pow_right (by norm_num) h)]

theorem and_shl_ne_zero (int : UInt64) {i : ℕ} (h : i < 64) :
    ((int &&& ((1 : UInt64) <<< (UInt64.ofNat i))) != 0) = int.toNat.testBit i := by
  rw [Bool.eq_iff_iff, bne_iff_ne, Ne, ← UInt64.toNat_inj, UInt64.toNat_and, toNat_one_shl_64 h,
    UInt64.toNat_zero, Nat.and_comm, Nat.two_pow_and]
  cases int.toNat.testBit i <;> simp

theorem foldl_lebs64 (bits : List Bool) (k : ℕ) (acc : UInt64) (hk : k + bits.length ≤ 64)
    (hacc : acc.toNat < 2 ^ k) :
    ((bits.zipIdx k).foldl
      (fun acc bi => acc + if bi.1 then (1 : UInt64) <<< (UInt64.ofNat bi.2) else 0) acc).toNat =
      acc.toNat + 2 ^ k * bitsNat bits := by
  induction bits generalizing k acc with
  | nil => simp [bitsNat]
  | cons b bs ih =>
    simp only [List.length_cons] at hk
    have hk64 : k < 64 := by omega
    have h2 : (2:ℕ) ^ (k + 1) ≤ 2 ^ 64 := Nat.pow_le_pow_right (by norm_num) hk64
    have hstep : (acc + if b then (1 : UInt64) <<< (UInt64.ofNat k) else 0).toNat =
        acc.toNat + 2 ^ k * b.toNat := by
      cases b
      · simp
      · rw [if_pos rfl, UInt64.toNat_add, toNat_one_shl_64 hk64, Bool.toNat_true, mul_one,
          Nat.mod_eq_of_lt]
        rw [pow_succ] at h2; omega
    rw [List.zipIdx_cons, List.foldl_cons, ih (k + 1) _ (by omega), hstep, bitsNat, pow_succ]
    · ring
    · rw [hstep, pow_succ]; cases b <;> simp <;> omega

theorem foldl_lebs32 (bits : List Bool) (k : ℕ) (acc : UInt32) (hk : k + bits.length ≤ 32)
    (hacc : acc.toNat < 2 ^ k) :
    ((bits.zipIdx k).foldl
      (fun acc bi => acc + if bi.1 then (1 : UInt32) <<< (UInt32.ofNat bi.2) else 0) acc).toNat =
      acc.toNat + 2 ^ k * bitsNat bits := by
  induction bits generalizing k acc with
  | nil => simp [bitsNat]
  | cons b bs ih =>
    simp only [List.length_cons] at hk
    have hk64 : k < 32 := by omega
    have h2 : (2:ℕ) ^ (k + 1) ≤ 2 ^ 32 := Nat.pow_le_pow_right (by norm_num) hk64
    have hstep : (acc + if b then (1 : UInt32) <<< (UInt32.ofNat k) else 0).toNat =
        acc.toNat + 2 ^ k * b.toNat := by
      cases b
      · simp
      · rw [if_pos rfl, UInt32.toNat_add, toNat_one_shl_32 hk64, Bool.toNat_true, mul_one,
          Nat.mod_eq_of_lt]
        rw [pow_succ] at h2; omega
    rw [List.zipIdx_cons, List.foldl_cons, ih (k + 1) _ (by omega), hstep, bitsNat, pow_succ]
    · ring
    · rw [hstep, pow_succ]; cases b <;> simp <;> omega

theorem lebs2ip_eq {bits : List Bool} (h : bits.length ≤ 64) :
    ∃ n, lebs2ip bits = .ret n ∧ n.toNat = bitsNat bits := by
  refine ⟨_, ?_, foldl_lebs64 bits 0 0 (by omega) (by simp) |>.trans (by simp)⟩
  simp only [lebs2ip, h, decide_true, assertO_true, Outcome.ret_bind, Outcome.pure_eq]

theorem lebs2ipK_eq {bits : List Bool} (h : bits.length = 10) :
    ∃ n, lebs2ipK bits = .ret n ∧ n.toNat = bitsNat bits := by
  refine ⟨_, ?_, foldl_lebs32 bits 0 0 (by omega) (by simp) |>.trans (by simp)⟩
  simp only [lebs2ipK, Constants.K, h, decide_true, assertO_true, Outcome.ret_bind,
    Outcome.pure_eq]

theorem i2lebsp_eq {n : ℕ} (h : n ≤ 64) (int : UInt64) :
    i2lebsp n int = .ret (leBits n int.toNat) := by
  simp only [i2lebsp, h, decide_true, assertO_true, Outcome.ret_bind, Outcome.pure_eq,
    Outcome.ret.injEq]
  rw [leBits_eq_map_range]
  apply List.map_congr_left
  intro i hi
  exact and_shl_ne_zero int (by have := List.mem_range.1 hi; omega)

/-! ### Field conversions -/

theorem modRP_eq (x : Fp) : modRP x = .ret (x.val : Fq) := by
  have hlt : x.val < q := (ZMod.val_lt x).trans p_lt_q
  unfold modRP Fq.fromRepr
  rw [Fp.toNat_toRepr, if_pos hlt]
  rfl

/-- The value returned by `mod_r_p`. -/
def modRPVal (x : Fp) : Fq := (x.val : Fq)

theorem val_modRPVal (x : Fp) : (modRPVal x).val = x.val := by
  unfold modRPVal
  rw [ZMod.val_natCast, Nat.mod_eq_of_lt ((ZMod.val_lt x).trans p_lt_q)]

theorem modRPVal_injective : Function.Injective modRPVal := by
  intro x y h
  have := congrArg ZMod.val h
  rw [val_modRPVal, val_modRPVal] at this
  exact ZMod.val_injective p this

theorem modRPVal_eq_zero {x : Fp} : modRPVal x = 0 ↔ x = 0 := by
  constructor
  · intro h
    apply modRPVal_injective
    rw [h]; simp [modRPVal]
  · rintro rfl; simp [modRPVal]

theorem nonZeroScalarOfBase_eq {b : Fp} (h : b ≠ 0) : nonZeroScalarOfBase b = .ret (modRPVal b) := by
  have : (b.val : Fq) ≠ 0 := fun hh => h (modRPVal_eq_zero.1 hh)
  unfold nonZeroScalarOfBase
  rw [modRP_eq, Outcome.ret_bind, decide_eq_true this, assertO_true, Outcome.ret_bind]
  rfl

/-! ### Extractor -/

@[simp] theorem extractP_zero : extractP 0 = 0 := rfl
@[simp] theorem extractP_ofXY (x y : Fp) (h : y ^ 2 = x ^ 3 + 5) : extractP (Point.ofXY x y h) = x := rfl

theorem extractP_eq_zero {A : Point} : extractP A = 0 ↔ A = 0 := by
  rcases Point.cases_xy A with rfl | ⟨x, y, h, rfl⟩
  · simp
  · simp [x_ne_zero_of_onCurve h, Point.ofXY_ne_zero]

theorem extractP_neg (A : Point) : extractP (-A) = extractP A := by
  rcases Point.cases_xy A with rfl | ⟨x, y, h, rfl⟩
  · rw [neg_zero]
  · rw [Point.neg_ofXY, extractP_ofXY, extractP_ofXY]

theorem extractP_eq_iff {A B : Point} : extractP A = extractP B ↔ A = B ∨ A = -B := by
  constructor
  · intro h
    rcases Point.cases_xy A with rfl | ⟨x, y, hA, rfl⟩
    · rw [extractP_zero, eq_comm, extractP_eq_zero] at h
      exact Or.inl h.symm
    · rcases Point.cases_xy B with rfl | ⟨x', y', hB, rfl⟩
      · rw [extractP_zero, extractP_eq_zero] at h
        exact Or.inl h
      · simp only [extractP_ofXY] at h
        subst h
        rw [Point.neg_ofXY, Point.ofXY_inj, Point.ofXY_inj]
        have : y ^ 2 = y' ^ 2 := hA.trans hB.symm
        rcases sq_eq_sq_iff_eq_or_eq_neg.1 this with h | h
        · exact Or.inl ⟨rfl, h⟩
        · exact Or.inr ⟨rfl, h⟩
  · rintro (rfl | rfl)
    · rfl
    · exact extractP_neg B

theorem extractP_ne_two (A : Point) : extractP A ≠ 2 := by
  rcases Point.cases_xy A with rfl | ⟨x, y, h, rfl⟩
  · rw [extractP_zero]; exact two_ne_zero_Fp.symm
  · exact x_ne_two_of_onCurve h

end Orchard
