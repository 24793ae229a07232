import Verif.Lemmas.PatchHash
import Verif.Lemmas.RegionMulVar

/-!
# Regions that honest provers fill: variable-base multiplication
-/

namespace Orchard.Halo2

/-- The rows of the loop for the bits of a number. -/
theorem exists_mulRows {B : Point} (hB : B ≠ 0) {n j K : ℕ} (hj : j + n ≤ 251) (hK : K < 2 ^ (j + n)) (hn : 0 < n) :
    ∃ r : ℕ → MulRow, (∀ i, ((r i).xP, (r i).yP) = cells B) ∧ (∀ i, (r i).z = ((K / 2 ^ (n - (i + 1)) : ℕ) : Fp)) ∧
      ((r 0).xA, (r 0).yA) = cells (((2 ^ j + 1 + 2 * (K / 2 ^ n) : ℕ) : Fq) • B) ∧
      (∀ i, i + 1 < n → Gate (mulStepGate ((K / 2 ^ (n - i) : ℕ) : Fp) (r i) (r (i + 1)))) ∧
      (∀ i, i + 1 = n → Gate (mulLastGate ((K / 2 ^ (n - i) : ℕ) : Fp) (r i) (r (i + 1)))) ∧
      ((r n).xA, (r n).lambda1) = cells (((2 ^ (j + n) + 1 + 2 * K : ℕ) : Fq) • B) := by
  have hq251 : 3 * 2 ^ 251 < q := by decide +kernel
  have hstep : ∀ i : ℕ, ∃ l : Fp × Fp, i < n →
      let m := 2 ^ (j + i) + 1 + 2 * (K / 2 ^ (n - i))
      let k := K / 2 ^ (n - (i + 1)) % 2
      let A := ((m : ℕ) : Fq) • B
      let A' := ((2 ^ (j + (i + 1)) + 1 + 2 * (K / 2 ^ (n - (i + 1))) : ℕ) : Fq) • B
      let xR := l.1 ^ 2 - (cells A).1 - (cells B).1
      l.1 * ((cells A).1 - (cells B).1) = (cells A).2 - ((k : Fp) * 2 - 1) * (cells B).2 ∧
        (l.1 + l.2) * ((cells A).1 - xR) = 2 * (cells A).2 ∧ l.2 ^ 2 = (cells A').1 + xR + (cells A).1 ∧
        l.2 * ((cells A).1 - (cells A').1) = (cells A).2 + (cells A').2 := by
    intro i
    by_cases hi : i < n
    swap
    · exact ⟨(0, 0), fun h => absurd h hi⟩
    have hpow : 2 ^ (j + i + 1) ≤ 2 ^ 251 := Nat.pow_le_pow_right (by norm_num) (by omega)
    have hp1 : 2 ^ (j + i + 1) = 2 * 2 ^ (j + i) := by rw [pow_succ, mul_comm]
    have hpos : 0 < 2 ^ (j + i) := Nat.two_pow_pos _
    have hKi : K / 2 ^ (n - i) < 2 ^ (j + i) := by
      rw [Nat.div_lt_iff_lt_mul (by positivity), ← pow_add, show j + i + (n - i) = j + n by omega]
      exact hK
    have hdiv : K / 2 ^ (n - i) = K / 2 ^ (n - (i + 1)) / 2 := by
      rw [Nat.div_div_eq_div_mul, ← pow_succ, show n - (i + 1) + 1 = n - i by omega]
    have hk2 : K / 2 ^ (n - (i + 1)) = 2 * (K / 2 ^ (n - i)) + K / 2 ^ (n - (i + 1)) % 2 := by omega
    generalize K / 2 ^ (n - (i + 1)) % 2 = k at *
    have hk : k < 2 := by omega
    generalize K / 2 ^ (n - i) = K0 at *
    generalize K / 2 ^ (n - (i + 1)) = K1 at *
    obtain ⟨m, hm⟩ : ∃ m, m = 2 ^ (j + i) + 1 + 2 * K0 := ⟨_, rfl⟩
    have hm2 : 2 ≤ m := by omega
    have hmq : 2 * m + 1 < q := by omega
    have hA' : 2 ^ (j + (i + 1)) + 1 + 2 * K1 = 2 * m + 2 * k - 1 := by
      rw [← add_assoc, hp1]; omega
    rw [← hm, hA']
    have e1 : ((m : Fq) • B) - B = ((m - 1 : ℕ) : Fq) • B := by
      rw [Nat.cast_sub (by omega), sub_smul, Nat.cast_one, one_smul]
    have e2 : ((m : Fq) • B) + B = ((m + 1 : ℕ) : Fq) • B := by
      rw [Nat.cast_add, add_smul, Nat.cast_one, one_smul]
    have n1 : (m : Fq) • B ≠ B := fun he => cast_smul_ne_zero hB (m := m - 1) (by omega) (by omega)
      (by rw [← e1, he, sub_self])
    have n2 : (m : Fq) • B ≠ -B := fun he => cast_smul_ne_zero hB (m := m + 1) (by omega) (by omega)
      (by rw [← e2, he, neg_add_cancel])
    have hfin : (m : Fq) • B + bitPoint B k + (m : Fq) • B = ((2 * m + 2 * k - 1 : ℕ) : Fq) • B := by
      rw [bitPoint_smul B hk, ← add_smul, ← add_smul, Nat.cast_sub (by omega)]
      congr 1
      push_cast; ring
    have hS0 : bitPoint B k ≠ 0 := by
      unfold bitPoint
      split_ifs
      · exact hB
      · exact neg_ne_zero.2 hB
    have nS : (m : Fq) • B ≠ bitPoint B k ∧ (m : Fq) • B ≠ -bitPoint B k := by
      unfold bitPoint
      split_ifs
      · exact ⟨n1, n2⟩
      · exact ⟨n2, by rw [neg_neg]; exact n1⟩
    obtain ⟨l1, l2, s1, s2, s3, s4⟩ := exists_slopes (cast_smul_ne_zero hB (m := m) (by omega) (by omega)) hS0 nS.1 nS.2
      (fun he => by
        rw [← sub_eq_zero, sub_neg_eq_add, hfin] at he
        exact cast_smul_ne_zero hB (by omega) (by omega) he)
    rw [hfin] at s3 s4
    rw [cells_bitPoint B hk] at s1 s2 s3
    exact ⟨(l1, l2), fun _ => ⟨s1, s2, s3, s4⟩⟩
  choose l hl using hstep
  let A : ℕ → Point := fun i => ((2 ^ (j + i) + 1 + 2 * (K / 2 ^ (n - i)) : ℕ) : Fq) • B
  let r : ℕ → MulRow := fun i => ⟨((K / 2 ^ (n - (i + 1)) : ℕ) : Fp), (cells (A i)).1, (cells B).1, (cells B).2,
    if i < n then (l i).1 else (cells (A i)).2, (l i).2⟩
  have hyA : ∀ i < n, (r i).yA = (cells (A i)).2 := by
    intro i hi
    have := (hl i hi).2.1
    simp only [MulRow.yA, MulRow.xR, r, if_pos hi]
    rw [this, mul_comm 2, mul_assoc, mul_comm 2 half, half_mul_two, mul_one]
  have hbit : ∀ i < n, mulBit ((K / 2 ^ (n - i) : ℕ) : Fp) (r i).z = ((K / 2 ^ (n - (i + 1)) % 2 : ℕ) : Fp) := by
    intro i hi
    have hdiv : K / 2 ^ (n - i) = K / 2 ^ (n - (i + 1)) / 2 := by
      rw [Nat.div_div_eq_div_mul, ← pow_succ, show n - (i + 1) + 1 = n - i by omega]
    simp only [mulBit, r]
    rw [hdiv, sub_eq_iff_eq_add]
    conv_lhs => rw [← Nat.mod_add_div (K / 2 ^ (n - (i + 1))) 2]
    push_cast
    ring
  have hloop : ∀ i < n, ∀ x' y', (x', y') = cells (A (i + 1)) →
      Gate (mulLoop ((K / 2 ^ (n - i) : ℕ) : Fp) (r i) x' y') := by
    intro i hi x' y' e
    obtain ⟨s1, s2, s3, s4⟩ := hl i hi
    have ex : x' = (cells (A (i + 1))).1 := congrArg Prod.fst e
    have ey : y' = (cells (A (i + 1))).2 := congrArg Prod.snd e
    rw [mulLoop, gate_cons, gate_cons, gate_cons, gate_cons, hbit i hi, hyA i hi, ex, ey]
    refine ⟨?_, ?_, ?_, ?_, gate_nil⟩
    · have := Nat.mod_lt (K / 2 ^ (n - (i + 1))) (show 0 < 2 by norm_num)
      interval_cases K / 2 ^ (n - (i + 1)) % 2 <;> simp [boolCheck]
    · simp only [r, if_pos hi]
      linear_combination s1
    · simp only [r, if_pos hi, MulRow.xR]
      linear_combination s3
    · simp only [r]
      linear_combination s4
  refine ⟨r, fun i => rfl, fun i => rfl, ?_, fun i hi => ?_, fun i hi => ?_, ?_⟩
  · rw [hyA 0 hn]
    simp only [r, A, Nat.add_zero, Nat.sub_zero]
  · rw [mulStepGate, List.cons_append, List.cons_append, List.nil_append, gate_cons, gate_cons]
    refine ⟨sub_self _, sub_self _, hloop i (by omega) _ _ ?_⟩
    rw [hyA _ hi]
  · rw [mulLastGate]
    refine hloop i (by omega) _ _ ?_
    simp only [r, if_neg (show ¬ i + 1 < n by omega)]
  · simp only [r, lt_irrefl, if_false, A, Nat.sub_self, pow_zero, Nat.div_one]

/-- The cells of the overflow check. -/
theorem exists_overflow (alpha : Fp) :
    ∃ eta s, Gate (mulOverflowGate ((alpha.val + Constants.T_Q : ℕ) : Fp)
      (((alpha.val + Constants.T_Q) / 2 ^ 130 : ℕ) : Fp) eta (((alpha.val + Constants.T_Q) / 2 ^ 254 : ℕ) : Fp) alpha
      (runningSumOf s 13) s) := by
  simp only [mulOverflowGate]
  have ha := Fp.val_lt alpha
  have hcast := Fp.natCast_val alpha
  have hT : Constants.T_Q < 2 ^ 126 := by norm_num [Constants.T_Q]
  have hp1 : 2 ^ 254 < p := by decide +kernel
  have hp2 : p < 2 ^ 254 + 2 ^ 126 := by decide +kernel
  have h255 : (2 : ℕ) ^ 255 = 2 * 2 ^ 254 := by norm_num
  have h130 : (2 : ℕ) ^ 130 * 2 ^ 124 = 2 ^ 254 := by norm_num
  have h126 : 8 * (2 : ℕ) ^ 126 < 2 ^ 130 := by norm_num
  have hT0 : (((alpha.val + Constants.T_Q : ℕ) : Fp)) - alpha - ((Constants.T_Q : ℕ) : Fp) = 0 := by
    push_cast
    rw [hcast]; ring
  generalize Constants.T_Q = t at *
  generalize hv : alpha.val = a at *
  have hb : (a + t) / 2 ^ 254 < 2 := by
    rw [Nat.div_lt_iff_lt_mul (by positivity)]; omega
  rcases Nat.lt_or_ge (a + t) (2 ^ 254) with hlt | hge
  · have e0 : (a + t) / 2 ^ 254 = 0 := Nat.div_eq_of_lt hlt
    refine ⟨((((a + t) / 2 ^ 130 : ℕ) : Fp))⁻¹, alpha, ?_⟩
    rw [e0, gate_cons, gate_cons, gate_cons, gate_cons, gate_cons]
    refine ⟨by simp, hT0, by simp, by simp, ?_, gate_nil⟩
    rw [Nat.cast_zero, sub_zero, one_mul]
    by_cases hz : (((a + t) / 2 ^ 130 : ℕ) : Fp) = 0
    · have hlt' : (a + t) / 2 ^ 130 < 2 ^ 124 := by
        rw [Nat.div_lt_iff_lt_mul (by positivity), mul_comm, h130]; exact hlt
      have h124 : (2 : ℕ) ^ 124 < 2 ^ 254 := by norm_num
      have hz' : (a + t) / 2 ^ 130 = 0 := Fp.natCast_inj (by omega) (by omega) (by rw [hz, Nat.cast_zero])
      have hsmall : a + t < 2 ^ 130 := by
        by_contra hc
        have : 1 ≤ (a + t) / 2 ^ 130 := by
          rw [Nat.le_div_iff_mul_le (by positivity)]; omega
        omega
      have : runningSumOf alpha 13 = 0 := by
        unfold runningSumOf
        rw [hv, Nat.div_eq_of_lt (by norm_num only at hsmall ⊢; omega), Nat.cast_zero]
      rw [this, mul_zero]
    · rw [mul_inv_cancel₀ hz, sub_self, zero_mul]
  · have e0 : (a + t) / 2 ^ 254 = 1 := by
      have : 1 ≤ (a + t) / 2 ^ 254 := by
        rw [Nat.le_div_iff_mul_le (by positivity)]; omega
      omega
    have e1 : (a + t) / 2 ^ 130 = 2 ^ 124 := by
      apply le_antisymm
      · rw [← Nat.lt_succ_iff, Nat.div_lt_iff_lt_mul (by positivity), Nat.succ_eq_add_one, add_mul, one_mul,
          mul_comm, h130]
        omega
      · rw [Nat.le_div_iff_mul_le (by positivity), mul_comm, h130]; exact hge
    have hs : alpha + 2 ^ 130 = ((a + 2 ^ 130 - p : ℕ) : Fp) := by
      rw [Nat.cast_sub (by omega), ZMod.natCast_self p, sub_zero, Nat.cast_add, hcast, Nat.cast_pow, Nat.cast_ofNat]
    have hr : runningSumOf (alpha + 2 ^ 130) 13 = 0 := by
      rw [hs]
      refine runningSumOf_eq_zero (by norm_num [p]) ?_
      rw [show 10 * 13 = 130 from rfl]
      omega
    refine ⟨0, alpha + 2 ^ 130, ?_⟩
    rw [e0, e1, gate_cons, gate_cons, gate_cons, gate_cons, gate_cons, hr]
    refine ⟨by simp, hT0, ?_, by simp, by simp, gate_nil⟩
    rw [Nat.cast_one, Nat.cast_pow, Nat.cast_ofNat, sub_self, mul_zero]

end Orchard.Halo2

namespace Orchard.Regions

open Halo2 Layout Pinned Spec

variable {P : Prims} {T : Table} {F : FixedTable}

/-- A row of a complete addition. -/
structure AddRow where
  a : Fp × Fp
  b : Fp × Fp
  w : AddCells

def AddRow.col (r : AddRow) : ℕ → Fp
  | 0 => r.a.1
  | 1 => r.a.2
  | 2 => r.b.1
  | 3 => r.b.2
  | 4 => r.w.l
  | 5 => r.w.α
  | 6 => r.w.β
  | 7 => r.w.γ
  | 8 => r.w.δ
  | _ => 0

/-- The rows of a variable-base multiplication: the doubling, what the two loops begin with, the loops, and the rows
of the complete additions. -/
structure MulBlock where
  base : Fp × Fp
  double : AddRow
  acc : Fp × Fp
  zLo : Fp
  yLo : Fp
  hi : ℕ → MulRow
  lo : ℕ → MulRow
  adds : ℕ → AddRow
  z : ℕ → Fp

def MulBlock.first (m : MulBlock) : ℕ → Fp
  | 2 => m.acc.1
  | 3 => m.acc.2
  | 4 => m.acc.2
  | 6 => m.zLo
  | 8 => m.yLo
  | _ => 0

def MulBlock.loop (m : MulBlock) (i : ℕ) : ℕ → Fp
  | 0 => m.base.1
  | 1 => m.base.2
  | 2 => (m.lo i).lambda2
  | 3 => (m.hi i).xA
  | 4 => (m.hi i).lambda1
  | 5 => (m.hi i).lambda2
  | 6 => (m.lo i).z
  | 7 => (m.lo i).xA
  | 8 => (m.lo i).lambda1
  | 9 => (m.hi i).z
  | _ => 0

def MulBlock.col (m : MulBlock) (c i : ℕ) : Fp :=
  if i = 0 then m.double.col c
  else if i = 1 then m.first c
  else if i < 129 then m.loop (i - 2) c
  else if c = 9 then m.z (i - 129) else (m.adds (i - 129)).col c

/-- What the block has to satisfy. -/
structure MulBlock.Ok (m : MulBlock) : Prop where
  hiBase : ∀ i, ((m.hi i).xP, (m.hi i).yP) = m.base
  loBase : ∀ i, ((m.lo i).xP, (m.lo i).yP) = m.base
  double : m.double.w.Ok m.double.a m.double.b m.acc
  hiFirst : Gate (mulInitGate m.acc.2 (m.hi 0))
  hiStart : Gate (mulStepGate 0 (m.hi 0) (m.hi 1))
  hiStep : ∀ i, i + 1 < 124 → Gate (mulStepGate (m.hi i).z (m.hi (i + 1)) (m.hi (i + 2)))
  hiLast : Gate (mulLastGate (m.hi 123).z (m.hi 124) (m.hi 125))
  loFirst : Gate (mulInitGate m.yLo (m.lo 0))
  loStart : Gate (mulStepGate m.zLo (m.lo 0) (m.lo 1))
  loStep : ∀ i, i + 1 < 125 → Gate (mulStepGate (m.lo i).z (m.lo (i + 1)) (m.lo (i + 2)))
  loLast : Gate (mulLastGate (m.lo 124).z (m.lo 125) (m.lo 126))
  bits : ∀ i < 3, Gate (mulCompleteGate (m.z (2 * i)) (m.z (2 * i + 2)) (m.z (2 * i + 1)) (m.adds (2 * i)).a.2)
  adds : ∀ i < 7, (m.adds i).w.Ok (m.adds i).a (m.adds i).b (m.adds (i + 1)).b
  lsb : Gate (mulLsbGate (m.z 6) (m.z 7) (m.adds 6).a (m.adds 7).a)

def mulBlockPatch (m : MulBlock) (s : ℕ) : Patch :=
  ⟨(List.range 10).map fun c => ⟨c, s, 137, m.col c⟩, [],
    [(⟨19, 4, 4⟩, s, 1), (⟨18, 4, 6⟩, s + 1, 1), (⟨18, 5, 6⟩, s + 2, 124), (⟨18, 6, 6⟩, s + 126, 1),
      (⟨20, 1, 5⟩, s + 1, 1), (⟨20, 2, 5⟩, s + 2, 125), (⟨20, 3, 5⟩, s + 127, 1), (⟨20, 4, 5⟩, s + 130, 1),
      (⟨20, 4, 5⟩, s + 132, 1), (⟨20, 4, 5⟩, s + 134, 1), (⟨19, 4, 4⟩, s + 129, 7), (⟨21, 1, 4⟩, s + 135, 1)], []⟩

section

variable {m : MulBlock} {s : ℕ}

theorem mulBlock_cell (h : Contains T F (mulBlockPatch m s)) {c i : ℕ} (hc : c < 10) (hi : i < 137) :
    T (c, s + i) = m.col c i :=
  h.advice _ (List.mem_map.2 ⟨c, List.mem_range.2 hc, rfl⟩) i hi

theorem mulBlock_double (h : Contains T F (mulBlockPatch m s)) :
    pointAt T 0 s = m.double.a ∧ pointAt T 2 s = m.double.b ∧
      (⟨T (4, s), T (5, s), T (6, s), T (7, s), T (8, s)⟩ : AddCells) = m.double.w := by
  have e : ∀ c < 10, T (c, s) = m.double.col c := fun c hc => mulBlock_cell h hc (show 0 < 137 by norm_num)
  refine ⟨Prod.ext (e 0 (by norm_num)) (e 1 (by norm_num)), Prod.ext (e 2 (by norm_num)) (e 3 (by norm_num)), ?_⟩
  rw [e 4 (by norm_num), e 5 (by norm_num), e 6 (by norm_num), e 7 (by norm_num), e 8 (by norm_num)]
  rfl

theorem mulBlock_first (h : Contains T F (mulBlockPatch m s)) :
    pointAt T 2 (s + 1) = m.acc ∧ T (4, s + 1) = m.acc.2 ∧ T (6, s + 1) = m.zLo ∧ T (8, s + 1) = m.yLo ∧
      T (9, s + 1) = 0 := by
  have e : ∀ c < 10, T (c, s + 1) = m.first c := fun c hc => mulBlock_cell h hc (show 1 < 137 by norm_num)
  exact ⟨Prod.ext (e 2 (by norm_num)) (e 3 (by norm_num)), e 4 (by norm_num), e 6 (by norm_num), e 8 (by norm_num),
    e 9 (by norm_num)⟩

theorem mulBlock_loop (h : Contains T F (mulBlockPatch m s)) {i : ℕ} (hi : i < 127) {c : ℕ} (hc : c < 10) :
    T (c, s + 2 + i) = m.loop i c := by
  rw [Nat.add_assoc, mulBlock_cell h hc (show 2 + i < 137 by omega), MulBlock.col, if_neg (by omega), if_neg (by omega),
    if_pos (by omega), Nat.add_sub_cancel_left]

theorem mulBlock_hi (hm : m.Ok) (h : Contains T F (mulBlockPatch m s)) {i : ℕ} (hi : i < 127) :
    hiRow T (s + 2 + i) = m.hi i := by
  have e := fun c hc => mulBlock_loop h hi (c := c) hc
  have hb := hm.hiBase i
  have b1 : (m.hi i).xP = m.base.1 := congrArg Prod.fst hb
  have b2 : (m.hi i).yP = m.base.2 := congrArg Prod.snd hb
  rw [hiRow, e 9 (by norm_num), e 3 (by norm_num), e 0 (by norm_num), e 1 (by norm_num), e 4 (by norm_num),
    e 5 (by norm_num)]
  simp only [MulBlock.loop, ← b1, ← b2]

theorem mulBlock_lo (hm : m.Ok) (h : Contains T F (mulBlockPatch m s)) {i : ℕ} (hi : i < 127) :
    loRow T (s + 2 + i) = m.lo i := by
  have e := fun c hc => mulBlock_loop h hi (c := c) hc
  have hb := hm.loBase i
  have b1 : (m.lo i).xP = m.base.1 := congrArg Prod.fst hb
  have b2 : (m.lo i).yP = m.base.2 := congrArg Prod.snd hb
  rw [loRow, e 6 (by norm_num), e 7 (by norm_num), e 0 (by norm_num), e 1 (by norm_num), e 8 (by norm_num),
    e 2 (by norm_num)]
  simp only [MulBlock.loop, ← b1, ← b2]

theorem mulBlock_adds (h : Contains T F (mulBlockPatch m s)) {i : ℕ} (hi : i < 8) :
    pointAt T 0 (s + 129 + i) = (m.adds i).a ∧ pointAt T 2 (s + 129 + i) = (m.adds i).b ∧
      (⟨T (4, s + 129 + i), T (5, s + 129 + i), T (6, s + 129 + i), T (7, s + 129 + i), T (8, s + 129 + i)⟩ : AddCells) =
        (m.adds i).w ∧ T (9, s + 129 + i) = m.z i := by
  have e : ∀ c : ℕ, c < 9 → T (c, s + 129 + i) = (m.adds i).col c := by
    intro c hc
    rw [Nat.add_assoc, mulBlock_cell h (c := c) (by omega) (show 129 + i < 137 by omega), MulBlock.col, if_neg (by omega),
      if_neg (by omega), if_neg (by omega), if_neg (by omega), Nat.add_sub_cancel_left]
  refine ⟨Prod.ext (e 0 (by norm_num)) (e 1 (by norm_num)), Prod.ext (e 2 (by norm_num)) (e 3 (by norm_num)), ?_, ?_⟩
  · rw [e 4 (by norm_num), e 5 (by norm_num), e 6 (by norm_num), e 7 (by norm_num), e 8 (by norm_num)]
    rfl
  · rw [Nat.add_assoc, mulBlock_cell h (by norm_num) (show 129 + i < 137 by omega), MulBlock.col, if_neg (by omega),
      if_neg (by omega), if_neg (by omega), if_pos rfl, Nat.add_sub_cancel_left]

theorem mulBlock_add {a b out : Fp × Fp} {w : AddCells} {row : ℕ} (hr : row + 1 < numRows) (ha : pointAt T 0 row = a)
    (hb : pointAt T 2 row = b) (ho : pointAt T 2 (row + 1) = out)
    (hw : (⟨T (4, row), T (5, row), T (6, row), T (7, row), T (8, row)⟩ : AddCells) = w) (h : w.Ok a b out) :
    GateAt T F ⟨19, 4, 4⟩ row := by
  refine add_gateAt hr ?_
  rw [ha, hb, ho]
  rw [← hw] at h
  exact h

theorem mulBlockPatch_ok (hs : s + 136 < usableRows) (hm : m.Ok) : (mulBlockPatch m s).Ok P where
  cols st h := by cases h
  codes x h := by
    simp only [mulBlockPatch, List.mem_cons, List.not_mem_nil, or_false] at h
    rcases h with rfl | rfl | rfl | rfl | rfl | rfl | rfl | rfl | rfl | rfl | rfl | rfl <;> exact mem_gateCodes rfl
  gates T F hC x hx i hi := by
    have hu := usable_le
    have hu' : usableRows < numRows := by decide
    simp only [mulBlockPatch, List.mem_cons, List.not_mem_nil, or_false] at hx
    have hbit : ∀ j < 3, GateAt T F ⟨20, 4, 5⟩ (s + (130 + 2 * j)) := by
      intro j hj
      refine ecc_gateAt 11 rfl rfl ?_
      have z0 := (mulBlock_adds hC (i := 2 * j) (by omega)).2.2.2
      have z1 := (mulBlock_adds hC (i := 2 * j + 1) (by omega)).2.2.2
      have z2 := (mulBlock_adds hC (i := 2 * j + 2) (by omega)).2.2.2
      have a0 : T (1, s + 129 + 2 * j) = (m.adds (2 * j)).a.2 :=
        congrArg Prod.snd (mulBlock_adds hC (i := 2 * j) (by omega)).1
      rw [show s + (130 + 2 * j) = s + 129 + 2 * j + 1 by omega, rowAt_prev (by omega), rowAt_next (by omega),
        rowAt_prev (by omega), rowAt_cur (by omega), z0, a0, Nat.add_assoc (s + 129), Nat.add_assoc (s + 129),
        z1, z2]
      exact hm.bits j hj
    rcases hx with rfl | rfl | rfl | rfl | rfl | rfl | rfl | rfl | rfl | rfl | rfl | rfl <;> dsimp only at hi ⊢ <;>
      refine ⟨by omega, ?_, by simp, by simp⟩
    · obtain rfl : i = 0 := by omega
      obtain ⟨h1, h2, h3⟩ := mulBlock_double hC
      exact mulBlock_add (by omega) h1 h2 (mulBlock_first hC).1 h3 hm.double
    · obtain rfl : i = 0 := by omega
      refine ecc_gateAt 5 rfl rfl ?_
      rw [Nat.add_zero, mulHi_next (by omega), rowAt_cur (by omega), (mulBlock_first hC).2.1,
        mulBlock_hi hm hC (i := 0) (by norm_num)]
      exact hm.hiFirst
    · refine ecc_gateAt 6 rfl rfl ?_
      rw [mulHi_next (by omega), mulHi_cur (by omega), mulBlock_hi hm hC (i := i) (by omega), Nat.add_assoc (s + 2),
        mulBlock_hi hm hC (i := i + 1) (by omega)]
      rw [show s + 2 + i = s + 1 + i + 1 by omega, rowAt_prev (by omega)]
      cases i with
      | zero =>
        rw [Nat.add_zero, (mulBlock_first hC).2.2.2.2]
        exact hm.hiStart
      | succ i =>
        have := congrArg MulRow.z (mulBlock_hi hm hC (i := i) (by omega))
        rw [show s + 1 + (i + 1) = s + 2 + i by omega]
        rw [show T (9, s + 2 + i) = (m.hi i).z from this]
        exact hm.hiStep i hi
    · obtain rfl : i = 0 := by omega
      refine ecc_gateAt 7 rfl rfl ?_
      rw [Nat.add_zero, mulHi_next (by omega), mulHi_cur (by omega), show s + 126 = s + 2 + 124 by omega,
        mulBlock_hi hm hC (i := 124) (by omega), Nat.add_assoc (s + 2),
        mulBlock_hi hm hC (i := 124 + 1) (by omega)]
      rw [show s + 2 + 124 = s + 2 + 123 + 1 by omega, rowAt_prev (by omega)]
      have := congrArg MulRow.z (mulBlock_hi hm hC (i := 123) (by omega))
      rw [show T (9, s + 2 + 123) = (m.hi 123).z from this]
      exact hm.hiLast
    · obtain rfl : i = 0 := by omega
      refine ecc_gateAt 8 rfl rfl ?_
      rw [Nat.add_zero, mulLo_next (by omega), rowAt_cur (by omega), (mulBlock_first hC).2.2.2.1,
        mulBlock_lo hm hC (i := 0) (by norm_num)]
      exact hm.loFirst
    · refine ecc_gateAt 9 rfl rfl ?_
      rw [mulLo_next (by omega), mulLo_cur (by omega), mulBlock_lo hm hC (i := i) (by omega), Nat.add_assoc (s + 2),
        mulBlock_lo hm hC (i := i + 1) (by omega)]
      rw [show s + 2 + i = s + 1 + i + 1 by omega, rowAt_prev (by omega)]
      cases i with
      | zero =>
        rw [Nat.add_zero, (mulBlock_first hC).2.2.1]
        exact hm.loStart
      | succ i =>
        have := congrArg MulRow.z (mulBlock_lo hm hC (i := i) (by omega))
        rw [show s + 1 + (i + 1) = s + 2 + i by omega]
        rw [show T (6, s + 2 + i) = (m.lo i).z from this]
        exact hm.loStep i hi
    · obtain rfl : i = 0 := by omega
      refine ecc_gateAt 10 rfl rfl ?_
      rw [Nat.add_zero, mulLo_next (by omega), mulLo_cur (by omega), show s + 127 = s + 2 + 125 by omega,
        mulBlock_lo hm hC (i := 125) (by omega), Nat.add_assoc (s + 2),
        mulBlock_lo hm hC (i := 125 + 1) (by omega)]
      rw [show s + 2 + 125 = s + 2 + 124 + 1 by omega, rowAt_prev (by omega)]
      have := congrArg MulRow.z (mulBlock_lo hm hC (i := 124) (by omega))
      rw [show T (6, s + 2 + 124) = (m.lo 124).z from this]
      exact hm.loLast
    · obtain rfl : i = 0 := by omega
      exact hbit 0 (by norm_num)
    · obtain rfl : i = 0 := by omega
      exact hbit 1 (by norm_num)
    · obtain rfl : i = 0 := by omega
      exact hbit 2 (by norm_num)
    · obtain ⟨h1, h2, h3, -⟩ := mulBlock_adds hC (i := i) (by omega)
      have h4 := (mulBlock_adds hC (i := i + 1) (by omega)).2.1
      exact mulBlock_add (by omega) h1 h2 (by rw [Nat.add_assoc]; exact h4) h3 (hm.adds i hi)
    · obtain rfl : i = 0 := by omega
      refine ecc_gateAt 13 rfl rfl ?_
      obtain ⟨h1, -, -, h2⟩ := mulBlock_adds hC (i := 6) (by omega)
      obtain ⟨k1, -, -, k2⟩ := mulBlock_adds hC (i := 7) (by omega)
      have l1 : (T (0, s + 129 + 6), T (1, s + 129 + 6)) = (m.adds 6).a := h1
      have l2 : (T (0, s + 129 + 7), T (1, s + 129 + 7)) = (m.adds 7).a := k1
      simp only [Nat.add_zero, rowAt_next (show s + 135 + 1 < numRows by omega), rowAt_cur (show s + 135 < numRows by omega)]
      rw [show s + 135 = s + 129 + 6 by omega, show s + 129 + 6 + 1 = s + 129 + 7 by omega, l1, l2, h2, k2]
      exact hm.lsb
  lookups T F _ x h := by cases h

end

/-- The cells of the overflow check. -/
def overflowPatch (o t : ℕ) (z0 z130 eta k254 alpha s : Fp) : Patch :=
  ⟨cellsAt o [(6, z0), (7, k254)] ++ cellsAt (o + 1) [(6, z130), (7, alpha), (8, s)] ++
    cellsAt (o + 2) [(6, eta), (7, runningSumOf s 13)], [], [(⟨20, 5, 5⟩, o + 1, 1)], []⟩ ++
  rangePatch 13 t (runningSumOf s)

section

variable {o t : ℕ} {z0 z130 eta k254 alpha x : Fp}

theorem overflowPatch_cells (h : Contains T F (overflowPatch o t z0 z130 eta k254 alpha x)) :
    T (6, o) = z0 ∧ T (7, o) = k254 ∧ T (6, o + 1) = z130 ∧ T (7, o + 1) = alpha ∧ T (8, o + 1) = x ∧
      T (6, o + 2) = eta ∧ T (7, o + 2) = runningSumOf x 13 := by
  have := (contains_append.1 h).1.advice
  simp only [cellsAt, List.map_cons, List.map_nil, List.cons_append, List.nil_append,
    List.forall_mem_cons, hasStrip_one] at this
  exact ⟨this.1, this.2.1, this.2.2.1, this.2.2.2.1, this.2.2.2.2.1, this.2.2.2.2.2.1, this.2.2.2.2.2.2.1⟩

theorem overflowPatch_ok (ho : o + 2 < usableRows) (ht : t + 13 < usableRows)
    (h : Gate (mulOverflowGate z0 z130 eta k254 alpha (runningSumOf x 13) x)) :
    (overflowPatch o t z0 z130 eta k254 alpha x).Ok P where
  cols st h := (List.mem_append.1 h).elim (fun h => by cases h) ((rangePatch_ok (P := P) ht (runningSum_runningSumOf 13 x)).cols st)
  codes y h := by
    rw [List.mem_singleton.1 h]
    exact mem_gateCodes rfl
  gates T F hC y hy i hi := by
    have hu := usable_le
    obtain ⟨h1, h2, h3, h4, h5, h6, h7⟩ := overflowPatch_cells hC
    obtain rfl := List.mem_singleton.1 hy
    dsimp only at hi ⊢
    obtain rfl : i = 0 := by omega
    refine ⟨by omega, ecc_gateAt 12 rfl rfl ?_, by simp, by simp⟩
    simp only [Nat.add_zero, rowAt_next (show o + 1 + 1 < numRows by omega), rowAt_cur (show o + 1 < numRows by omega),
      rowAt_prev (show o + 1 < numRows by omega)]
    rw [h1, h2, h3, h4, h5, show o + 1 + 1 = o + 2 from rfl, h6, h7]
    exact h
  lookups T F hC := by
    intro y hy
    exact (rangePatch_ok (P := P) ht (runningSum_runningSumOf 13 x)).lookups T F (contains_append.1 hC).2 y hy

theorem overflowPatch_region (ho : o + 2 < usableRows) (ht : t + 13 < usableRows)
    (h : Contains T F (overflowPatch o t z0 z130 eta k254 alpha x)) :
    MulOverflowRegion T F o t z0 z130 k254 alpha := by
  obtain ⟨h1, h2, h3, h4, h5, h6, h7⟩ := overflowPatch_cells h
  have hr := (contains_append.1 h).2
  refine ⟨ho, (contains_append.1 h).1.on (i := 0) (List.mem_singleton_self _) (by norm_num), h1, h3, h2, h4, ?_, ?_,
    rangePatch_region ht hr⟩
  · rw [h5]
    have := rangePatch_cells hr (i := 0) (by norm_num)
    rw [runningSumOf_zero] at this
    exact this.symm
  · rw [h7]
    exact (rangePatch_cells hr (i := 13) (by norm_num)).symm

end

def mulVarPatch (m : MulBlock) (s o t : ℕ) (z0 z130 eta k254 alpha x : Fp) : Patch :=
  mulBlockPatch m s ++ overflowPatch o t z0 z130 eta k254 alpha x

/-- The multiple of a point that is not the identity. -/
theorem exists_mulVarPatch {B : Point} (hB : B ≠ 0) (alpha : Fp) {s o t : ℕ} (hs : s + 136 < usableRows)
    (ho : o + 2 < usableRows) (ht : t + 13 < usableRows) :
    ∃ m z0 z130 eta k254 x, (mulVarPatch m s o t z0 z130 eta k254 alpha x).Ok P ∧
      ∀ T F, Contains T F (mulVarPatch m s o t z0 z130 eta k254 alpha x) →
        MulVarRegion T F s o t (cells B) alpha := by
  obtain ⟨eta, x, hov⟩ := exists_overflow alpha
  have hk : alpha.val + Constants.T_Q < 2 ^ 255 := by
    have ha := Fp.val_lt alpha
    have hT : Constants.T_Q < 2 ^ 126 := by norm_num [Constants.T_Q]
    have hp2 : p < 2 ^ 254 + 2 ^ 126 := by decide +kernel
    norm_num only at hT hp2 ⊢
    omega
  generalize alpha.val + Constants.T_Q = k at *
  have hK1 : k / 2 ^ 130 < 2 ^ (0 + 125) := by
    rw [Nat.div_lt_iff_lt_mul (by positivity), ← pow_add]; exact hk
  have hK2 : k / 2 ^ 4 < 2 ^ (125 + 126) := by
    rw [Nat.div_lt_iff_lt_mul (by positivity), ← pow_add]; exact hk
  have e12 : k / 2 ^ 4 / 2 ^ 126 = k / 2 ^ 130 := by rw [Nat.div_div_eq_div_mul, ← pow_add]
  have e254 : k / 2 ^ 130 / 2 ^ 124 = k / 2 ^ 254 := by rw [Nat.div_div_eq_div_mul, ← pow_add]
  obtain ⟨hi, i1, i2, i3, i4, i5, i6⟩ := exists_mulRows hB (j := 0) (n := 125) (by norm_num) hK1 (by norm_num)
  obtain ⟨lo, j1, j2, j3, j4, j5, j6⟩ := exists_mulRows hB (j := 125) (n := 126) (by norm_num) hK2 (by norm_num)
  have i0 : k / 2 ^ 130 / 2 ^ 125 = 0 := Nat.div_eq_of_lt (by rw [zero_add] at hK1; exact hK1)
  rw [i0, show ((2 ^ 0 + 1 + 2 * 0 : ℕ) : Fq) = 2 by norm_num] at i3
  rw [e12] at j3
  obtain ⟨Z, hZ⟩ : ∃ Z : ℕ → ℕ, Z = fun i => k / 2 ^ (4 - i) := ⟨_, rfl⟩
  obtain ⟨M, hM⟩ : ∃ M : ℕ → Point, M = fun i => ((2 ^ (251 + i) + 1 + 2 * Z i : ℕ) : Fq) • B := ⟨_, rfl⟩
  obtain ⟨C, hC⟩ : ∃ C : Point, C = if k % 2 = 1 then 0 else -B := ⟨_, rfl⟩
  obtain ⟨pa, hpa⟩ : ∃ pa : ℕ → Point, pa = fun i => if i = 7 then B else if i = 6 then C else
    if i % 2 = 0 then bitPoint B (Z (i / 2 + 1) % 2) else M (i / 2) := ⟨_, rfl⟩
  obtain ⟨pb, hpb⟩ : ∃ pb : ℕ → Point, pb = fun i => if i = 7 then C + M 3 else
    if i % 2 = 0 then M (i / 2) else bitPoint B (Z (i / 2 + 1) % 2) + M (i / 2) := ⟨_, rfl⟩
  have hZs : ∀ i < 3, Z (i + 1) = 2 * Z i + Z (i + 1) % 2 := by
    intro i hi'
    have : Z i = Z (i + 1) / 2 := by
      rw [hZ]
      dsimp only
      rw [Nat.div_div_eq_div_mul, ← pow_succ, show 4 - (i + 1) + 1 = 4 - i by omega]
    omega
  have hMs : ∀ i < 3, M i + (bitPoint B (Z (i + 1) % 2) + M i) = M (i + 1) := by
    intro i hi'
    obtain ⟨b, hb, e1, e2⟩ : ∃ b < 2, Z (i + 1) % 2 = b ∧ Z (i + 1) = 2 * Z i + b :=
      ⟨_, Nat.mod_lt _ (by norm_num), rfl, hZs i hi'⟩
    rw [hM]
    dsimp only
    rw [e1, e2, bitPoint_smul B hb, ← add_smul, ← add_smul, ← add_assoc 251 i 1, pow_succ]
    congr 1
    push_cast
    ring
  have hsum : ∀ i < 7, pa i + pb i = pb (i + 1) := by
    have h0 := hMs 0 (by norm_num)
    have h1 := hMs 1 (by norm_num)
    have h2 := hMs 2 (by norm_num)
    intro i hi'
    rw [hpa, hpb]
    interval_cases i
    · rfl
    · exact h0
    · rfl
    · exact h1
    · rfl
    · exact h2
    · rfl
  choose w hw using fun i => exists_addCells (pa i) (pb i)
  obtain ⟨w0, hw0⟩ := exists_addCells B B
  obtain ⟨z, hz⟩ : ∃ z : ℕ → Fp, z = fun i => if i = 7 then ((k : ℕ) : Fp) else
    if i % 2 = 0 then ((Z (i / 2) : ℕ) : Fp) else (cells B).2 := ⟨_, rfl⟩
  have hb2 : B + B = (2 : Fq) • B := (two_smul Fq B).symm
  have i6' : ((hi 125).xA, (hi 125).lambda1) = ((lo 0).xA, (lo 0).yA) := by rw [i6, j3]
  have j6' : ((lo 126).xA, (lo 126).lambda1) = cells (M 0) := by
    rw [j6, hM, hZ]
  obtain ⟨m, hm⟩ : ∃ m : MulBlock, m = ⟨cells B, ⟨cells B, cells B, w0⟩, cells (B + B), ((k / 2 ^ 130 : ℕ) : Fp),
    (hi 125).lambda1, hi, lo, fun i => ⟨cells (pa i), cells (pb i), w i⟩, z⟩ := ⟨_, rfl⟩
  have hmok : m.Ok := by
    rw [hm]
    refine ⟨i1, j1, hw0, ?_, ?_, fun i hi' => ?_, ?_, ?_, ?_, fun i hi' => ?_, ?_, fun i hi' => ?_, fun i hi' => ?_, ?_⟩
    · rw [mulInitGate, gate_cons]
      refine ⟨?_, gate_nil⟩
      dsimp only
      rw [hb2, ← i3, sub_self]
    · have := i4 0 (by norm_num)
      rw [Nat.sub_zero, i0, Nat.cast_zero] at this
      exact this
    · have := i4 (i + 1) (by omega)
      rw [← i2 i] at this
      exact this
    · have := i5 124 (by norm_num)
      rw [show 125 - 124 = 125 - (123 + 1) from rfl, ← i2 123] at this
      exact this
    · rw [mulInitGate, gate_cons]
      refine ⟨?_, gate_nil⟩
      dsimp only
      rw [show (hi 125).lambda1 = (lo 0).yA from congrArg Prod.snd i6', sub_self]
    · have := j4 0 (by norm_num)
      rw [Nat.sub_zero, e12] at this
      exact this
    · have := j4 (i + 1) (by omega)
      rw [← j2 i] at this
      exact this
    · have := j5 125 (by norm_num)
      rw [show 126 - 125 = 126 - (124 + 1) from rfl, ← j2 124] at this
      exact this
    · dsimp only
      have e0 : z (2 * i) = ((Z i : ℕ) : Fp) := by
        rw [hz]; dsimp only
        rw [if_neg (by omega), if_pos (by omega), show 2 * i / 2 = i by omega]
      have e1 : z (2 * i + 1) = (cells B).2 := by
        rw [hz]; dsimp only
        rw [if_neg (by omega), if_neg (by omega)]
      have e2 : z (2 * i + 2) = ((Z (i + 1) : ℕ) : Fp) := by
        rw [hz]; dsimp only
        rw [if_neg (by omega), if_pos (by omega), show (2 * i + 2) / 2 = i + 1 by omega]
      have ep : pa (2 * i) = bitPoint B (Z (i + 1) % 2) := by
        rw [hpa]; dsimp only
        rw [if_neg (by omega), if_neg (by omega), if_pos (by omega), show 2 * i / 2 = i by omega]
      have hb := hZs i hi'
      rw [e0, e1, e2, ep, cells_bitPoint B (Nat.mod_lt _ (by norm_num)), mulCompleteGate]
      dsimp only
      have hk2 := Nat.mod_lt (Z (i + 1)) (show 0 < 2 by norm_num)
      have hd : ((Z (i + 1) : ℕ) : Fp) - 2 * ((Z i : ℕ) : Fp) = ((Z (i + 1) % 2 : ℕ) : Fp) := by
        rw [sub_eq_iff_eq_add]
        conv_lhs => rw [hb]
        push_cast; ring
      rw [hd, gate_cons, gate_cons]
      refine ⟨?_, ?_, gate_nil⟩
      · interval_cases Z (i + 1) % 2 <;> simp [boolCheck]
      · interval_cases Z (i + 1) % 2 <;> simp [ternary] <;> ring1
    · have := hw i
      rw [hsum i hi'] at this
      exact this
    · dsimp only
      have e0 : z 6 = ((k / 2 : ℕ) : Fp) := by rw [hz, hZ]; rfl
      have e1 : z 7 = ((k : ℕ) : Fp) := by rw [hz]; rfl
      have ep : pa 6 = C := by rw [hpa]; rfl
      have ep' : pa 7 = B := by rw [hpa]; rfl
      rw [e0, e1, ep, ep', mulLsbGate]
      have hd : ((k : ℕ) : Fp) - ((k / 2 : ℕ) : Fp) * 2 = ((k % 2 : ℕ) : Fp) := by
        rw [sub_eq_iff_eq_add]
        conv_lhs => rw [← Nat.mod_add_div k 2]
        push_cast; ring
      rw [hd, gate_cons, gate_cons, gate_cons, hC]
      have hk2 := Nat.mod_lt k (show 0 < 2 by norm_num)
      refine ⟨?_, ?_, ?_, gate_nil⟩
      · interval_cases k % 2 <;> simp [boolCheck]
      · interval_cases k % 2 <;> simp [ternary, cells_neg]
      · interval_cases k % 2 <;> simp [ternary, cells_neg]
  refine ⟨m, (k : ℕ), ((k / 2 ^ 130 : ℕ) : Fp), eta, ((k / 2 ^ 254 : ℕ) : Fp), x,
    (mulBlockPatch_ok hs hmok).append (overflowPatch_ok ho ht hov), fun T F h => ?_⟩
  obtain ⟨hb, hovc⟩ := contains_append.1 h
  obtain ⟨d1, d2, -⟩ := mulBlock_double hb
  obtain ⟨f1, f2, f3, f4, f5⟩ := mulBlock_first hb
  have ha := fun i (hi' : i < 8) => mulBlock_adds hb (i := i) hi'
  have hh := fun i (hi' : i < 127) => mulBlock_hi hmok hb (i := i) hi'
  have hl := fun i (hi' : i < 127) => mulBlock_lo hmok hb (i := i) hi'
  simp only [hm] at d1 d2 f1 f2 f3 f4 ha hh hl
  have on : ∀ {c a n} (_ : (c, a, n) ∈ (mulBlockPatch m s).gates) {i} (_ : i < n), On F c (a + i) :=
    fun hmem _ hi' => hb.on hmem hi'
  have hu := usable_le
  have hbase0 : pointAt T 0 (s + 2) = cells B := by
    have := hh 0 (by norm_num)
    have e := i1 0
    rw [← this] at e
    exact e
  have r125 := hh 125 (by norm_num)
  have l0 := hl 0 (by norm_num)
  have l125 := hl 125 (by norm_num)
  have l126 := hl 126 (by norm_num)
  have r124 := hh 124 (by norm_num)
  have r0 := hh 0 (by norm_num)
  refine ⟨⟨by omega, on (i := 0) (n := 1) (by simp [mulBlockPatch]) (by norm_num), d1, d2⟩, ⟨?_, ?_, ?_, f5, ?_, hbase0⟩,
    ⟨?_, ?_, ?_, ?_, ?_⟩, ⟨?_, ?_, ?_, ?_, ?_, ?_, ?_⟩, ?_, ?_, ?_, ?_⟩
  · exact on (i := 0) (n := 1) (by simp [mulBlockPatch]) (by norm_num)
  · exact fun i hi' => on (n := 124) (by simp [mulBlockPatch]) hi'
  · exact on (i := 0) (n := 1) (by simp [mulBlockPatch]) (by norm_num)
  · rw [f1]
    refine Prod.ext ?_ f2
    rw [hb2, ← i3]
    exact congrArg MulRow.xA r0
  · exact on (i := 0) (n := 1) (by simp [mulBlockPatch]) (by norm_num)
  · exact fun i hi' => on (n := 125) (by simp [mulBlockPatch]) hi'
  · exact on (i := 0) (n := 1) (by simp [mulBlockPatch]) (by norm_num)
  · rw [f3]
    have := congrArg MulRow.z r124
    rw [i2, Nat.sub_self, pow_zero, Nat.div_one] at this
    exact this.symm
  · refine Prod.ext ?_ ?_
    · have e1 : T (7, s + 2) = (lo 0).xA := congrArg MulRow.xA l0
      have e2 : T (3, s + 127) = (hi 125).xA := congrArg MulRow.xA r125
      rw [e1, e2]
      exact (congrArg Prod.fst i6').symm
    · have e2 : T (4, s + 127) = (hi 125).lambda1 := congrArg MulRow.lambda1 r125
      rw [f4, e2]
  · have e1 : T (6, s + 127) = (lo 125).z := congrArg MulRow.z l125
    rw [e1, j2, Nat.sub_self, pow_zero, Nat.div_one]
    refine ((ha 0 (by norm_num)).2.2.2).trans ?_
    rw [hz, hZ]
    rfl
  · have e1 : T (7, s + 128) = (lo 126).xA := congrArg MulRow.xA l126
    have e2 : T (8, s + 128) = (lo 126).lambda1 := congrArg MulRow.lambda1 l126
    rw [e1, e2, j6']
    refine ((ha 0 (by norm_num)).2.1).trans ?_
    rw [hpb]
    rfl
  · intro i hi'
    interval_cases i
    · exact on (i := 0) (a := s + 130) (n := 1) (by simp [mulBlockPatch]) (by norm_num)
    · exact on (i := 0) (a := s + 132) (n := 1) (by simp [mulBlockPatch]) (by norm_num)
    · exact on (i := 0) (a := s + 134) (n := 1) (by simp [mulBlockPatch]) (by norm_num)
  · intro i hi'
    rw [Nat.add_assoc]
    refine ((ha (2 * i + 1) (by omega)).2.2.2).trans ?_
    rw [hz]; dsimp only
    rw [if_neg (by omega), if_neg (by omega)]
  · intro i hi'
    refine (congrArg Prod.fst (ha (2 * i) (by omega)).1).trans ?_
    have ep : pa (2 * i) = bitPoint B (Z (i + 1) % 2) := by
      rw [hpa]; dsimp only
      rw [if_neg (by omega), if_neg (by omega), if_pos (by omega), show 2 * i / 2 = i by omega]
    rw [ep, cells_bitPoint B (Nat.mod_lt _ (by norm_num))]
  · intro i hi'
    exact ⟨by omega, on (a := s + 129) (n := 7) (by simp [mulBlockPatch]) (by omega), rfl, rfl⟩
  · intro i hi'
    refine ⟨by omega, on (a := s + 129) (n := 7) (by simp [mulBlockPatch]) (show 2 * i + 1 < 7 by omega), ?_, rfl⟩
    rw [Nat.add_assoc, (ha (2 * i + 1) (by omega)).1, (ha (2 * i) (by omega)).2.1, hpa, hpb]
    dsimp only
    rw [if_neg (by omega), if_neg (by omega), if_neg (by omega), if_neg (by omega), if_pos (by omega),
      show (2 * i + 1) / 2 = 2 * i / 2 by omega]
  · exact on (i := 0) (n := 1) (by simp [mulBlockPatch]) (by norm_num)
  · refine ((ha 7 (by norm_num)).1).trans ?_
    rw [hpa]
    rfl
  · exact ⟨by omega, on (a := s + 129) (i := 6) (n := 7) (by simp [mulBlockPatch]) (by norm_num), rfl, rfl⟩
  · have e1 : T (9, s + 136) = ((k : ℕ) : Fp) := by
      refine ((ha 7 (by norm_num)).2.2.2).trans ?_
      rw [hz]
      rfl
    have e2 : T (9, s + 126) = ((k / 2 ^ 130 : ℕ) : Fp) := by
      have := congrArg MulRow.z r124
      rw [i2] at this
      refine Eq.trans this ?_
      norm_num
    have e3 : T (9, s + 2) = ((k / 2 ^ 254 : ℕ) : Fp) := by
      have := congrArg MulRow.z r0
      rw [i2, show 125 - (0 + 1) = 124 from rfl, e254] at this
      exact this
    rw [e1, e2, e3]
    exact overflowPatch_region ho ht hovc

end Orchard.Regions
