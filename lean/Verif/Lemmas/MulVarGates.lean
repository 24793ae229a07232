import Verif.Lemmas.SinsemillaGates
import Verif.Lemmas.MulFixedScalars
import Verif.Lemmas.Halo2

/-!
# Variable-base multiplication: what its gates say about the cells
-/

namespace Orchard.Halo2

/-- A multiple of a point by a number. -/
theorem cast_smul_ne_zero {B : Point} (hB : B ≠ 0) {m : ℕ} (h0 : 0 < m) (hq : m < q) : ((m : ℕ) : Fq) • B ≠ 0 := by
  rw [Ne, smul_eq_zero_iff', not_or]
  refine ⟨fun h => ?_, hB⟩
  have := (ZMod.natCast_eq_zero_iff m q).1 h
  exact absurd (Nat.le_of_dvd h0 this) (by omega)

/-- The point that is added for a bit. -/
def bitPoint (B : Point) (k : ℕ) : Point := if k = 1 then B else -B

theorem bitPoint_smul (B : Point) {k : ℕ} (hk : k < 2) : bitPoint B k = (2 * (k : Fq) - 1) • B := by
  unfold bitPoint
  interval_cases k
  · simp
  · rw [if_pos rfl]; norm_num

theorem cells_bitPoint (B : Point) {k : ℕ} (hk : k < 2) :
    cells (bitPoint B k) = ((cells B).1, ((k : Fp) * 2 - 1) * (cells B).2) := by
  unfold bitPoint
  interval_cases k
  · rw [if_neg (by norm_num), cells_neg]; simp
  · rw [if_pos rfl]
    refine Prod.ext rfl ?_
    norm_num

/-- A step of the loop: the bit `k` takes `[m] B` to `[2 m + 2 k - 1] B`. -/
theorem mulLoop_sound {B : Point} (hB : B ≠ 0) {m : ℕ} (hm : 2 ≤ m) (hq : 2 * m + 1 < q) {zPrev : Fp} {r : MulRow}
    {x' y' : Fp} (cA : cells ((m : Fq) • B) = (r.xA, r.yA)) (cB : cells B = (r.xP, r.yP))
    (h : Gate (mulLoop zPrev r x' y')) :
    ∃ k < 2, r.z = zPrev * 2 + (k : ℕ) ∧ cells (((2 * m + 2 * k - 1 : ℕ) : Fq) • B) = (x', y') := by
  simp only [mulLoop, gate_cons] at h
  obtain ⟨h1, h2, h3, h4, -⟩ := h
  obtain ⟨k, hk, ek⟩ := boolCheck_eq_zero h1
  refine ⟨k, hk, by rw [← ek, mulBit]; ring, ?_⟩
  rw [ek] at h2
  have e1 : ((m : Fq) • B) - B = ((m - 1 : ℕ) : Fq) • B := by
    rw [Nat.cast_sub (by omega), sub_smul, Nat.cast_one, one_smul]
  have e2 : ((m : Fq) • B) + B = ((m + 1 : ℕ) : Fq) • B := by
    rw [Nat.cast_add, add_smul, Nat.cast_one, one_smul]
  have n1 : (m : Fq) • B ≠ B := fun he => cast_smul_ne_zero hB (m := m - 1) (by omega) (by omega)
    (by rw [← e1, he, sub_self])
  have n2 : (m : Fq) • B ≠ -B := fun he => cast_smul_ne_zero hB (m := m + 1) (by omega) (by omega)
    (by rw [← e2, he, neg_add_cancel])
  have hfin : (m : Fq) • B + bitPoint B k + (m : Fq) • B = ((2 * m + 2 * k - 1 : ℕ) : Fq) • B := by
    rw [bitPoint_smul B hk, ← add_smul, ← add_smul, Nat.cast_sub (by omega)]
    congr 1
    push_cast; ring
  have hS0 : bitPoint B k ≠ 0 := by
    unfold bitPoint
    split_ifs
    · exact hB
    · exact neg_ne_zero.2 hB
  have nS : (m : Fq) • B ≠ bitPoint B k ∧ (m : Fq) • B ≠ -bitPoint B k := by
    unfold bitPoint
    split_ifs
    · exact ⟨n1, n2⟩
    · exact ⟨n2, by rw [neg_neg]; exact n1⟩
  rw [← hfin]
  refine double_and_add (l1 := r.lambda1) (l2 := r.lambda2) (xR := r.xR) (xS := r.xP)
    (yS := ((k : Fp) * 2 - 1) * r.yP) (cast_smul_ne_zero hB (by omega) (by omega)) hS0 nS.1 nS.2 ?_ cA ?_ rfl
    ?_ ?_ ?_ ?_
  · intro he
    rw [← sub_eq_zero, sub_neg_eq_add, hfin] at he
    exact cast_smul_ne_zero hB (by omega) (by omega) he
  · rw [cells_bitPoint B hk, cB]
  · linear_combination h2
  · rw [MulRow.yA, mul_comm 2, twice_half]
  · linear_combination h3
  · linear_combination h4

/-- The loop: after `i` more bits the accumulator is `[2^(j+i) + 1 + 2 K] B` for the number `K` that all bits so far
spell, and the cells of the running sum contain its leading bits. -/
theorem mulRows_sound {B : Point} (hB : B ≠ 0) {r : ℕ → MulRow} {z : ℕ → Fp} {n j K : ℕ}
    (hj : j + n ≤ 251) (hK : K < 2 ^ j) (hz0 : z 0 = (K : ℕ)) (hz : ∀ i < n, (r i).z = z (i + 1))
    (hA : cells (((2 ^ j + 1 + 2 * K : ℕ) : Fq) • B) = ((r 0).xA, (r 0).yA)) (hP : cells B = ((r 0).xP, (r 0).yP))
    (hstep : ∀ i, i + 1 < n → Gate (mulStepGate (z i) (r i) (r (i + 1))))
    (hlast : ∀ i, i + 1 = n → Gate (mulLastGate (z i) (r i) (r n))) (hn : 0 < n) :
    ∃ K' < 2 ^ (j + n), K' / 2 ^ n = K ∧ (∀ i ≤ n, z i = ((K' / 2 ^ (n - i) : ℕ) : Fp)) ∧
      cells (((2 ^ (j + n) + 1 + 2 * K' : ℕ) : Fq) • B) = ((r n).xA, (r n).lambda1) := by
  have hq251 : 3 * 2 ^ 251 < q := by decide +kernel
  have key : ∀ i ≤ n, ∃ K' < 2 ^ (j + i), K' / 2 ^ i = K ∧ (∀ l ≤ i, z l = ((K' / 2 ^ (i - l) : ℕ) : Fp)) ∧
      cells (((2 ^ (j + i) + 1 + 2 * K' : ℕ) : Fq) • B) =
        ((r i).xA, if i < n then (r i).yA else (r i).lambda1) ∧
      (i < n → cells B = ((r i).xP, (r i).yP)) := by
    intro i
    induction i with
    | zero =>
      intro _
      refine ⟨K, hK, by simp, fun l hl => ?_, ?_, fun _ => hP⟩
      · obtain rfl : l = 0 := by omega
        simp [hz0]
      · rw [if_pos hn]; exact hA
    | succ i ih =>
      intro hi
      obtain ⟨K', hK', hdiv, hzs, hc, hb⟩ := ih (by omega)
      rw [if_pos (by omega)] at hc
      have hb := hb (by omega)
      have hpow : 2 ^ (j + i + 1) ≤ 2 ^ 251 := Nat.pow_le_pow_right (by norm_num) (by omega)
      have hp1 : 2 ^ (j + i + 1) = 2 * 2 ^ (j + i) := by rw [pow_succ, mul_comm]
      have hpos : 0 < 2 ^ (j + i) := Nat.two_pow_pos _
      have fin : ∀ {x' y' : Fp}, Gate (mulLoop (z i) (r i) x' y') → ∃ k < 2, z (i + 1) = z i * 2 + (k : ℕ) ∧
          cells (((2 ^ (j + (i + 1)) + 1 + 2 * (2 * K' + k) : ℕ) : Fq) • B) = (x', y') := by
        intro x' y' hg
        have hm2 : 2 ≤ 2 ^ (j + i) + 1 + 2 * K' := by omega
        obtain ⟨k, hk, e1, e2⟩ := mulLoop_sound hB hm2 (by omega) hc hb hg
        refine ⟨k, hk, by rw [← hz i (by omega), e1], ?_⟩
        rw [← e2, ← add_assoc j i 1, hp1]
        congr 4
        omega
      have wrap : ∀ k < 2, z (i + 1) = z i * 2 + (k : ℕ) →
          2 * K' + k < 2 ^ (j + (i + 1)) ∧ (2 * K' + k) / 2 ^ (i + 1) = K ∧
            ∀ l ≤ i + 1, z l = (((2 * K' + k) / 2 ^ (i + 1 - l) : ℕ) : Fp) := by
        intro k hk ez
        refine ⟨?_, ?_, fun l hl => ?_⟩
        · rw [← add_assoc, hp1]; omega
        · rw [pow_succ, mul_comm (2 ^ i) 2, ← Nat.div_div_eq_div_mul, show (2 * K' + k) / 2 = K' by omega]
          exact hdiv
        · rcases Nat.lt_or_ge l (i + 1) with hl' | hl'
          · rw [show i + 1 - l = (i - l) + 1 by omega, pow_succ, mul_comm (2 ^ (i - l)) 2,
              ← Nat.div_div_eq_div_mul, show (2 * K' + k) / 2 = K' by omega]
            exact hzs l (by omega)
          · obtain rfl : l = i + 1 := by omega
            rw [ez, hzs i le_rfl]
            simp
            ring
      rcases Nat.lt_or_ge (i + 1) n with hlt | hge
      · have hg := hstep i hlt
        simp only [mulStepGate, List.cons_append, List.nil_append, gate_cons] at hg
        obtain ⟨g1, g2, g3⟩ := hg
        obtain ⟨k, hk, ez, hc'⟩ := fin g3
        obtain ⟨w1, w2, w3⟩ := wrap k hk ez
        refine ⟨2 * K' + k, w1, w2, w3, by rw [if_pos hlt]; exact hc', fun _ => ?_⟩
        rw [hb, sub_eq_zero.1 g1, sub_eq_zero.1 g2]
      · have e : i + 1 = n := by omega
        obtain ⟨k, hk, ez, hc'⟩ := fin (hlast i e)
        obtain ⟨w1, w2, w3⟩ := wrap k hk ez
        refine ⟨2 * K' + k, w1, w2, w3, ?_, fun h => absurd h (by omega)⟩
        rw [if_neg (by omega), e]
        rw [e] at hc'
        exact hc'
  obtain ⟨K', h1, h2, h3, h4, -⟩ := key n le_rfl
  rw [if_neg (lt_irrefl n)] at h4
  exact ⟨K', h1, h2, h3, h4⟩

/-- Complete additions for a bit: `[m] B` becomes `[2 m + 2 k - 1] B`. -/
theorem mulComplete_sound {B : Point} {m K : ℕ} (hm : 1 ≤ m) {z z' yP : Fp} (hz : z = (K : ℕ))
    (h : Gate (mulCompleteGate z z' (cells B).2 yP)) :
    ∃ k < 2, z' = ((2 * K + k : ℕ) : Fp) ∧ ((cells B).1, yP) = cells (bitPoint B k) ∧
      (m : Fq) • B + (bitPoint B k + (m : Fq) • B) = ((2 * m + 2 * k - 1 : ℕ) : Fq) • B := by
  simp only [mulCompleteGate, gate_cons] at h
  obtain ⟨h1, h2, -⟩ := h
  obtain ⟨k, hk, ek⟩ := boolCheck_eq_zero h1
  refine ⟨k, hk, ?_, ?_, ?_⟩
  · push_cast
    rw [← ek, ← hz]; ring
  · rw [cells_bitPoint B hk]
    refine Prod.ext rfl ?_
    rw [ek] at h2
    simp only [ternary] at h2
    interval_cases k
    · push_cast at h2 ⊢
      linear_combination h2
    · push_cast at h2 ⊢
      linear_combination -h2
  · rw [bitPoint_smul B hk, ← add_smul, ← add_smul, Nat.cast_sub (by omega)]
    congr 1
    push_cast; ring

/-- The last bit: `[m] B` becomes `[m + k - 1] B`. -/
theorem mulLsb_sound {B : Point} {m K : ℕ} (hm : 1 ≤ m) {z1 z0 : Fp} {A : Fp × Fp} (hz : z1 = (K : ℕ))
    (h : Gate (mulLsbGate z1 z0 A (cells B))) :
    ∃ k < 2, z0 = ((2 * K + k : ℕ) : Fp) ∧ ∃ C, A = cells C ∧
      C + (m : Fq) • B = ((m + k - 1 : ℕ) : Fq) • B := by
  simp only [mulLsbGate, gate_cons] at h
  obtain ⟨h1, h2, h3, -⟩ := h
  obtain ⟨k, hk, ek⟩ := boolCheck_eq_zero h1
  refine ⟨k, hk, ?_, ?_⟩
  · push_cast
    rw [← ek, ← hz]; ring
  · rw [ek] at h2 h3
    simp only [ternary] at h2 h3
    interval_cases k
    · refine ⟨-B, ?_, ?_⟩
      · rw [cells_neg]
        push_cast at h2 h3
        refine Prod.ext ?_ ?_
        · linear_combination h2
        · linear_combination h3
      · rw [Nat.add_zero, Nat.cast_sub hm, sub_smul, Nat.cast_one, one_smul]
        abel
    · refine ⟨0, ?_, ?_⟩
      · push_cast at h2 h3
        refine Prod.ext ?_ ?_
        · simpa using h2
        · simpa using h3
      · rw [zero_add, Nat.add_sub_cancel]

/-- The overflow check: the bits spell `α + t_q`, also as numbers. -/
theorem mulOverflow_sound {k : ℕ} (hk : k < 2 ^ 255) {alpha eta s sLo : Fp} {N : ℕ} (hN : N < 2 ^ 130)
    (hs : s = (N : ℕ) + 2 ^ 130 * sLo)
    (h : Gate (mulOverflowGate ((k : ℕ) : Fp) ((k / 2 ^ 130 : ℕ) : Fp) eta ((k / 2 ^ 254 : ℕ) : Fp) alpha sLo s)) :
    k = alpha.val + Constants.T_Q := by
  simp only [mulOverflowGate, gate_cons] at h
  obtain ⟨g1, g2, g3, g4, g5, -⟩ := h
  have ha := Fp.val_lt alpha
  have hcast := Fp.natCast_val alpha
  have hT : Constants.T_Q < 2 ^ 126 := by norm_num [Constants.T_Q]
  have hp1 : 2 ^ 254 < p := by decide +kernel
  have hp2 : p < 2 ^ 254 + 2 ^ 126 := by decide +kernel
  have hmod : (k : Fp) = ((alpha.val + Constants.T_Q : ℕ) : Fp) := by
    push_cast
    rw [hcast]
    linear_combination g2
  generalize Constants.T_Q = t at *
  generalize hv : alpha.val = a at *
  have hdvd := (ZMod.natCast_eq_natCast_iff _ _ _).1 hmod
  have hbit : k / 2 ^ 254 < 2 := by
    rw [Nat.div_lt_iff_lt_mul (by positivity)]
    norm_num only at hk ⊢
    omega
  have h255 : (2 : ℕ) ^ 255 = 2 * 2 ^ 254 := by norm_num
  have h130 : (2 : ℕ) ^ 130 * 2 ^ 120 < 2 ^ 254 := by norm_num
  have h126 : (2 : ℕ) ^ 126 < 2 ^ 130 := by norm_num
  have hcases : k = a + t ∨ k + p = a + t ∨ k = a + t + p := by
    have h1 : k % p = (a + t) % p := hdvd
    have h2 := Nat.div_add_mod k p
    have h3 := Nat.div_add_mod (a + t) p
    have h4 : k / p < 2 := by
      rw [Nat.div_lt_iff_lt_mul (by omega)]; omega
    have h5 : (a + t) / p < 2 := by
      rw [Nat.div_lt_iff_lt_mul (by omega)]; omega
    interval_cases k / p <;> interval_cases (a + t) / p <;> omega
  rcases hcases with h | h | h
  · exact h
  · exfalso
    have hsmall : k < 2 ^ 126 := by omega
    have e0 : k / 2 ^ 254 = 0 := Nat.div_eq_of_lt (by omega)
    have e1 : k / 2 ^ 130 = 0 := Nat.div_eq_of_lt (by omega)
    rw [e0, e1] at g5
    rw [e0] at g1
    have hlo : sLo = 0 := by simpa using g5
    rw [hlo] at hs
    have hNa : ((N : ℕ) : Fp) = ((a : ℕ) : Fp) := by
      rw [hcast]
      rw [hs] at g1
      push_cast at g1
      linear_combination g1
    have := Fp.natCast_inj (by omega) ha hNa
    omega
  · exfalso
    have e0 : k / 2 ^ 254 = 1 := by
      have : 1 ≤ k / 2 ^ 254 := by
        rw [Nat.le_div_iff_mul_le (by positivity)]; omega
      omega
    rw [e0, Nat.cast_one, one_mul] at g3 g4
    rw [e0] at g1
    have e1 : k / 2 ^ 130 = 2 ^ 124 := by
      refine Fp.natCast_inj ?_ ?_ ?_
      · have : k / 2 ^ 130 < 2 ^ 254 := by
          rw [Nat.div_lt_iff_lt_mul (by positivity)]
          exact hk.trans (by norm_num)
        omega
      · have : (2 : ℕ) ^ 124 < 2 ^ 254 := by norm_num
        omega
      · rw [Nat.cast_pow, Nat.cast_ofNat]
        exact sub_eq_zero.1 g3
    have hk2 : k < 2 ^ 254 + 2 ^ 130 := by
      have := Nat.lt_mul_div_succ k (show 0 < 2 ^ 130 by positivity)
      rw [e1] at this
      norm_num only at this ⊢
      omega
    rw [hs, g4] at g1
    have hNa : ((N + (p - a) : ℕ) : Fp) = ((2 ^ 130 : ℕ) : Fp) := by
      rw [Nat.cast_add, Nat.cast_sub ha.le, hcast, ZMod.natCast_self p]
      push_cast at g1 ⊢
      linear_combination g1
    have : p - a ≤ 2 ^ 130 := by
      by_contra hc
      have h1 : N + (p - a) < 2 * p := by omega
      have h2 := (ZMod.natCast_eq_natCast_iff _ _ _).1 hNa
      have h3 : (N + (p - a)) % p = 2 ^ 130 % p := h2
      rw [Nat.mod_eq_of_lt (show 2 ^ 130 < p by omega)] at h3
      have h4 := Nat.div_add_mod (N + (p - a)) p
      have h5 : (N + (p - a)) / p < 2 := by rw [Nat.div_lt_iff_lt_mul (by omega)]; omega
      interval_cases (N + (p - a)) / p <;> omega
    omega

end Orchard.Halo2
