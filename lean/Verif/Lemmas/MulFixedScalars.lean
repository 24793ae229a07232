import Verif.Lemmas.MulFixed
import Verif.Lemmas.Halo2
import Verif.Lemmas.FixedBaseTables

/-!
# Helper lemmas for C75: the scalars of fixed-base multiplication
-/

namespace Orchard.Halo2

open Finset

theorem gate_rangePoly {n : ℕ} (hn : 0 < n) {x : Fp} : Gate [rangePoly n x] ↔ ∃ k < n, x = (k : Fp) := by
  rw [gate_cons, and_iff_left gate_nil, rangePoly_eq_zero hn]

theorem exists_digit_iff {n : ℕ} (hn : n ≤ p) {x : Fp} : (∃ k < n, x = (k : Fp)) ↔ x.val < n := by
  constructor
  · rintro ⟨k, hk, rfl⟩
    rwa [ZMod.val_natCast_of_lt (by omega)]
  · intro h
    exact ⟨x.val, h, (Fp.natCast_val x).symm⟩

theorem sum_digits (N : ℕ) : ∀ n, ∑ w ∈ range n, N / 8 ^ w % 8 * 8 ^ w = N % 8 ^ n
  | 0 => by simp [Nat.mod_one]
  | n + 1 => by
    rw [sum_range_succ, sum_digits N n, pow_succ, Nat.mod_mul, mul_comm (8 ^ n)]

theorem digit_cast (N w : ℕ) : ((N / 8 ^ w : ℕ) : Fp) - 2 ^ 3 * ((N / 8 ^ (w + 1) : ℕ) : Fp) =
    ((N / 8 ^ w % 8 : ℕ) : Fp) := by
  rw [pow_succ (8 : ℕ) w, ← Nat.div_div_eq_div_mul, sub_eq_iff_eq_add]
  conv_lhs => rw [← Nat.mod_add_div (N / 8 ^ w) 8]
  push_cast
  norm_num

/-- A running sum is that of a number with three bits for each window. -/
theorem decompose_spec {n : ℕ} {z : ℕ → Fp} (h : Decompose n z) :
    ∃ N : ℕ, N < 8 ^ n ∧ ∀ w ≤ n, z w = ((N / 8 ^ w : ℕ) : Fp) := by
  obtain ⟨h, hz⟩ := h
  induction n generalizing z with
  | zero =>
    refine ⟨0, by norm_num, fun w hw => ?_⟩
    obtain rfl : w = 0 := by omega
    simpa using hz
  | succ n ih =>
    obtain ⟨N, hN, hw⟩ := ih (z := fun i => z (i + 1)) (fun i hi => h (i + 1) (by omega)) hz
    obtain ⟨k, hk, hk'⟩ := (gate_rangePoly (by decide)).1 (h 0 (by omega))
    have hk8 : k < 8 := hk
    refine ⟨k + 8 * N, by rw [pow_succ]; omega, fun w hwn => ?_⟩
    cases w with
    | zero =>
      have h1 := hw 0 (by omega)
      simp only [zero_add, pow_zero, Nat.div_one] at h1
      rw [sub_eq_iff_eq_add, zero_add, h1, fixedBaseWindowSize] at hk'
      rw [hk', pow_zero, Nat.div_one]
      push_cast
      ring
    | succ w =>
      have h1 := hw w (by omega)
      rw [h1, pow_succ', ← Nat.div_div_eq_div_mul, show (k + 8 * N) / 8 = N by omega]

theorem decompose_complete {n N : ℕ} (hN : N < 8 ^ n) : Decompose n fun w => ((N / 8 ^ w : ℕ) : Fp) := by
  refine ⟨fun w _ => (gate_rangePoly (by decide)).2 ⟨N / 8 ^ w % 8, Nat.mod_lt _ (by norm_num), ?_⟩, ?_⟩
  · exact digit_cast N w
  · simp [Nat.div_eq_of_lt hN]

/-- Multiplication by the number in a running sum. -/
theorem mulDecomposed_sound {F : FixedBase} {n : ℕ} (hn : 2 ≤ n) (hn' : n ≤ 85)
    (hT : Spec.TablesFit F.generator n F.z F.u) {z : ℕ → Fp} {N : ℕ} (hN : N < 8 ^ n)
    (hz : ∀ w ≤ n, z w = ((N / 8 ^ w : ℕ) : Fp)) {c : WindowCells} {out : Fp × Fp}
    (h : MulWindows F n (windowOf z) c out) : out = cells (N • F.generator) := by
  have := mulWindows_sound hn hn' hT (d := fun w => N / 8 ^ w % 8) (fun w _ => Nat.mod_lt _ (by norm_num))
    (fun w hw => by
      rw [windowOf, hz w (by omega), hz (w + 1) (by omega)]
      exact digit_cast N w) h
  rwa [sum_digits, Nat.mod_eq_of_lt hN] at this

theorem mulDecomposed_complete {F : FixedBase} {n : ℕ} (hn : 2 ≤ n) (hn' : n ≤ 85)
    (hT : Spec.TablesFit F.generator n F.z F.u) {N : ℕ} (hN : N < 8 ^ n) :
    MulWindows F n (windowOf fun w => ((N / 8 ^ w : ℕ) : Fp)) (assignWindows F n fun w => N / 8 ^ w % 8)
      (cells (N • F.generator)) := by
  have := mulWindows_complete hn hn' hT (window := windowOf fun w => ((N / 8 ^ w : ℕ) : Fp))
    (d := fun w => N / 8 ^ w % 8) (fun w _ => Nat.mod_lt _ (by norm_num)) (fun w _ => digit_cast N w)
  rwa [sum_digits, Nat.mod_eq_of_lt hN] at this

theorem cells_neg (A : Point) : cells (-A) = ((cells A).1, -(cells A).2) := by
  rcases Point.cases_xy A with rfl | ⟨x, y, e, rfl⟩
  · simp
  · rw [Point.neg_ofXY]; rfl

/-! ### Full-width scalars -/

theorem mulFixedGates_iff {F : FixedBase} (hT : Spec.TablesFit F.generator numWindows F.z F.u)
    {window : ℕ → Fp} {out : Fp × Fp} :
    (∃ c, MulFixedGates F window c out) ↔ (∀ w < numWindows, (window w).val < 8) ∧
      ∃ A, out = cells A ∧ MulFixed F.generator (∑ w ∈ range numWindows, ((window w).val : Fq) * 8 ^ w) A := by
  have hp8 : 8 ≤ p := by decide +kernel
  have hcast : (∑ w ∈ range numWindows, ((window w).val : Fq) * 8 ^ w) • F.generator =
      (∑ w ∈ range numWindows, (window w).val * 8 ^ w) • F.generator := by
    rw [← natCast_smul]; push_cast; rfl
  constructor
  · rintro ⟨c, h1, h2⟩
    have hr : ∀ w < numWindows, (window w).val < 8 := fun w hw =>
      (exists_digit_iff hp8).1 ((gate_rangePoly (by decide)).1 (h1 w hw))
    refine ⟨hr, _, mulWindows_sound (by decide) (by decide) hT (d := fun w => (window w).val) hr
      (fun w _ => (Fp.natCast_val _).symm) h2, ?_⟩
    rw [MulFixed, hcast]
  · rintro ⟨hr, A, rfl, hA⟩
    refine ⟨assignWindows F numWindows fun w => (window w).val, fun w hw =>
      (gate_rangePoly (by decide)).2 ((exists_digit_iff hp8).2 (hr w hw)), ?_⟩
    rw [MulFixed, hcast] at hA
    rw [hA]
    exact mulWindows_complete (by decide) (by decide) hT hr fun w _ => (Fp.natCast_val _).symm

/-! ### Short signed scalars -/

theorem mulFixedShortGates_iff {F : FixedBase} (hT : Spec.TablesFit F.generator numWindowsShort F.z F.u)
    {magnitude sign : Fp} {out : Fp × Fp} :
    (∃ z c mid, MulFixedShortGates F magnitude sign z c mid out) ↔
      ∃ A, out = cells A ∧ MulFixedShort F.generator magnitude sign A := by
  have hp22 : 8 ^ 22 < p := by decide +kernel
  constructor
  · rintro ⟨z, c, mid, h0, hd, hm, hx, hg⟩
    obtain ⟨N, hN, hz⟩ := decompose_spec hd
    have hmid := mulDecomposed_sound (by decide) (by decide) hT hN hz hm
    simp only [gate_cons, gate_nil, and_true] at hg
    obtain ⟨g1, g2, g3, g4⟩ := hg
    have hN64 : N < 2 ^ 64 := by
      have e : z (numWindowsShort - 1) = ((N / 8 ^ 21 : ℕ) : Fp) := hz 21 (by decide)
      rw [e, boolCheck] at g1
      have hN22 : N < 8 ^ 22 := hN
      have hlt : N / 8 ^ 21 < p := by omega
      rcases mul_eq_zero.1 g1 with g | g
      · have : N / 8 ^ 21 = 0 := Fp.natCast_inj hlt (by decide +kernel) (by rw [g, Nat.cast_zero])
        omega
      · have : N / 8 ^ 21 = 1 :=
          Fp.natCast_inj hlt (by decide +kernel) (by rw [Nat.cast_one]; exact (sub_eq_zero.1 g).symm)
        omega
    have hmag : magnitude = (N : Fp) := by
      have := hz 0 (by decide)
      rwa [h0, pow_zero, Nat.div_one] at this
    have hval : magnitude.val = N := by
      rw [hmag, ZMod.val_natCast_of_lt (by omega)]
    have hsign : (sign - 1) * (sign + 1) = 0 := by linear_combination g2
    rcases mul_eq_zero.1 hsign with hs | hs
    · have hs : sign = 1 := sub_eq_zero.1 hs
      rw [hs, one_mul] at g4
      refine ⟨N • F.generator, ?_, by rw [hval]; exact hN64, Or.inl ⟨hs, by rw [hval, natCast_smul]⟩⟩
      rw [← hmid]
      exact Prod.ext hx (sub_eq_zero.1 g4)
    · have hs : sign = -1 := eq_neg_of_add_eq_zero_left hs
      refine ⟨-(N • F.generator), ?_, by rw [hval]; exact hN64,
        Or.inr ⟨hs, by rw [hval, natCast_smul]⟩⟩
      rw [cells_neg, ← hmid]
      refine Prod.ext hx ?_
      show out.2 = -mid.2
      rw [hs] at g4
      linear_combination -g4
  · rintro ⟨A, rfl, hm, hA⟩
    have hN : magnitude.val < 8 ^ 22 := lt_of_lt_of_le hm (by norm_num)
    refine ⟨fun w => ((magnitude.val / 8 ^ w : ℕ) : Fp), _, _, ?_, decompose_complete hN,
      mulDecomposed_complete (by decide) (by decide) hT hN, ?_⟩
    · show ((magnitude.val / 8 ^ 0 : ℕ) : Fp) = _
      rw [pow_zero, Nat.div_one, Fp.natCast_val]
    · have hb : boolCheck ((magnitude.val / 8 ^ (numWindowsShort - 1) : ℕ) : Fp) = 0 := by
        rw [show numWindowsShort - 1 = 21 by decide]
        have : magnitude.val / 8 ^ 21 < 2 := by omega
        rw [boolCheck]
        interval_cases magnitude.val / 8 ^ 21 <;> simp
      simp only [gate_cons, gate_nil, and_true]
      rcases hA with ⟨rfl, rfl⟩ | ⟨rfl, rfl⟩
      · rw [natCast_smul]
        refine ⟨rfl, hb, by ring, by ring, by ring⟩
      · rw [natCast_smul, cells_neg]
        refine ⟨rfl, hb, by ring, by ring, by ring⟩

/-! ### Base field elements -/

theorem baseField_canonical {z : ℕ → Fp} {N : ℕ} (hN : N < 8 ^ 85)
    (hz : ∀ w ≤ 85, z w = ((N / 8 ^ w : ℕ) : Fp)) {k : CanonCells} (hr : RangeCheck 13 false k.zPrime)
    (hg : Gate (baseFieldCanonicity z k)) : N < p := by
  have hpe := p_eq_T_P
  have hp8 : 8 ≤ p := by decide +kernel
  have hpbig : 8 ^ 84 < p := by decide +kernel
  simp only [baseFieldCanonicity, gate_cons, gate_nil, and_true] at hg
  obtain ⟨g1, g2, g3, g4, g5, g6, g7, g8⟩ := hg
  obtain ⟨a1, ha1, e1⟩ := (rangePoly_eq_zero (by norm_num)).1 g1
  have e84 := hz 84 (by norm_num)
  have e44 := hz 44 (by norm_num)
  have e43 := hz 43 (by norm_num)
  have e0 := hz 0 (by norm_num)
  rw [pow_zero, Nat.div_one] at e0
  have hN84 : N / 8 ^ 84 < 8 := by omega
  rw [boolCheck] at g2
  rcases mul_eq_zero.1 g2 with h2 | h2
  · rw [h2, zero_mul, add_zero, e84, e1] at g3
    have : N / 8 ^ 84 = a1 := Fp.natCast_inj (by omega) (by omega) (sub_eq_zero.1 g3)
    omega
  · have h2 : k.α₂ = 1 := (sub_eq_zero.1 h2).symm
    rw [h2] at g3 g5 g6 g7 g8
    rw [one_mul] at g5 g6 g7 g8
    rw [g5, e84] at g3
    have h84 : N / 8 ^ 84 = 4 := by
      refine Fp.natCast_inj (by omega) (by omega) ?_
      push_cast
      linear_combination g3
    rw [e44, e84, h84] at g6
    have h44 : N / 8 ^ 44 = 4 * 2 ^ 120 := by
      refine Fp.natCast_inj ?_ (by decide +kernel) ?_
      · omega
      · push_cast
        push_cast at g6
        linear_combination g6
    rw [e43, e44, mul_comm] at g7
    have hw := digit_cast N 43
    rw [hw, boolCheck] at g7
    have hlt : N / 8 ^ 43 % 8 < 8 := Nat.mod_lt _ (by norm_num)
    have h43 : N / 8 ^ 43 % 8 < 2 := by
      rcases mul_eq_zero.1 g7 with g | g
      · have : N / 8 ^ 43 % 8 = 0 := Fp.natCast_inj (by omega) (by omega) (by rw [g, Nat.cast_zero])
        omega
      · have : N / 8 ^ 43 % 8 = 1 :=
          Fp.natCast_inj (by omega) (by omega) (by rw [Nat.cast_one]; exact (sub_eq_zero.1 g).symm)
        omega
    obtain ⟨M, hM, hM0⟩ := rangeCheck_zero hr g8
    have hlow : N - 2 ^ 254 < 2 ^ 130 ∧ 2 ^ 254 ≤ N := by omega
    have := low_lt_T_P (low := N - 2 ^ 254) (k := 130) (N := M) (by norm_num) (by omega) hM (by
      rw [Nat.cast_sub hlow.2]
      rw [hM0, e0, e84, h84] at g4
      push_cast
      push_cast at g4
      linear_combination -g4)
    omega

theorem mulFixedBaseGates_iff {F : FixedBase} (hT : Spec.TablesFit F.generator numWindows F.z F.u)
    {scalar : Fp} {out : Fp × Fp} :
    (∃ z k c, MulFixedBaseGates F scalar z k c out) ↔
      ∃ A, out = cells A ∧ MulFixedBase F.generator scalar A := by
  have hpe := p_eq_T_P
  have hTP := T_P_lt
  have hp85 : p < 8 ^ 85 := by decide +kernel
  constructor
  · rintro ⟨z, k, c, h0, hd, hm, hr, hg⟩
    obtain ⟨N, hN, hz⟩ := decompose_spec hd
    have hout := mulDecomposed_sound (by decide) (by decide) hT hN hz hm
    have hlt := baseField_canonical hN hz hr hg
    refine ⟨_, hout, ?_⟩
    have hval : scalar.val = N := by
      have := hz 0 (by decide)
      rw [h0, pow_zero, Nat.div_one] at this
      rw [this, ZMod.val_natCast_of_lt hlt]
    rw [MulFixedBase, hval, natCast_smul]
  · rintro ⟨A, rfl, hA⟩
    rw [MulFixedBase, natCast_smul] at hA
    subst hA
    have hlt : scalar.val < p := Fp.val_lt scalar
    have hN : scalar.val < 8 ^ 85 := lt_trans hlt hp85
    have hs : scalar = ((scalar.val : ℕ) : Fp) := (Fp.natCast_val scalar).symm
    generalize scalar.val = N at *
    have hge : Constants.T_P ≤ N % 8 ^ 84 + 2 ^ 130 := by omega
    refine ⟨fun w => ((N / 8 ^ w : ℕ) : Fp),
      ⟨((N / 8 ^ 84 % 4 : ℕ) : Fp), ((N / 8 ^ 84 / 4 : ℕ) : Fp),
        runningSumOf ((N % 8 ^ 84 + 2 ^ 130 - Constants.T_P : ℕ) : Fp)⟩, _, ?_, decompose_complete hN,
      mulDecomposed_complete (by decide) (by decide) hT hN, rangeCheck_runningSumOf _ _, ?_⟩
    · show ((N / 8 ^ 0 : ℕ) : Fp) = _
      rw [pow_zero, Nat.div_one, hs]
    · simp only [baseFieldCanonicity, gate_cons, gate_nil, and_true]
      have ht : N / 8 ^ 84 / 4 < 2 := by omega
      have hb : ∀ m : ℕ, m < 2 → boolCheck (m : Fp) = 0 := by
        intro m hm
        rw [boolCheck]
        interval_cases m <;> simp
      refine ⟨(rangePoly_eq_zero (by norm_num)).2 ⟨_, Nat.mod_lt _ (by norm_num), rfl⟩, hb _ ht, ?_, ?_, ?_⟩
      · have e : ((N / 8 ^ 84 : ℕ) : Fp) = ((N / 8 ^ 84 % 4 + 4 * (N / 8 ^ 84 / 4) : ℕ) : Fp) := by
          rw [Nat.mod_add_div]
        rw [e, Nat.cast_add, Nat.cast_mul]
        push_cast
        ring
      · rw [runningSumOf_zero, Nat.cast_sub hge, pow_zero, Nat.div_one]
        have e : ((N : ℕ) : Fp) = ((N % 8 ^ 84 + 8 ^ 84 * (N / 8 ^ 84) : ℕ) : Fp) := by rw [Nat.mod_add_div]
        rw [e]
        push_cast
        ring
      · have hlow : N / 8 ^ 84 / 4 = 1 → N % 8 ^ 84 < Constants.T_P ∧ N / 8 ^ 84 % 4 = 0 := by omega
        interval_cases h : N / 8 ^ 84 / 4
        · rw [Nat.cast_zero]
          exact ⟨zero_mul _, zero_mul _, zero_mul _, zero_mul _⟩
        · obtain ⟨h1, h2⟩ := hlow rfl
          have h84 : N / 8 ^ 84 = 4 := by omega
          have h44 : N / 8 ^ 44 = 4 * 2 ^ 120 := by omega
          have h43 : N / 8 ^ 43 % 8 = 0 := by omega
          refine ⟨by rw [h2, Nat.cast_zero, mul_zero], ?_, ?_, ?_⟩
          · rw [h44, h84]; push_cast; ring
          · rw [mul_comm ((N / 8 ^ 44 : ℕ) : Fp), digit_cast N 43, h43, boolCheck]; simp
          · rw [runningSumOf_eq_zero (by decide +kernel) (by omega), mul_zero]

end Orchard.Halo2
