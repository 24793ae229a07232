import Verif.Model.Wnaf
import Verif.Spec.Wnaf
import Mathlib.Tactic.Ring
import Mathlib.Tactic.LinearCombination
import Mathlib.Algebra.Module.BigOperators
import Mathlib.Data.Nat.Bitwise

/-! # Lemmas on the windowed non-adjacent form -/

namespace Orchard.Wnaf

/-! ### Limbs -/

theorem leNat_take (l : List UInt8) (k : ℕ) : leNat (l.take k) = leNat l % 256 ^ k := by
  by_cases hk : k ≤ l.length
  · have h := leNat_append (l.take k) (l.drop k)
    rw [List.take_append_drop, List.length_take, Nat.min_eq_left hk] at h
    have hlt := leNat_lt (l.take k)
    rw [List.length_take, Nat.min_eq_left hk] at hlt
    rw [h, Nat.add_mul_mod_self_left, Nat.mod_eq_of_lt hlt]
  · rw [List.take_of_length_le (by omega), Nat.mod_eq_of_lt]
    exact lt_of_lt_of_le (leNat_lt l) (Nat.pow_le_pow_right (by norm_num) (by omega))

theorem leNat_drop (l : List UInt8) (k : ℕ) : leNat (l.drop k) = leNat l / 256 ^ k := by
  by_cases hk : k ≤ l.length
  · have h := leNat_append (l.take k) (l.drop k)
    rw [List.take_append_drop, List.length_take, Nat.min_eq_left hk] at h
    have hlt := leNat_lt (l.take k)
    rw [List.length_take, Nat.min_eq_left hk] at hlt
    rw [h, Nat.add_mul_div_left _ _ (by positivity), Nat.div_eq_of_lt hlt, Nat.zero_add]
  · rw [List.drop_eq_nil_of_le (by omega), Nat.div_eq_of_lt]
    · rfl
    · exact lt_of_lt_of_le (leNat_lt l) (Nat.pow_le_pow_right (by norm_num) (by omega))

theorem leNat_zeros (n : ℕ) : leNat (List.replicate n 0) = 0 := by
  induction n with
  | zero => rfl
  | succ n ih => rw [List.replicate_succ, leNat, ih]; rfl

/-- The limb of 64 bits with the given index. -/
def limb (N k : ℕ) : ℕ := N / 2 ^ (64 * k) % 2 ^ 64

/-- The buffer holds limbs `k` and `k + 1`. -/
structure At (c : List UInt8) (k : ℕ) (l : LimbBuffer) : Prop where
  buf : l.buf = c.drop (8 * (k + 2))
  cur : l.curLimb = limb (leNat c) k
  next : l.nextLimb = limb (leNat c) (k + 1)

theorem next_increment (l : LimbBuffer) :
    l.incrementLimb.buf = l.buf.drop 8 ∧ l.incrementLimb.curLimb = l.nextLimb ∧
      l.incrementLimb.curIdx = l.curIdx + 1 ∧
      l.incrementLimb.nextLimb = leNat l.buf % 2 ^ 64 := by
  have e : (2 : ℕ) ^ 64 = 256 ^ 8 := by norm_num
  unfold LimbBuffer.incrementLimb
  split
  · rename_i h
    rw [List.length_eq_zero_iff] at h
    refine ⟨?_, rfl, rfl, ?_⟩
    · simp [h]
    · simp [h, leNat]
  · rename_i n h
    split
    · refine ⟨?_, rfl, rfl, ?_⟩
      · simp only
        rw [List.drop_eq_nil_of_le (by omega)]
      · simp only
        rw [leNat_append, leNat_zeros, Nat.mul_zero, Nat.add_zero, e, Nat.mod_eq_of_lt]
        exact lt_of_lt_of_le (leNat_lt _) (Nat.pow_le_pow_right (by norm_num) (by omega))
    · refine ⟨rfl, rfl, rfl, ?_⟩
      simp only
      rw [leNat_take, e]

theorem limb_drop (c : List UInt8) (k : ℕ) : leNat (c.drop (8 * k)) % 2 ^ 64 = limb (leNat c) k := by
  rw [leNat_drop]
  unfold limb
  have e : (256 : ℕ) ^ (8 * k) = 2 ^ (64 * k) := by
    rw [show (256 : ℕ) = 2 ^ 8 by norm_num, ← pow_mul]; congr 1; ring
  rw [e]

theorem at_new (c : List UInt8) : At c 0 (LimbBuffer.new c) ∧ (LimbBuffer.new c).curIdx = 0 := by
  unfold LimbBuffer.new
  simp only
  set l0 : LimbBuffer := ⟨c, 0, 0, 0⟩ with h0
  obtain ⟨a1, a2, a3, a4⟩ := next_increment l0
  obtain ⟨b1, b2, b3, b4⟩ := next_increment l0.incrementLimb
  refine ⟨⟨?_, ?_, ?_⟩, trivial⟩
  · simp only
    rw [b1, a1, List.drop_drop]
  · simp only
    rw [b2, a4]
    simpa using limb_drop c 0
  · simp only
    rw [b4, a1]
    simpa using limb_drop c 1

theorem at_increment {c : List UInt8} {k : ℕ} {l : LimbBuffer} (h : At c k l) :
    At c (k + 1) l.incrementLimb := by
  obtain ⟨a1, a2, a3, a4⟩ := next_increment l
  refine ⟨?_, ?_, ?_⟩
  · rw [a1, h.buf, List.drop_drop]; congr 1
  · rw [a2, h.next]
  · rw [a4, h.buf]
    exact limb_drop c (k + 2)

theorem get_eq {c : List UInt8} {l : LimbBuffer} (h : At c l.curIdx l) {idx : ℕ}
    (hi : idx = l.curIdx ∨ idx = l.curIdx + 1) :
    ∃ l', l.get idx = .ret ((limb (leNat c) idx, limb (leNat c) (idx + 1)), l') ∧ At c l'.curIdx l' ∧
      l'.curIdx = idx := by
  unfold LimbBuffer.get
  rw [decide_eq_true hi]
  rcases hi with rfl | rfl
  · refine ⟨l, ?_, h, rfl⟩
    simp only [assertO_true, Outcome.ret_bind, gt_iff_lt, lt_self_iff_false, if_false, h.cur, h.next]
    rfl
  · have h' := at_increment h
    have e : l.incrementLimb.curIdx = l.curIdx + 1 := (next_increment l).2.2.1
    refine ⟨l.incrementLimb, ?_, by rw [e]; exact h', e⟩
    simp only [assertO_true, Outcome.ret_bind, gt_iff_lt, Nat.lt_add_one, if_true, h'.cur, h'.next]
    rfl

/-! ### Windows -/

/-- The masked buffer of bits is the window of the scalar at `pos`. -/
theorem window_eq (N pos window : ℕ) (hw : window < 64) :
    bitBuf (limb N (pos / 64)) (limb N (pos / 64 + 1)) (pos % 64) window &&& (2 ^ window - 1) =
      N / 2 ^ pos % 2 ^ window := by
  rw [Nat.and_two_pow_sub_one_eq_mod]
  set k := pos / 64
  set b := pos % 64
  have hb : b < 64 := Nat.mod_lt _ (by norm_num)
  have hpos : pos = 64 * k + b := by omega
  have key : ∀ i, i < window →
      (bitBuf (limb N k) (limb N (k + 1)) b window).testBit i = N.testBit (pos + i) := by
    intro i hi
    unfold bitBuf limb
    have t1 : (N / 2 ^ (64 * k) % 2 ^ 64 / 2 ^ b).testBit i =
        (decide (b + i < 64) && N.testBit (pos + i)) := by
      rw [Nat.testBit_div_two_pow, Nat.testBit_mod_two_pow, Nat.testBit_div_two_pow]
      congr 2
      · rw [Nat.add_comm]
      · omega
    split
    · rw [t1, decide_eq_true (by omega), Bool.true_and]
    · rw [Nat.testBit_or, t1, Nat.testBit_mod_two_pow, decide_eq_true (by omega : i < 64),
        Bool.true_and, Nat.testBit_mul_two_pow, Nat.testBit_mod_two_pow, Nat.testBit_div_two_pow]
      by_cases h : b + i < 64
      · rw [decide_eq_true h, Bool.true_and, decide_eq_false (by omega), Bool.false_and, Bool.or_false]
      · rw [decide_eq_false h, Bool.false_and, Bool.false_or, decide_eq_true (by omega),
          decide_eq_true (by omega), Bool.true_and, Bool.true_and]
        congr 1; omega
  apply Nat.eq_of_testBit_eq
  intro i
  rw [Nat.testBit_mod_two_pow, Nat.testBit_mod_two_pow, Nat.testBit_div_two_pow]
  by_cases hi : i < window
  · rw [decide_eq_true hi, Bool.true_and, Bool.true_and, key i hi, Nat.add_comm]
  · rw [decide_eq_false hi, Bool.false_and, Bool.false_and]

/-! ### Digits -/

open Spec

theorem digitsValue_append (l l' : List ℤ) :
    digitsValue (l ++ l') = digitsValue l + 2 ^ l.length * digitsValue l' := by
  induction l with
  | nil => simp [digitsValue]
  | cons d l ih => simp only [List.cons_append, digitsValue, ih, List.length_cons]; ring

theorem digitsValue_zeros (n : ℕ) : digitsValue (List.replicate n 0) = 0 := by
  induction n with
  | zero => rfl
  | succ n ih => rw [List.replicate_succ, digitsValue, ih]; rfl

theorem isWnaf_nil (w : ℕ) : IsWnaf w [] := ⟨by simp, by simp⟩

theorem isWnaf_zero {w : ℕ} {l : List ℤ} (h : IsWnaf w l) : IsWnaf w (0 :: l) := by
  refine ⟨fun d hd => ?_, fun i j d e hi hj h1 h2 => ?_⟩
  · rcases List.mem_cons.1 hd with rfl | hd
    · exact .inl rfl
    · exact h.digit d hd
  · cases i with
    | zero =>
      simp only [List.getElem?_cons_zero, Option.some.injEq] at hi
      exact .inl hi.symm
    | succ i =>
      cases j with
      | zero => omega
      | succ j => exact h.sparse i j d e (by simpa using hi) (by simpa using hj) (by omega) (by omega)

theorem isWnaf_zeros {w : ℕ} {l : List ℤ} (h : IsWnaf w l) (n : ℕ) :
    IsWnaf w (List.replicate n 0 ++ l) := by
  induction n with
  | zero => exact h
  | succ n ih => rw [List.replicate_succ]; exact isWnaf_zero ih

theorem isWnaf_digit {w : ℕ} {l : List ℤ} (h : IsWnaf w l) {d : ℤ} (hd : Odd d)
    (hlt : |d| < 2 ^ (w - 1)) : IsWnaf w (d :: List.replicate (w - 1) 0 ++ l) := by
  have h' := isWnaf_zeros h (w - 1)
  rw [List.cons_append]
  refine ⟨fun x hx => ?_, fun i j x y hi hj h1 h2 => ?_⟩
  · rcases List.mem_cons.1 hx with rfl | hx
    · exact .inr ⟨hd, hlt⟩
    · exact h'.digit x hx
  · cases j with
    | zero => omega
    | succ j =>
      rw [List.getElem?_cons_succ] at hj
      cases i with
      | zero =>
        right
        rw [List.getElem?_append_left (by rw [List.length_replicate]; omega),
          List.getElem?_replicate, if_pos (by omega)] at hj
        simpa using hj.symm
      | succ i => exact h'.sparse i j x y (by simpa using hi) hj (by omega) (by omega)

theorem div_step (N pos n : ℕ) : N / 2 ^ pos = 2 ^ n * (N / 2 ^ (pos + n)) + N / 2 ^ pos % 2 ^ n := by
  rw [pow_add, ← Nat.div_div_eq_div_mul]
  exact (Nat.div_add_mod _ _).symm

/-- The digits spell what is left of the scalar and the carry. -/
theorem formLoop_spec (c : List UInt8) {w : ℕ} (hw : 0 < w) (h2 : 2 ≤ w) (h64 : w < 64)
    (htop : leNat c < 2 ^ (c.length * 8 - 1)) :
    ∀ (n pos carry : ℕ) (limbs : LimbBuffer), c.length * 8 - pos ≤ n → At c limbs.curIdx limbs →
      (pos / 64 = limbs.curIdx ∨ pos / 64 = limbs.curIdx + 1) → carry ≤ 1 →
      (c.length * 8 ≤ pos → carry = 0) →
      ∃ l, formLoop w hw (c.length * 8) limbs pos carry = .ret l ∧
        digitsValue l = (leNat c / 2 ^ pos : ℕ) + carry ∧ IsWnaf w l := by
  intro n
  induction n with
  | zero =>
    intro pos carry limbs hn _ _ _ hz
    rw [formLoop, dif_neg (by omega)]
    refine ⟨[], rfl, ?_, isWnaf_nil w⟩
    rw [hz (by omega), Nat.div_eq_of_lt]
    · rfl
    · exact lt_of_lt_of_le htop (Nat.pow_le_pow_right (by norm_num) (by omega))
  | succ n ih =>
    intro pos carry limbs hn hat hidx hc hz
    by_cases hp : pos < c.length * 8
    swap
    · rw [formLoop, dif_neg hp]
      refine ⟨[], rfl, ?_, isWnaf_nil w⟩
      rw [hz (by omega), Nat.div_eq_of_lt]
      · rfl
      · exact lt_of_lt_of_le htop (Nat.pow_le_pow_right (by norm_num) (by omega))
    obtain ⟨l', hg, hat', hl'⟩ := get_eq hat hidx
    rw [formLoop, dif_pos hp, hg]
    simp only
    rw [window_eq _ _ _ h64]
    set M := leNat c / 2 ^ pos with hM
    have hMlt : M < 2 ^ (c.length * 8 - 1 - pos) := by
      rw [hM, Nat.div_lt_iff_lt_mul (by positivity), ← pow_add]
      exact lt_of_lt_of_le htop (Nat.pow_le_pow_right (by norm_num) (by omega))
    have h2w : (2 : ℕ) ^ w = 2 * 2 ^ (w - 1) := by
      rw [← pow_succ']; congr 1; omega
    have h2w' : (2 : ℕ) ^ (w - 1) = 2 * 2 ^ (w - 2) := by
      rw [← pow_succ']; congr 1; omega
    have hwpos : 0 < (2 : ℕ) ^ (w - 2) := by positivity
    have hmod : M % 2 ^ w < 2 ^ w := Nat.mod_lt _ (by positivity)
    have hparity : M % 2 ^ w % 2 = M % 2 := Nat.mod_mod_of_dvd _ (Dvd.intro _ h2w.symm)
    have hdiv1 := div_step (leNat c) pos 1
    have hdiv := div_step (leNat c) pos w
    rw [← hM] at hdiv1 hdiv
    have hend : c.length * 8 ≤ pos + w → M < 2 ^ (w - 1) := fun hge =>
      lt_of_lt_of_le hMlt (Nat.pow_le_pow_right (by norm_num) (by omega))
    have hend1 : c.length * 8 ≤ pos + 1 → M = 0 := by
      intro hge
      have : c.length * 8 - 1 - pos = 0 := by omega
      rw [this] at hMlt
      simpa using hMlt
    have hrM := Nat.mod_le M (2 ^ w)
    clear_value M
    generalize M % 2 ^ w = r at *
    generalize (2 : ℕ) ^ (w - 2) = g at *
    have hcast : (2 : ℤ) ^ (w - 1) = ((2 ^ (w - 1) : ℕ) : ℤ) := by push_cast; rfl
    by_cases heven : (carry + r) % 2 = 0
    · rw [if_pos heven]
      obtain ⟨l, hl, hv, hw'⟩ := ih (pos + 1) carry l' (by omega) hat' (by omega) hc (by
        intro hge
        have := hend1 hge
        omega)
      rw [hl]
      refine ⟨0 :: l, rfl, ?_, isWnaf_zero hw'⟩
      rw [digitsValue, hv]
      generalize leNat c / 2 ^ (pos + 1) = D at *
      rw [pow_one] at hdiv1
      omega
    · rw [if_neg heven]
      have hlt : carry + r < 2 ^ w := by
        rcases Nat.lt_or_ge (carry + r) (2 ^ w) with h | h
        · exact h
        · exfalso
          have : carry + r = 2 ^ w := by omega
          omega
      have hhalf : 2 ^ w / 2 = 2 ^ (w - 1) := by omega
      rw [hhalf]
      by_cases hsmall : carry + r < 2 ^ (w - 1)
      · rw [if_pos hsmall]
        obtain ⟨l, hl, hv, hw'⟩ := ih (pos + w) 0 l' (by omega) hat' (by omega) (by omega)
          (fun _ => rfl)
        rw [hl]
        refine ⟨_, rfl, ?_, isWnaf_digit hw' ?_ ?_⟩
        · rw [List.cons_append, digitsValue, digitsValue_append, digitsValue_zeros,
            List.length_replicate, hv, hdiv, h2w]
          push_cast
          ring
        · rw [Int.odd_iff]; omega
        · rw [abs_of_nonneg (by positivity)]
          exact_mod_cast hsmall
      · rw [if_neg hsmall]
        obtain ⟨l, hl, hv, hw'⟩ := ih (pos + w) 1 l' (by omega) hat' (by omega) (by omega)
          (fun hge => absurd (by have := hend hge; omega) hsmall)
        rw [hl]
        refine ⟨_, rfl, ?_, isWnaf_digit hw' ?_ ?_⟩
        · rw [List.cons_append, digitsValue, digitsValue_append, digitsValue_zeros,
            List.length_replicate, hv, hdiv, h2w]
          push_cast
          ring
        · rw [Int.odd_iff, h2w, h2w']
          rw [h2w'] at hsmall
          omega
        · rw [abs_lt, hcast, h2w]
          omega

/-- `wnaf_form` gives a windowed non-adjacent form of the scalar. -/
theorem form_spec (c : List UInt8) {w : ℕ} (hw : 0 < w) (h2 : 2 ≤ w) (h64 : w < 64)
    (htop : leNat c < 2 ^ (c.length * 8 - 1)) :
    ∃ l, form c w hw = .ret l ∧ digitsValue l = leNat c ∧ IsWnaf w l := by
  obtain ⟨h1, h3⟩ := at_new c
  obtain ⟨l, e1, e2, e3⟩ := formLoop_spec c hw h2 h64 htop _ 0 0 (LimbBuffer.new c) le_rfl
    (by rw [h3]; exact h1) (by rw [h3]; exact .inl rfl) (by omega) (fun _ => rfl)
  exact ⟨l, e1, by rw [e2]; simp, e3⟩

/-! ### Exponentiation -/

theorem table_foldl (dbl : Point) (n : ℕ) (l : List ℕ) (acc : List Point) (b : Point)
    (hl : l.length = n) :
    (l.foldl (fun (s : List Point × Point) _ => (s.1 ++ [s.2], s.2 + dbl)) (acc, b)).1 =
      acc ++ (List.range n).map fun i => b + i • dbl := by
  induction l generalizing acc b n with
  | nil => subst hl; simp
  | cons x l ih =>
    subst hl
    rw [List.foldl_cons, ih l.length (acc ++ [b]) (b + dbl) rfl, List.length_cons,
      List.range_succ_eq_map, List.map_cons, List.map_map]
    simp only [zero_nsmul, add_zero, List.append_assoc, List.singleton_append]
    congr 2
    apply List.map_congr_left
    intro i _
    simp only [Function.comp]
    rw [succ_nsmul]
    abel

theorem table_get (base : Point) (w i : ℕ) (hi : i < 2 ^ (w - 1)) :
    (table base w)[i]? = some ((2 * i + 1) • base) := by
  unfold table
  simp only
  rw [table_foldl (base + base) _ _ _ _ List.length_range, List.nil_append, List.getElem?_map,
    List.getElem?_range hi, Option.map_some]
  congr 1
  rw [add_nsmul, mul_nsmul', one_nsmul, two_nsmul, nsmul_add]
  abel

theorem exp_spec (base : Point) {w : ℕ} {l : List ℤ}
    (h : ∀ d ∈ l, d = 0 ∨ (Odd d ∧ |d| < 2 ^ (w - 1))) :
    ∃ f, l.reverse.foldlM (expStep (table base w)) (0, false) = .ret (digitsValue l • base, f) ∧
      (f = false → digitsValue l = 0) := by
  induction l with
  | nil => exact ⟨false, by simp [digitsValue], fun _ => rfl⟩
  | cons d l ih =>
    obtain ⟨f, h1, h2⟩ := ih fun d hd => h d (List.mem_cons_of_mem _ hd)
    rw [List.reverse_cons, List.foldlM_append, h1]
    simp only [Outcome.ret_bind, List.foldlM_cons, List.foldlM_nil]
    have hdbl : (if f = true then digitsValue l • base + digitsValue l • base
        else digitsValue l • base) = (2 * digitsValue l) • base := by
      cases f with
      | true => rw [if_pos rfl, two_mul, add_zsmul]
      | false => rw [if_neg (by simp), h2 rfl]; simp
    unfold expStep
    simp only [hdbl, digitsValue]
    rcases h d List.mem_cons_self with rfl | ⟨ho, hlt⟩
    · exact ⟨f, by simp, fun hf => by rw [h2 hf]; rfl⟩
    have hne : d ≠ 0 := by rintro rfl; simp at ho
    obtain ⟨hl1, hl2⟩ := abs_lt.1 hlt
    have hc : (2 : ℤ) ^ (w - 1) = ((2 ^ (w - 1) : ℕ) : ℤ) := by push_cast; rfl
    rw [hc] at hl1 hl2
    rw [Int.odd_iff] at ho
    refine ⟨true, ?_, by simp⟩
    rw [if_pos hne]
    by_cases hpos : d > 0
    · rw [if_pos hpos, table_get _ _ _ (by omega)]
      simp only [Option.unwrapO_some, Outcome.ret_bind, Outcome.pure_eq]
      congr 2
      rw [← natCast_zsmul, ← add_zsmul]
      congr 1
      push_cast
      omega
    · rw [if_neg hpos, table_get _ _ _ (by omega)]
      simp only [Option.unwrapO_some, Outcome.ret_bind, Outcome.pure_eq]
      congr 2
      rw [← natCast_zsmul, sub_eq_add_neg, ← sub_zsmul]
      congr 1
      push_cast
      omega

end Orchard.Wnaf
