import Verif.Model.Halo2
import Verif.Lemmas.Sinsemilla
import Verif.Basic.Encoding
import Mathlib.Tactic.LinearCombination

/-! # Lemmas about the gadget contracts: range checks, running sums, canonical decompositions -/

namespace Orchard

/-! ### Naturals and field elements -/

theorem T_P_lt : Constants.T_P < 2 ^ 126 := by norm_num [Constants.T_P]

theorem p_eq_T_P : p = 2 ^ 254 + Constants.T_P := by norm_num [p, Constants.T_P]

theorem Fp.natCast_inj {a b : ℕ} (ha : a < p) (hb : b < p) (h : (a : Fp) = (b : Fp)) : a = b := by
  have h1 := congrArg ZMod.val h
  rwa [ZMod.val_natCast_of_lt ha, ZMod.val_natCast_of_lt hb] at h1

theorem Fp.natCast_val (x : Fp) : ((x.val : ℕ) : Fp) = x := ZMod.natCast_zmod_val x

theorem Fp.val_lt (x : Fp) : x.val < p := ZMod.val_lt x

/-! ### Bits and words -/

theorem leBits_add {m n lo hi : ℕ} (h : lo < 2 ^ m) :
    leBits (m + n) (lo + 2 ^ m * hi) = leBits m lo ++ leBits n hi := by
  apply bitsNat_inj
  · simp
  · rw [bitsNat_append, bitsNat_leBits, bitsNat_leBits, bitsNat_leBits, length_leBits, pow_add,
      Nat.mod_mul, Nat.add_mul_mod_self_left, Nat.add_mul_div_left _ _ (by positivity),
      Nat.div_eq_of_lt h, zero_add]

theorem chunksAux_of_le (fuel : ℕ) : ∀ l : List Bool, l.length ≤ fuel →
    chunksAux fuel l = chunks l := by
  have key : ∀ fuel fuel' (l : List Bool), l.length ≤ fuel → l.length ≤ fuel' →
      chunksAux fuel l = chunksAux fuel' l := by
    intro fuel
    induction fuel with
    | zero =>
      intro fuel' l h _
      have h0 : l = [] := List.length_eq_zero_iff.1 (by omega)
      subst h0
      cases fuel' <;> rfl
    | succ fuel ih =>
      intro fuel' l h h'
      cases l with
      | nil => cases fuel' <;> rfl
      | cons a l =>
        cases fuel' with
        | zero => simp at h'
        | succ fuel' =>
          rw [List.length_cons] at h h'
          simp only [chunksAux]
          rw [ih fuel' _ (by simp; omega) (by simp; omega)]
  intro l h
  exact key _ _ _ h le_rfl

theorem chunks_nil : chunks [] = [] := rfl

theorem chunks_single {l : List Bool} (h0 : l ≠ []) (h : l.length ≤ 10) : chunks l = [bitsNat l] := by
  cases l with
  | nil => exact absurd rfl h0
  | cons a l =>
    unfold chunks
    rw [List.length_cons]
    simp only [chunksAux]
    rw [List.take_of_length_le h, List.drop_of_length_le h]
    cases l.length <;> rfl

theorem chunks_append_ten {l l' : List Bool} (h : l.length = 10) :
    chunks (l ++ l') = bitsNat l :: chunks l' := by
  cases l with
  | nil => simp at h
  | cons a l =>
    unfold chunks
    rw [List.length_append, List.length_cons, Nat.succ_add, List.cons_append]
    simp only [chunksAux]
    rw [← List.cons_append, List.take_left' h, List.drop_left' h]
    congr 1
    exact chunksAux_of_le _ _ (by omega)

theorem chunks_append {l : List Bool} (l' : List Bool) (n : ℕ) (h : l.length = 10 * n) :
    chunks (l ++ l') = chunks l ++ chunks l' := by
  induction n generalizing l with
  | zero =>
    have h0 : l = [] := List.length_eq_zero_iff.1 (by omega)
    subst h0; rfl
  | succ n ih =>
    have h10 : (l.take 10).length = 10 := by simp; omega
    have hd : (l.drop 10).length = 10 * n := by simp; omega
    conv_lhs => rw [← List.take_append_drop 10 l, List.append_assoc, chunks_append_ten h10, ih hd]
    conv_rhs => rw [← List.take_append_drop 10 l, chunks_append_ten h10]
    rfl

/-- The bits of the words of a message are the message, padded with zeros to a multiple of ten. -/
theorem flatMap_chunks (l : List Bool) (pad : ℕ) (h : (l.length + pad) % 10 = 0) (hp : pad < 10) :
    (chunks l).flatMap (leBits 10) = l ++ List.replicate pad false := by
  induction hn : l.length using Nat.strong_induction_on generalizing l with
  | _ n ih =>
  by_cases h0 : l = []
  · subst h0
    have : pad = 0 := by simp at h; omega
    subst this; rfl
  · by_cases h10 : l.length ≤ 10
    · have hlp := List.length_pos_iff.2 h0
      rw [chunks_single h0 h10, List.flatMap_cons, List.flatMap_nil, List.append_nil]
      apply bitsNat_inj
      · rw [length_leBits, List.length_append, List.length_replicate]; omega
      · have hz : ∀ n, bitsNat (List.replicate n false) = 0 := by
          intro n; induction n with
          | zero => rfl
          | succ n ih => rw [List.replicate_succ, bitsNat, ih]; rfl
        rw [bitsNat_append, hz, Nat.mul_zero, Nat.add_zero, bitsNat_leBits_of_lt]
        exact (bitsNat_lt l).trans_le (Nat.pow_le_pow_right (by norm_num) h10)
    · have ht : (l.take 10).length = 10 := by rw [List.length_take]; omega
      have hd : (l.drop 10).length = l.length - 10 := List.length_drop
      conv_lhs => rw [← List.take_append_drop 10 l, chunks_append_ten ht]
      rw [List.flatMap_cons, ih (l.length - 10) (by omega) (l.drop 10) (by rw [hd]; omega) hd,
        ← List.append_assoc]
      congr 1
      conv_rhs => rw [← List.take_append_drop 10 l]
      congr 1
      have := leBits_bitsNat (l.take 10)
      rwa [ht] at this

theorem chunks_leBits (n N : ℕ) :
    chunks (leBits (10 * n) N) = (List.range n).map fun i => N / 2 ^ (10 * i) % 2 ^ 10 := by
  induction n generalizing N with
  | zero => rfl
  | succ n ih =>
    rw [show 10 * (n + 1) = 10 + 10 * n by ring, leBits_append, chunks_append_ten (by simp), ih,
      List.range_succ_eq_map, List.map_cons, List.map_map, bitsNat_leBits]
    congr 1
    · simp
    · apply List.map_congr_left
      intro i _
      simp only [Function.comp, Nat.succ_eq_add_one]
      rw [Nat.div_div_eq_div_mul, ← pow_add, show 10 * (i + 1) = 10 + 10 * i by ring]

namespace Halo2

/-! ### Gates -/

theorem boolCheck_eq_zero {x : Fp} (h : boolCheck x = 0) : ∃ b : ℕ, b < 2 ∧ x = (b : Fp) := by
  rcases mul_eq_zero.1 h with h | h
  · exact ⟨0, by norm_num, by rw [h]; simp⟩
  · exact ⟨1, by norm_num, by rw [← sub_eq_zero.1 h]; simp⟩

theorem boolCheck_natCast {b : ℕ} (h : b < 2) : boolCheck (b : Fp) = 0 := by
  interval_cases b <;> simp [boolCheck]

/-! ### Range checks -/

theorem shortCheck_iff {bits : ℕ} (hb : bits ≤ 10) (x : Fp) :
    ShortCheck bits x ↔ ∃ n : ℕ, n < 2 ^ bits ∧ x = (n : Fp) := by
  have hpow : (2 : ℕ) ^ (10 - bits) * 2 ^ bits = 2 ^ 10 := by
    rw [← pow_add]; congr 1; omega
  have hp : (2 : ℕ) ^ 20 < p := by norm_num [p]
  constructor
  · rintro ⟨⟨w, hw, rfl⟩, ⟨w', hw', h⟩⟩
    refine ⟨w, ?_, rfl⟩
    have h1 : ((2 ^ (10 - bits) * w : ℕ) : Fp) = (w' : Fp) := by push_cast; exact h
    have hle : (2 : ℕ) ^ (10 - bits) ≤ 2 ^ 10 := Nat.pow_le_pow_right (by norm_num) (by omega)
    have h2 : 2 ^ (10 - bits) * w < p := by
      calc 2 ^ (10 - bits) * w ≤ 2 ^ 10 * 2 ^ 10 := Nat.mul_le_mul hle hw.le
        _ < p := by rw [← pow_add]; exact hp
    have h3 := Fp.natCast_inj h2 (by omega) h1
    rw [← h3, ← hpow] at hw'
    exact Nat.lt_of_mul_lt_mul_left hw'
  · rintro ⟨n, hn, rfl⟩
    refine ⟨⟨n, lt_of_lt_of_le hn (Nat.pow_le_pow_right (by norm_num) hb), rfl⟩,
      ⟨2 ^ (10 - bits) * n, ?_, by push_cast; rfl⟩⟩
    rw [← hpow]
    exact Nat.mul_lt_mul_of_pos_left hn (by positivity)

/-- A running sum that ends in zero is the running sum of a natural number of that many words. -/
theorem runningSum_spec {n : ℕ} {z : ℕ → Fp} (h : RunningSum n z) (hz : z n = 0) :
    ∃ N : ℕ, N < 2 ^ (10 * n) ∧ ∀ j ≤ n, z j = ((N / 2 ^ (10 * j) : ℕ) : Fp) := by
  induction n generalizing z with
  | zero =>
    refine ⟨0, by norm_num, fun j hj => ?_⟩
    obtain rfl : j = 0 := by omega
    simpa using hz
  | succ n ih =>
    obtain ⟨N, hN, hj⟩ := ih (z := fun i => z (i + 1)) (fun i hi => h (i + 1) (by omega)) hz
    obtain ⟨w, hw, hw'⟩ := h 0 (by omega)
    have hdiv : ∀ j, (w + 2 ^ 10 * N) / 2 ^ (10 * (j + 1)) = N / 2 ^ (10 * j) := by
      intro j
      rw [show 10 * (j + 1) = 10 + 10 * j by ring, pow_add, ← Nat.div_div_eq_div_mul,
        Nat.add_mul_div_left _ _ (by positivity), Nat.div_eq_of_lt hw, zero_add]
    refine ⟨w + 2 ^ 10 * N, ?_, fun j hjn => ?_⟩
    · rw [show 10 * (n + 1) = 10 + 10 * n by ring, pow_add]
      calc w + 2 ^ 10 * N < 2 ^ 10 + 2 ^ 10 * N := by omega
        _ = 2 ^ 10 * (N + 1) := by ring
        _ ≤ 2 ^ 10 * 2 ^ (10 * n) := Nat.mul_le_mul_left _ hN
    · cases j with
      | zero =>
        have h0 := hj 0 (by omega)
        simp only [mul_zero, pow_zero, Nat.div_one, zero_add] at h0 ⊢
        rw [zero_add] at hw'
        rw [h0] at hw'
        push_cast
        linear_combination hw'
      | succ j =>
        rw [hdiv]
        exact hj j (by omega)

theorem rangeCheck_zero {n : ℕ} {strict : Bool} {z : ℕ → Fp} (h : RangeCheck n strict z)
    (hz : z n = 0) : ∃ N : ℕ, N < 2 ^ (10 * n) ∧ z 0 = (N : Fp) := by
  obtain ⟨N, hN, hj⟩ := runningSum_spec h.1 hz
  exact ⟨N, hN, by simpa using hj 0 (by omega)⟩

/-- The words of a piece are those of a natural number of the piece's length, and its running sum is
that of the number. -/
theorem Piece.Ok.spec {m : Piece} (h : m.Ok) (hp : 2 ^ (10 * m.words) ≤ p) :
    ∃ N : ℕ, N < 2 ^ (10 * m.words) ∧ (∀ j ≤ m.words, m.z j = ((N / 2 ^ (10 * j) : ℕ) : Fp)) ∧
      m.wordList = chunks (leBits (10 * m.words) N) := by
  obtain ⟨N, hN, hj⟩ := runningSum_spec h.1 h.2
  refine ⟨N, hN, hj, ?_⟩
  rw [chunks_leBits]
  apply List.map_congr_left
  intro i hi
  rw [List.mem_range] at hi
  rw [hj i (by omega), hj (i + 1) (by omega)]
  have h1 : N / 2 ^ (10 * (i + 1)) = N / 2 ^ (10 * i) / 2 ^ 10 := by
    rw [Nat.div_div_eq_div_mul, ← pow_add, show 10 * (i + 1) = 10 * i + 10 by ring]
  have h2 : ((N / 2 ^ (10 * i) : ℕ) : Fp) - 2 ^ 10 * ((N / 2 ^ (10 * (i + 1)) : ℕ) : Fp) =
      ((N / 2 ^ (10 * i) % 2 ^ 10 : ℕ) : Fp) := by
    rw [h1, sub_eq_iff_eq_add]
    conv_lhs => rw [← Nat.mod_add_div (N / 2 ^ (10 * i)) (2 ^ 10)]
    push_cast
    rfl
  rw [h2, ZMod.val_natCast_of_lt]
  calc N / 2 ^ (10 * i) % 2 ^ 10 ≤ N / 2 ^ (10 * i) := Nat.mod_le _ _
    _ ≤ N := Nat.div_le_self _ _
    _ < p := lt_of_lt_of_le hN hp

/-! ### Canonicity -/

/-- `0 ≤ low + 2^k - t_P < 2^k` over the naturals, from the same over the field. -/
theorem low_lt_T_P {low k N : ℕ} (hk : k ≤ 250) (hlow : low < 2 ^ 250) (hN : N < 2 ^ k)
    (h : (low : Fp) + 2 ^ k - (Constants.T_P : Fp) - (N : Fp) = 0) : low < Constants.T_P := by
  have hT := T_P_lt
  have hpe := p_eq_T_P
  have hk' : (2 : ℕ) ^ k ≤ 2 ^ 250 := Nat.pow_le_pow_right (by norm_num) hk
  have h1 : ((low + 2 ^ k : ℕ) : Fp) = ((N + Constants.T_P : ℕ) : Fp) := by
    push_cast; linear_combination h
  generalize (2 : ℕ) ^ k = K at *
  have h2 := Fp.natCast_inj (by omega) (by omega) h1
  omega

/-- A decomposition with top bit `t` is canonical if the rest is below `t_P` when `t` is set. -/
theorem val_of_decomposition {x : Fp} {low t : ℕ} (hlow : low < 2 ^ 254) (ht : t < 2)
    (hx : x = (low : Fp) + (t : Fp) * 2 ^ 254) (h : t = 1 → low < Constants.T_P) :
    x.val = low + 2 ^ 254 * t := by
  have hpe := p_eq_T_P
  have h1 : x = ((low + 2 ^ 254 * t : ℕ) : Fp) := by rw [hx]; push_cast; ring
  rw [h1, ZMod.val_natCast_of_lt]
  interval_cases t
  · omega
  · have := h rfl; omega

/-- The canonicity check used for `x(g_d)`, `y`, `ψ`, `ak` and `nk`: `low` has `s ≤ 250` bits, `mid` the
rest up to bit `253`, and `t` is bit `254`. -/
theorem canonical_mid {x : Fp} {low mid t s n : ℕ} {z : ℕ → Fp} (hs : s ≤ 250) (hlow : low < 2 ^ s)
    (hmid : mid < 2 ^ (254 - s)) (ht : t < 2) (hn : n ≤ 25)
    (hx : (low : Fp) + (mid : Fp) * 2 ^ s + (t : Fp) * 2 ^ 254 - x = 0)
    (hz : RangeCheck n false z)
    (hz0 : (low : Fp) + 2 ^ (10 * n) - (Constants.T_P : Fp) - z 0 = 0)
    (htm : (t : Fp) * (mid : Fp) = 0) (htz : (t : Fp) * z n = 0) :
    x.val = low + 2 ^ s * (mid + 2 ^ (254 - s) * t) := by
  have hpow : (2 : ℕ) ^ s * 2 ^ (254 - s) = 2 ^ 254 := by rw [← pow_add]; rw [Nat.add_sub_cancel' (show s ≤ 254 by omega)]
  have hle : (2 : ℕ) ^ s ≤ 2 ^ 250 := Nat.pow_le_pow_right (by norm_num) hs
  have hlt : low + 2 ^ s * mid < 2 ^ 254 := by
    rw [← hpow]
    calc low + 2 ^ s * mid < 2 ^ s + 2 ^ s * mid := by omega
      _ = 2 ^ s * (mid + 1) := by ring
      _ ≤ 2 ^ s * 2 ^ (254 - s) := Nat.mul_le_mul_left _ hmid
  rw [show low + 2 ^ s * (mid + 2 ^ (254 - s) * t) = (low + 2 ^ s * mid) + 2 ^ 254 * t by
    rw [← hpow]; ring]
  refine val_of_decomposition hlt ht (by push_cast; linear_combination -hx) fun h1 => ?_
  subst h1
  rw [Nat.cast_one, one_mul] at htm htz
  obtain ⟨N, hN, hN0⟩ := rangeCheck_zero hz htz
  rw [hN0] at hz0
  have hp : mid < p := by
    have : (2 : ℕ) ^ (254 - s) ≤ 2 ^ 254 := Nat.pow_le_pow_right (by norm_num) (by omega)
    have := p_eq_T_P
    omega
  have hm0 : mid = 0 := Fp.natCast_inj hp (by norm_num [p]) (by simpa using htm)
  subst hm0
  simpa using low_lt_T_P (by omega) (by omega) hN hz0

/-- The canonicity check used for `x(pk_d)` and `ρ`: `lo` is 4 bits, `c` is a 250-bit piece, and `t` is
bit `254`. -/
theorem canonical_low {x : Fp} {lo c t : ℕ} {z : ℕ → Fp} (hlo : lo < 2 ^ 4) (hc : c < 2 ^ 250)
    (ht : t < 2) (hx : (lo : Fp) + (c : Fp) * 2 ^ 4 + (t : Fp) * 2 ^ 254 - x = 0)
    (hz : RangeCheck 14 false z)
    (hz0 : (lo : Fp) + (c : Fp) * 2 ^ 4 + 2 ^ 140 - (Constants.T_P : Fp) - z 0 = 0)
    (htc : (t : Fp) * ((c / 2 ^ 130 : ℕ) : Fp) = 0) (htz : (t : Fp) * z 14 = 0) :
    x.val = lo + 2 ^ 4 * (c + 2 ^ 250 * t) := by
  rw [show lo + 2 ^ 4 * (c + 2 ^ 250 * t) = (lo + 2 ^ 4 * c) + 2 ^ 254 * t by ring]
  refine val_of_decomposition (by omega) ht (by push_cast; linear_combination -hx) fun h1 => ?_
  subst h1
  rw [Nat.cast_one, one_mul] at htc htz
  obtain ⟨N, hN, hN0⟩ := rangeCheck_zero hz htz
  rw [hN0] at hz0
  have hp := p_eq_T_P
  have hc0 : c / 2 ^ 130 = 0 := by
    refine Fp.natCast_inj ?_ (by norm_num [p]) (by simpa using htc)
    omega
  refine low_lt_T_P (k := 10 * 14) (by omega) (by omega) hN ?_
  push_cast
  linear_combination hz0

/-! ### Witness generation -/

theorem bitrange_eq (x : Fp) (a b : ℕ) :
    bitrange x a b = ((x.val / 2 ^ a % 2 ^ (b - a) : ℕ) : Fp) := rfl

theorem runningSumOf_natCast {N : ℕ} (h : N < p) (i : ℕ) :
    runningSumOf (N : Fp) i = ((N / 2 ^ (10 * i) : ℕ) : Fp) := by
  unfold runningSumOf; rw [ZMod.val_natCast_of_lt h]

theorem runningSumOf_zero (x : Fp) : runningSumOf x 0 = x := by
  unfold runningSumOf; rw [mul_zero, pow_zero, Nat.div_one, Fp.natCast_val]

theorem runningSum_runningSumOf (n : ℕ) (x : Fp) : RunningSum n (runningSumOf x) := by
  intro i _
  refine ⟨x.val / 2 ^ (10 * i) % 2 ^ 10, Nat.mod_lt _ (by positivity), ?_⟩
  unfold runningSumOf
  have h1 : x.val / 2 ^ (10 * (i + 1)) = x.val / 2 ^ (10 * i) / 2 ^ 10 := by
    rw [Nat.div_div_eq_div_mul, ← pow_add, show 10 * (i + 1) = 10 * i + 10 by ring]
  rw [h1, sub_eq_iff_eq_add]
  conv_lhs => rw [← Nat.mod_add_div (x.val / 2 ^ (10 * i)) (2 ^ 10)]
  push_cast
  rfl

theorem rangeCheck_runningSumOf (n : ℕ) (x : Fp) : RangeCheck n false (runningSumOf x) :=
  ⟨runningSum_runningSumOf n x, fun h => absurd h (by simp)⟩

theorem runningSumOf_eq_zero {n N : ℕ} (hp : 2 ^ (10 * n) ≤ p) (h : N < 2 ^ (10 * n)) :
    runningSumOf (N : Fp) n = 0 := by
  rw [runningSumOf_natCast (lt_of_lt_of_le h hp), Nat.div_eq_of_lt h, Nat.cast_zero]

theorem piece_ok {n N : ℕ} (hp : 2 ^ (10 * n) ≤ p) (h : N < 2 ^ (10 * n)) :
    Piece.Ok ⟨n, runningSumOf (N : Fp)⟩ :=
  ⟨runningSum_runningSumOf n _, runningSumOf_eq_zero hp h⟩

theorem shortCheck_natCast {bits n : ℕ} (hb : bits ≤ 10) (h : n < 2 ^ bits) :
    ShortCheck bits (n : Fp) := (shortCheck_iff hb _).2 ⟨n, h, rfl⟩

/-- With the top bit set, the shifted low part fits. -/
theorem shifted_eq_zero {low n t : ℕ} (hn : 13 ≤ n) (hn' : n ≤ 25)
    (h : t = 1 → low < Constants.T_P) (ht : t < 2) :
    (t : Fp) * runningSumOf ((low : Fp) + 2 ^ (10 * n) - (Constants.T_P : Fp)) n = 0 := by
  interval_cases t
  · simp
  · have hl := h rfl
    have hT := T_P_lt
    have hpe := p_eq_T_P
    have hge : (2 : ℕ) ^ 126 ≤ 2 ^ (10 * n) := Nat.pow_le_pow_right (by norm_num) (by omega)
    have hle : (2 : ℕ) ^ (10 * n) ≤ 2 ^ 250 := Nat.pow_le_pow_right (by norm_num) (by omega)
    have h1 : (low : Fp) + 2 ^ (10 * n) - (Constants.T_P : Fp) =
        ((low + 2 ^ (10 * n) - Constants.T_P : ℕ) : Fp) := by
      rw [Nat.cast_sub (by omega)]; push_cast; rfl
    rw [h1, runningSumOf_eq_zero (by omega) (by omega), mul_zero]

end Halo2

end Orchard
