import Verif.Lemmas.Spec

/-!
# C28, C58 (extractor), C60: field conversions, coordinate extractor, bit conversions
-/

namespace Orchard

/-- **C28** (wide reductions). `to_base`/`to_scalar` reduce the 512-bit little-endian integer. -/
theorem C28_wide_reduction (x : Bytes 64) :
    (toBase x).val = x.toNat % p ∧ (toScalar x).val = x.toNat % q := by
  exact ⟨ZMod.val_natCast p x.toNat, ZMod.val_natCast q x.toNat⟩

/-- A case of `C28_wide_reduction` where reduction happens: the all-ones string. -/
example : (toBase (Bytes.replicate 64 255)).val = (2 ^ 512 - 1) % p := by
  rw [(C28_wide_reduction _).1]; decide +kernel

/-- **C28** (base to scalar). The conversion never panics and preserves the integer value. -/
theorem C28_mod_r_p (x : Fp) : ∃ s : Fq, modRP x = .ret s ∧ s.val = x.val :=
  ⟨_, modRP_eq x, val_modRPVal x⟩

/-- **C28.** The conversion is injective and maps only zero to zero. -/
theorem C28_mod_r_p_injective (x y : Fp) :
    (modRP x = modRP y → x = y) ∧ (modRP x = .ret 0 ↔ x = 0) := by
  constructor
  · intro h
    rw [modRP_eq, modRP_eq, Outcome.ret.injEq] at h
    exact modRPVal_injective h
  · rw [modRP_eq, Outcome.ret.injEq]
    exact modRPVal_eq_zero

/-- **C58** (extractor). `extract_p` sends exactly the identity to `0` and identifies exactly a
point with its negation. -/
theorem C58_extract (A B : Point) :
    (extractP A = 0 ↔ A = 0) ∧ (extractP A = extractP B ↔ A = B ∨ A = -B) :=
  ⟨extractP_eq_zero, extractP_eq_iff⟩

/-- `C58_extract` is not trivial: `(-1, 2)` and its negation differ and have the same extract. -/
example : genG ≠ -genG ∧ extractP genG = extractP (-genG) :=
  ⟨two_smul_ne_zero genG_ne_zero, (extractP_neg genG).symm⟩

/-- **C60** (bits to integer). On at most 64 bits `lebs2ip` does not panic and returns
`Σ bᵢ 2^i`; above 64 bits it panics. The field version is the image of that integer. -/
theorem C60_lebs2ip (bits : List Bool) :
    (bits.length ≤ 64 → ∃ n, lebs2ip bits = .ret n ∧ n.toNat = bitsNat bits ∧
      lebs2ipField bits = .ret (bitsNat bits : Fp)) ∧
    (64 < bits.length → lebs2ip bits = .panic) := by
  constructor
  · intro h
    obtain ⟨n, h1, h2⟩ := lebs2ip_eq h
    exact ⟨n, h1, h2, by simp [lebs2ipField, h1, h2]⟩
  · intro h
    simp [lebs2ip, not_le.2 h]

/-- **C60** (round trips). For `n ≤ 64`, `i2lebsp::<n>` returns `n` bits; converting back gives the
integer modulo `2^n`; converting an `n`-bit string to an integer and back gives the string. -/
theorem C60_round_trip (n : ℕ) (hn : n ≤ 64) :
    (∀ int : UInt64, ∃ bits, i2lebsp n int = .ret bits ∧ bits.length = n ∧
      ∃ m, lebs2ip bits = .ret m ∧ m.toNat = int.toNat % 2 ^ n) ∧
    (∀ bits : List Bool, bits.length = n →
      ∃ m, lebs2ip bits = .ret m ∧ i2lebsp n m = .ret bits) := by
  constructor
  · intro int
    refine ⟨_, i2lebsp_eq hn int, length_leBits _ _, ?_⟩
    obtain ⟨m, h1, h2⟩ := lebs2ip_eq (bits := leBits n int.toNat) (by simpa using hn)
    exact ⟨m, h1, by rw [h2, bitsNat_leBits]⟩
  · intro bits hb
    obtain ⟨m, h1, h2⟩ := lebs2ip_eq (bits := bits) (by omega)
    exact ⟨m, h1, by rw [i2lebsp_eq hn, h2, ← hb, leBits_bitsNat]⟩

/-- **C60** (`_k` variants). Mutually inverse between `10`-bit strings and integers below `1024`;
other lengths and larger integers panic. -/
theorem C60_k_round_trip :
    (∀ bits : List Bool, bits.length = 10 → ∃ n, lebs2ipK bits = .ret n ∧ n.toNat < 1024 ∧
      i2lebspK (UInt64.ofNat n.toNat) = .ret bits) ∧
    (∀ int : UInt64, int.toNat < 1024 → ∃ bits n, i2lebspK int = .ret bits ∧ bits.length = 10 ∧
      lebs2ipK bits = .ret n ∧ n.toNat = int.toNat) ∧
    (∀ bits : List Bool, bits.length ≠ 10 → lebs2ipK bits = .panic) ∧
    (∀ int : UInt64, 1024 ≤ int.toNat → i2lebspK int = .panic) := by
  refine ⟨?_, ?_, ?_, ?_⟩
  · intro bits hb
    obtain ⟨n, h1, h2⟩ := lebs2ipK_eq hb
    have hlt : bitsNat bits < 1024 := by
      have := bitsNat_lt bits; rw [hb] at this; simpa using this
    refine ⟨n, h1, by omega, ?_⟩
    have : (UInt64.ofNat n.toNat).toNat = bitsNat bits := by
      rw [UInt64.toNat_ofNat', h2, Nat.mod_eq_of_lt (by omega)]
    simp only [i2lebspK, this, Constants.K]
    rw [i2lebsp_eq (by norm_num), this]
    norm_num [hlt]
    rw [← hb, leBits_bitsNat]
  · intro int hint
    refine ⟨leBits 10 int.toNat, ?_⟩
    obtain ⟨n, h1, h2⟩ := lebs2ipK_eq (bits := leBits 10 int.toNat) (by simp)
    refine ⟨n, ?_, by simp, h1, by rw [h2, bitsNat_leBits_of_lt (by simpa using hint)]⟩
    simp only [i2lebspK, Constants.K]
    rw [i2lebsp_eq (by norm_num)]
    norm_num [hint]
  · intro bits hb
    simp [lebs2ipK, Constants.K, hb]
  · intro int hint
    simp [i2lebspK, Constants.K, not_lt.2 hint]

example : lebs2ip [true, false, true] = .ret 5 ∧ i2lebsp 3 5 = .ret [true, false, true] := by
  constructor <;> decide +kernel

end Orchard
