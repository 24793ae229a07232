import Verif.Basic.Bytes
import Verif.Basic.PallasOrder

/-!
# Canonical encodings of field elements and Pallas points

Models `PrimeField::{to_repr, from_repr, to_le_bits}` for `pallas::Base`/`pallas::Scalar`,
`FromUniformBytes<64>::from_uniform_bytes`, and `GroupEncoding::{to_bytes, from_bytes}` for
`pallas::Point` (crate `pasta_curves`, a dependency whose source is not in `/repo`).
They are used throughout `/repo/src` (e.g. `spec.rs:38-42`, `spec.rs:177-196`, `value.rs:332-339`).
-/

namespace Orchard

theorem p_lt_two_pow_255 : p < 2 ^ 255 := by decide +kernel
theorem q_lt_two_pow_255 : q < 2 ^ 255 := by decide +kernel
theorem p_lt_256_pow_32 : p < 256 ^ 32 := by decide +kernel
theorem q_lt_256_pow_32 : q < 256 ^ 32 := by decide +kernel
theorem two_pow_254_lt_p : 2 ^ 254 < p := by decide +kernel

namespace Fp

/-- `pallas::Base::to_repr`. -/
def toRepr (x : Fp) : Bytes 32 := Bytes.ofNat 32 x.val

/-- `pallas::Base::from_repr`: accepts only integers below the modulus. -/
def fromRepr (b : Bytes 32) : Option Fp := if b.toNat < p then some (b.toNat : Fp) else none

/-- `pallas::Base::to_le_bits().iter().by_vals().take(n)`. -/
def toLeBits (n : ℕ) (x : Fp) : List Bool := leBits n x.val

/-- `pallas::Base::from_uniform_bytes`: 512-bit little-endian integer modulo `p`. -/
def fromUniform (b : Bytes 64) : Fp := (b.toNat : Fp)

theorem val_lt_256 (x : Fp) : x.val < 256 ^ 32 := (ZMod.val_lt x).trans p_lt_256_pow_32

theorem toNat_toRepr (x : Fp) : (toRepr x).toNat = x.val := Bytes.toNat_ofNat (val_lt_256 x)

theorem fromRepr_eq_some_iff {b : Bytes 32} {x : Fp} : fromRepr b = some x ↔ b = toRepr x := by
  unfold fromRepr
  constructor
  · intro h
    split at h
    · rename_i hlt
      simp only [Option.some.injEq] at h
      subst h
      apply Bytes.toNat_injective
      rw [toNat_toRepr, ZMod.val_natCast, Nat.mod_eq_of_lt hlt]
    · exact absurd h (by simp)
  · rintro rfl
    rw [toNat_toRepr, if_pos (ZMod.val_lt x), ZMod.natCast_zmod_val]

theorem fromRepr_toRepr (x : Fp) : fromRepr (toRepr x) = some x := fromRepr_eq_some_iff.2 rfl

theorem toRepr_injective : Function.Injective toRepr := by
  intro x y h
  have := fromRepr_toRepr x
  rw [h, fromRepr_toRepr] at this
  exact (Option.some.inj this).symm

theorem fromRepr_isSome_iff {b : Bytes 32} : (fromRepr b).isSome ↔ b.toNat < p := by
  unfold fromRepr; split <;> simp_all

theorem bitsNat_toLeBits {n : ℕ} (hn : 255 ≤ n) (x : Fp) : bitsNat (toLeBits n x) = x.val :=
  bitsNat_leBits_of_lt ((ZMod.val_lt x).trans
    (lt_of_lt_of_le p_lt_two_pow_255 (Nat.pow_le_pow_right (by norm_num) hn)))

end Fp

namespace Fq

/-- `pallas::Scalar::to_repr`. -/
def toRepr (x : Fq) : Bytes 32 := Bytes.ofNat 32 x.val

/-- `pallas::Scalar::from_repr`: accepts only integers below the modulus. -/
def fromRepr (b : Bytes 32) : Option Fq := if b.toNat < q then some (b.toNat : Fq) else none

/-- `pallas::Scalar::from_uniform_bytes`: 512-bit little-endian integer modulo `q`. -/
def fromUniform (b : Bytes 64) : Fq := (b.toNat : Fq)

theorem val_lt_256 (x : Fq) : x.val < 256 ^ 32 := (ZMod.val_lt x).trans q_lt_256_pow_32

theorem toNat_toRepr (x : Fq) : (toRepr x).toNat = x.val := Bytes.toNat_ofNat (val_lt_256 x)

theorem fromRepr_eq_some_iff {b : Bytes 32} {x : Fq} : fromRepr b = some x ↔ b = toRepr x := by
  unfold fromRepr
  constructor
  · intro h
    split at h
    · rename_i hlt
      simp only [Option.some.injEq] at h
      subst h
      apply Bytes.toNat_injective
      rw [toNat_toRepr, ZMod.val_natCast, Nat.mod_eq_of_lt hlt]
    · exact absurd h (by simp)
  · rintro rfl
    rw [toNat_toRepr, if_pos (ZMod.val_lt x), ZMod.natCast_zmod_val]

theorem fromRepr_toRepr (x : Fq) : fromRepr (toRepr x) = some x := fromRepr_eq_some_iff.2 rfl

theorem toRepr_injective : Function.Injective toRepr := by
  intro x y h
  have := fromRepr_toRepr x
  rw [h, fromRepr_toRepr] at this
  exact (Option.some.inj this).symm

theorem fromRepr_isSome_iff {b : Bytes 32} : (fromRepr b).isSome ↔ b.toNat < q := by
  unfold fromRepr; split <;> simp_all

end Fq

namespace Point

open Classical in
/-- `pallas::Base::sqrt`: some square root if there is one (which of the two is unspecified). -/
noncomputable def fpSqrt (a : Fp) : Option Fp :=
  if h : ∃ y : Fp, y ^ 2 = a then some h.choose else none

theorem fpSqrt_sound {a y : Fp} (h : fpSqrt a = some y) : y ^ 2 = a := by
  unfold fpSqrt at h
  split at h
  · rename_i hex
    simp only [Option.some.injEq] at h
    exact h ▸ hex.choose_spec
  · exact absurd h (by simp)

theorem fpSqrt_complete {a y : Fp} (h : y ^ 2 = a) : ∃ z, fpSqrt a = some z := by
  unfold fpSqrt
  rw [dif_pos ⟨y, h⟩]
  exact ⟨_, rfl⟩

/-- Bit `ỹ` of a compressed encoding: parity of the canonical representative. -/
def sgn (y : Fp) : ℕ := y.val % 2

/-- `pallas::Point::to_bytes`: all zeros for the identity, otherwise the 255-bit `x` with the
parity of `y` in the top bit.  (The Rust code writes the 32 bytes of `x` and ors `ỹ << 7` into
byte 31; since `x < 2^255` this is the same as encoding the integer `x + 2^255 ỹ`.) -/
def toBytes : Point → Bytes 32
  | .zero => Bytes.ofNat 32 0
  | .some x y _ => Bytes.ofNat 32 (x.val + 2 ^ 255 * sgn y)

/-- Point decompression inside `pallas::Point::from_bytes`: `x = 0` without sign is the identity;
otherwise solve for `y` and select the root with the requested sign. -/
noncomputable def decompress (x : Fp) (ysign : ℕ) : Option Point :=
  if x = 0 ∧ ysign = 0 then some 0
  else
    match fpSqrt (x ^ 3 + 5) with
    | none => none
    | some y =>
      let y' := if sgn y = ysign then y else -y
      if h : y' ^ 2 = x ^ 3 + 5 then some (ofXY x y' h) else none

/-- `pallas::Point::from_bytes`: split off the sign bit, parse `x` canonically, decompress. -/
noncomputable def fromBytes (b : Bytes 32) : Option Point :=
  if b.toNat % 2 ^ 255 < p then
    decompress ((b.toNat % 2 ^ 255 : ℕ) : Fp) (b.toNat / 2 ^ 255)
  else none

@[simp] theorem toBytes_zero : toBytes (0 : Point) = Bytes.ofNat 32 0 := rfl

theorem toBytes_ofXY (x y : Fp) (h : y ^ 2 = x ^ 3 + 5) :
    toBytes (ofXY x y h) = Bytes.ofNat 32 (x.val + 2 ^ 255 * sgn y) := rfl

theorem sgn_lt (y : Fp) : sgn y < 2 := Nat.mod_lt _ (by norm_num)

theorem sgn_neg {y : Fp} (hy : y ≠ 0) : sgn (-y) = 1 - sgn y := by
  unfold sgn
  rw [ZMod.neg_val, if_neg hy]
  have h1 : y.val < p := ZMod.val_lt y
  have h2 : p % 2 = 1 := by decide +kernel
  omega

theorem enc_lt (x : Fp) {s : ℕ} (hs : s < 2) : x.val + 2 ^ 255 * s < 256 ^ 32 := by
  have := ZMod.val_lt x
  have h2 := p_lt_two_pow_255
  have : (256:ℕ) ^ 32 = 2 ^ 255 * 2 := by norm_num
  rw [this]
  have : s ≤ 1 := by omega
  nlinarith

theorem toNat_toBytes_ofXY (x y : Fp) (h : y ^ 2 = x ^ 3 + 5) :
    (toBytes (ofXY x y h)).toNat = x.val + 2 ^ 255 * sgn y := by
  rw [toBytes_ofXY, Bytes.toNat_ofNat (enc_lt x (sgn_lt y))]

theorem enc_split (x : Fp) (s : ℕ) :
    (x.val + 2 ^ 255 * s) % 2 ^ 255 = x.val ∧ (x.val + 2 ^ 255 * s) / 2 ^ 255 = s := by
  have hx : x.val < 2 ^ 255 := (ZMod.val_lt x).trans p_lt_two_pow_255
  constructor
  · rw [Nat.add_mul_mod_self_left, Nat.mod_eq_of_lt hx]
  · rw [Nat.add_mul_div_left _ _ (by positivity), Nat.div_eq_of_lt hx, zero_add]

theorem decompress_zero : decompress 0 0 = some 0 := by
  unfold decompress
  rw [if_pos ⟨rfl, rfl⟩]

theorem decompress_ofXY {x y : Fp} (h : y ^ 2 = x ^ 3 + 5) :
    decompress x (sgn y) = some (ofXY x y h) := by
  unfold decompress
  have hx0 := x_ne_zero_of_onCurve h
  rw [if_neg (fun hh => hx0 hh.1)]
  obtain ⟨z, hz⟩ := fpSqrt_complete h
  rw [hz]
  have hz2 := fpSqrt_sound hz
  have hz0 := y_ne_zero_of_onCurve hz2
  have key : (if sgn z = sgn y then z else -z) = y := by
    have hsq : z ^ 2 = y ^ 2 := hz2.trans h.symm
    split
    · rename_i hs
      exact eq_of_sq_eq_of_parity hsq hs
    · rename_i hs
      have := sgn_neg hz0
      have h3 := sgn_lt z
      have h4 := sgn_lt y
      exact eq_of_sq_eq_of_parity (by rw [neg_sq, hsq]) (by unfold sgn at *; omega)
  simp only [key]
  rw [dif_pos h]

theorem decompress_some {x : Fp} {s : ℕ} (hs : s < 2) {P : Point} (h : decompress x s = some P) :
    (x = 0 ∧ s = 0 ∧ P = 0) ∨ ∃ (y : Fp) (hy : y ^ 2 = x ^ 3 + 5), sgn y = s ∧ P = ofXY x y hy := by
  unfold decompress at h
  split at h
  · rename_i h0
    exact Or.inl ⟨h0.1, h0.2, (Option.some.inj h).symm⟩
  · split at h
    · exact absurd h (by simp)
    · rename_i y hy
      have hy0 := y_ne_zero_of_onCurve (fpSqrt_sound hy)
      have hsg : sgn (if sgn y = s then y else -y) = s := by
        split
        · assumption
        · rename_i hne
          rw [sgn_neg hy0]
          have := sgn_lt y
          omega
      generalize (if sgn y = s then y else -y) = y' at h hsg
      dsimp only at h
      by_cases hy' : y' ^ 2 = x ^ 3 + 5
      · rw [dif_pos hy'] at h
        exact Or.inr ⟨y', hy', hsg, (Option.some.inj h).symm⟩
      · rw [dif_neg hy'] at h
        exact absurd h (by simp)

theorem div_two_pow_255_lt (b : Bytes 32) : b.toNat / 2 ^ 255 < 2 := by
  have hb : b.toNat < 256 ^ 32 := b.toNat_lt
  rw [Nat.div_lt_iff_lt_mul (by positivity)]
  calc b.toNat < 256 ^ 32 := hb
    _ = 2 * 2 ^ 255 := by norm_num

/-- Parsing a point encoding succeeds exactly on the canonical encodings. -/
theorem fromBytes_eq_some_iff {b : Bytes 32} {P : Point} : fromBytes b = some P ↔ b = toBytes P := by
  unfold fromBytes
  constructor
  · intro h
    have hb2 := div_two_pow_255_lt b
    have hsplit : b.toNat % 2 ^ 255 + 2 ^ 255 * (b.toNat / 2 ^ 255) = b.toNat :=
      Nat.mod_add_div _ _
    generalize b.toNat / 2 ^ 255 = s at h hb2 hsplit
    generalize b.toNat % 2 ^ 255 = xn at h hsplit
    by_cases hlt : xn < p
    · rw [if_pos hlt] at h
      have hval : (xn : Fp).val = xn := by
        rw [ZMod.val_natCast, Nat.mod_eq_of_lt hlt]
      apply Bytes.toNat_injective
      rw [← hsplit]
      rcases decompress_some hb2 h with ⟨h0, hs, rfl⟩ | ⟨y, hy, hs, rfl⟩
      · rw [toBytes_zero, Bytes.toNat_ofNat (by positivity), hs, ← hval, h0, ZMod.val_zero,
          mul_zero, add_zero]
      · rw [toNat_toBytes_ofXY, hval, hs]
    · rw [if_neg hlt] at h
      exact absurd h (by simp)
  · rintro rfl
    rcases cases_xy P with rfl | ⟨x, y, h, rfl⟩
    · rw [toBytes_zero, Bytes.toNat_ofNat (by positivity), Nat.zero_mod, Nat.zero_div,
        if_pos (by decide +kernel), Nat.cast_zero, decompress_zero]
    · obtain ⟨h1, h2⟩ := enc_split x (sgn y)
      rw [toNat_toBytes_ofXY, h1, h2, if_pos (ZMod.val_lt x), ZMod.natCast_zmod_val,
        decompress_ofXY h]

theorem fromBytes_toBytes (P : Point) : fromBytes (toBytes P) = some P :=
  fromBytes_eq_some_iff.2 rfl

theorem toBytes_injective : Function.Injective toBytes := by
  intro P Q h
  have := fromBytes_toBytes P
  rw [h, fromBytes_toBytes] at this
  exact (Option.some.inj this).symm

end Point

end Orchard
