import Verif.Crypto.EvalSinsemilla
import Verif.Lemmas.Tree

/-!
# Evaluating the Merkle hash in the kernel

Nothing here models code.
-/

namespace Orchard.Compute

/-- `MerkleCRH` on numbers. -/
noncomputable def merkleK (l a b : ℕ) : Option (ℕ × ℕ) :=
  sinsemillaK 52 (l + 1024 * (a + 2 ^ 255 * b))
    9991206725476878888751475603038274618448000607209514551456795194094072219296
    24209798415301550423396126020228723009317736024280831393239261884225294625378

/-- Is this the hash? -/
noncomputable def merkleIs (l a b c : ℕ) : Bool :=
  match merkleK l a b with
  | some r => Nat.beq r.1 c
  | none => false

theorem rep_ofXY_intro {x y : ℕ} {x' y' : Fp} {e : y' ^ 2 = x' ^ 3 + 5} (hx : (x : Fp) = x') (hy : (y : Fp) = y') :
    Rep (some (x, y)) (Point.ofXY x' y' e) := by
  subst hx hy
  exact rep_ofXY.2 ⟨e, rfl⟩

theorem rep_qMerkleCrh : Rep (some (9991206725476878888751475603038274618448000607209514551456795194094072219296,
    24209798415301550423396126020228723009317736024280831393239261884225294625378)) Constants.qMerkleCrh :=
  rep_ofXY_intro Nat.cast_ofNat Nat.cast_ofNat

theorem extractP_rep {x y : ℕ} {A : Point} (h : Rep (some (x, y)) A) : extractP A = (x : Fp) := by
  obtain ⟨h1, h2⟩ := h
  rw [h2]
  rfl

theorem bitsNat_merkle {l a b : ℕ} (hl : l < 1024) (ha : a < 2 ^ 255) (hb : b < 2 ^ 255) :
    bitsNat (leBits 10 l ++ leBits 255 a ++ leBits 255 b) = l + 1024 * (a + 2 ^ 255 * b) := by
  rw [bitsNat_append, bitsNat_append, bitsNat_leBits_of_lt (by omega), bitsNat_leBits_of_lt ha,
    bitsNat_leBits_of_lt hb, List.length_append, length_leBits, length_leBits, pow_add 2 10 255]
  generalize (2 : ℕ) ^ 255 = w
  ring

theorem merkleCRH_of_some {P : Prims} {l : ℕ} {a b : Fp} {C : Point}
    (h : sinsemillaHashToPoint P Constants.qMerkleCrh (leBits 10 l ++ leBits 255 a.val ++ leBits 255 b.val) = some C) :
    Spec.merkleCRH P l a b = extractP C := by
  unfold Spec.merkleCRH
  rw [h]

theorem merkleIs_sound {l a b c : ℕ} (hl : l < 1024) (ha : a < p) (hb : b < p) (h : merkleIs l a b c = true) :
    Spec.merkleCRH Prims.zcash l a b = (c : Fp) := by
  unfold merkleIs at h
  have hp := p_lt_two_pow_255
  cases hr : merkleK l a b with
  | none => rw [hr] at h; cases h
  | some r =>
    rw [hr] at h
    obtain ⟨x, y⟩ := r
    have hx : x = c := Nat.eq_of_beq_eq_true h
    subst hx
    unfold merkleK at hr
    obtain ⟨C, hC, hrep⟩ := sinsemilla_sound (l := leBits 10 l ++ leBits 255 a ++ leBits 255 b) (n := 52)
      (by simp) (bitsNat_merkle hl (ha.trans hp) (hb.trans hp)) rep_qMerkleCrh hr
    have hA : (a : Fp).val = a := ZMod.val_natCast_of_lt ha
    have hB : (b : Fp).val = b := ZMod.val_natCast_of_lt hb
    have hX := extractP_rep hrep
    generalize (a : Fp) = a' at hA ⊢
    generalize (b : Fp) = b' at hB ⊢
    generalize (x : Fp) = x' at hX ⊢
    subst hA hB
    rw [merkleCRH_of_some hC, hX]

end Orchard.Compute
