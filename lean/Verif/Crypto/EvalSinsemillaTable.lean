import Verif.Crypto.EvalPoints
import Verif.Crypto.Zcash

/-!
# Checking the Sinsemilla table in the kernel

`S(j)` of the protocol specification § 5.4.1.9 is a hash to the curve.  The coordinates of all 1024 points are
listed in `SinsemillaTable/`, sixteen files of 64 points each.  Nothing here models code.
-/

namespace Orchard.Compute

/-- The tag for the Sinsemilla table, packed. -/
def sTag : ℕ := leNat (HashToCurve.dst (ascii "z.cash:SinsemillaS"))

/-- Entry `i` of a packed list of 256-bit numbers. -/
def unpack (n i : ℕ) : ℕ :=
  Nat.mod (Nat.shiftRight n (Nat.mul 256 i))
    115792089237316195423570985008687907853269984665640564039457584007913129639936

/-- The computed point has the given coordinates. -/
def isPt : Option Pt → ℕ → ℕ → Bool
  | some (some (a, b)), x, y => Nat.beq a x && Nat.beq b y
  | _, _, _ => false

theorem isPt_sound : ∀ {o : Option Pt} {x y : ℕ}, isPt o x y = true → o = some (some (x, y))
  | some (some (a, b)), x, y, h => by
    rw [isPt, Bool.and_eq_true, Nat.beq_eq, Nat.beq_eq] at h
    rw [h.1, h.2]
  | some none, _, _, h => absurd h (by simp [isPt])
  | none, _, _, h => absurd h (by simp [isPt])

/-- `S(j)` has the given coordinates. -/
noncomputable def sCheck1 (D j x y : ℕ) : Bool := isPt (hashToCurveK D 47 j 4) x y

/-- The points `S(start), ..., S(start + 63)` have the given coordinates. -/
noncomputable def sCheck (start X Y : ℕ) : Bool :=
  force sTag fun D => (List.range 64).all fun i => force (Nat.add start i) fun j => sCheck1 D j (unpack X i) (unpack Y i)

theorem sTag_length : (HashToCurve.dst (ascii "z.cash:SinsemillaS")).length = 47 := by decide +kernel

theorem sinsemillaS_zcash : Prims.zcash.sinsemillaS =
    fun j => HashToCurve.hashToCurve (ascii "z.cash:SinsemillaS") (leBytes 4 j) := by
  delta Prims.zcash
  with_reducible rfl

theorem sTag_def : leNat (HashToCurve.dst (ascii "z.cash:SinsemillaS")) = sTag := by
  delta sTag
  with_reducible rfl

theorem sCheck1_sound {j x y : ℕ} (hj : j < 1024) (h : sCheck1 sTag j x y = true) :
    Rep (some (x, y)) (Prims.zcash.sinsemillaS j) := by
  have hab : hashToCurveK sTag 47 j 4 = some (some (x, y)) := isPt_sound h
  have h4 : leNat (leBytes 4 j) = j := leNat_leBytes_of_lt (lt_trans hj (by norm_num))
  rw [sinsemillaS_zcash]
  exact rep_hashToCurveK sTag_def sTag_length h4 (length_leBytes 4 j) (by norm_num) hab

theorem sCheck_sound {start X Y : ℕ} (h : sCheck start X Y = true) (hs : start + 64 ≤ 1024) (i : ℕ) (hi : i < 64) :
    Rep (some (unpack X i, unpack Y i)) (Prims.zcash.sinsemillaS (start + i)) := by
  unfold sCheck at h
  rw [force_eq] at h
  have := List.all_eq_true.1 h i (List.mem_range.2 hi)
  rw [force_eq] at this
  exact sCheck1_sound (by omega) this

end Orchard.Compute
