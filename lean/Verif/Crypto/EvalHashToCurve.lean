import Verif.Crypto.HashToCurve
import Verif.Crypto.Compute

/-!
# Evaluating `hash_to_curve` in the kernel
-/

namespace Orchard.Compute

open HashToCurve

/-- Candidate for a square root modulo `p` (Tonelli–Shanks; `5` is not a square and `p - 1` is `2^32`
times an odd number).  Results are checked where they are used. -/
noncomputable def sqrtLoop (k : ℕ) : ℕ → ℕ → ℕ → ℕ :=
  Nat.rec (motive := fun _ => ℕ → ℕ → ℕ → ℕ) (fun r _ _ => r)
    (fun j ih r b z =>
      bif Nat.beq (powAux p b (hexDigits (j / 4 + 1) (2 ^ j) []) 1) 1 then
        force (mul z z) fun z' => ih r b z'
      else
        force (mul z z) fun z' => force (mul r z) fun r' => force (mul b z') fun b' => ih r' b' z') k

/-- See `sqrtLoop`. -/
noncomputable def sqrt (a : ℕ) : ℕ :=
  force (pow p a ((((p - 1) / 2 ^ 32) - 1) / 2)) fun w =>
    force (mul a w) fun r => force (mul r w) fun b =>
      force (pow p 5 ((p - 1) / 2 ^ 32)) fun z => sqrtLoop 31 r b z

/-- `isoA`. -/
def isoA' : ℕ := 0x18354a2eb0ea8c9c49be2d7258370742b74134581a27a59f92bb4b0b657a014b

theorem isoA'_cast : (isoA' : Fp) = isoA := by decide +kernel

/-- `isoZ`. -/
def isoZ' : ℕ := p - 13

theorem isoZ'_cast : (isoZ' : Fp) = isoZ := by decide +kernel

/-- `withSign`. -/
def withSign' (u y : ℕ) : ℕ :=
  bif Nat.beq (u % p % 2) (y % p % 2) then y else sub 0 y

theorem withSign'_cast (u y : ℕ) : ((withSign' u y : ℕ) : Fp) = withSign u y := by
  unfold withSign' withSign Point.sgn
  rw [ZMod.val_natCast, ZMod.val_natCast]
  cases h : Nat.beq (u % p % 2) (y % p % 2) with
  | true =>
    rw [if_pos (Nat.eq_of_beq_eq_true h)]; rfl
  | false =>
    rw [if_neg (Nat.ne_of_beq_eq_false h), cond_false, sub_cast, Nat.cast_zero, zero_sub]

/-- Which square root is chosen does not matter. -/
theorem withSign_eq {u y y' : Fp} (h : y ^ 2 = y' ^ 2) : withSign u y = withSign u y' := by
  by_cases h0 : y = 0
  · subst h0
    have : y' = 0 := by
      rw [zero_pow two_ne_zero] at h
      exact pow_eq_zero_iff two_ne_zero |>.1 h.symm
    rw [this]
  · have h0' : y' ≠ 0 := by
      rintro rfl
      rw [zero_pow two_ne_zero] at h
      exact h0 (pow_eq_zero_iff two_ne_zero |>.1 h)
    have key : ∀ z : Fp, z ≠ 0 → Point.sgn (withSign u z) = Point.sgn u ∧ withSign u z ^ 2 = z ^ 2 := by
      intro z hz
      unfold withSign
      split
      · rename_i hs; exact ⟨hs.symm, rfl⟩
      · rename_i hs
        refine ⟨?_, neg_sq z⟩
        rw [Point.sgn_neg hz]
        have := Point.sgn_lt z
        have := Point.sgn_lt u
        omega
    obtain ⟨a1, a2⟩ := key y h0
    obtain ⟨b1, b2⟩ := key y' h0'
    refine eq_of_sq_eq_of_parity (a2.trans (h.trans b2.symm)) ?_
    have := a1.trans b1.symm
    exact this

theorem isoPallas_Δ : isoPallas.Δ ≠ 0 := by
  simp only [WeierstrassCurve.Δ, WeierstrassCurve.b₂, WeierstrassCurve.b₄, WeierstrassCurve.b₆,
    WeierstrassCurve.b₈, isoPallas, isoA, isoB]
  decide +kernel

theorem isoPallas_nonsingular_iff (x y : Fp) : isoPallas.Nonsingular x y ↔ y ^ 2 = isoG x := by
  rw [← WeierstrassCurve.Affine.equation_iff_nonsingular_of_Δ_ne_zero isoPallas_Δ,
    WeierstrassCurve.Affine.equation_iff]
  simp [isoPallas, isoG]

/-- `isoG`. -/
def isoG' (x : ℕ) : ℕ := add (mul (mul x x) x) (Nat.add (mul isoA' x) 1265)

theorem isoG'_cast (x : ℕ) : ((isoG' x : ℕ) : Fp) = isoG x := by
  unfold isoG' isoG
  rw [add_cast, mul_cast, mul_cast, show Nat.add (mul isoA' x) 1265 = mul isoA' x + 1265 from rfl,
    Nat.cast_add, mul_cast, isoA'_cast]
  unfold isoB
  push_cast
  ring

/-- `isoX1`. -/
noncomputable def isoX1' (u : ℕ) : ℕ :=
  force (mul isoZ' (mul u u)) fun t => force (add (mul t t) t) fun ta =>
    bif eq ta 0 then mul 1265 (inv (mul isoZ' isoA'))
    else mul (mul (sub 0 1265) (inv isoA')) (Nat.add 1 (inv ta))

theorem isoX1'_cast (u : ℕ) : ((isoX1' u : ℕ) : Fp) = isoX1 u := by
  unfold isoX1' isoX1
  rw [force_eq, force_eq]
  have ht : ((mul isoZ' (mul u u) : ℕ) : Fp) = isoZ * (u : Fp) ^ 2 := by
    rw [mul_cast, mul_cast, isoZ'_cast]; ring
  have hta : ((add (mul (mul isoZ' (mul u u)) (mul isoZ' (mul u u))) (mul isoZ' (mul u u)) : ℕ) : Fp) =
      (isoZ * (u : Fp) ^ 2) ^ 2 + isoZ * (u : Fp) ^ 2 := by
    rw [add_cast, mul_cast, ht]; ring
  generalize add (mul (mul isoZ' (mul u u)) (mul isoZ' (mul u u))) (mul isoZ' (mul u u)) = ta at hta
  dsimp only
  rw [← hta]
  cases h : eq ta 0 with
  | true =>
    rw [eq_iff, Nat.cast_zero] at h
    rw [if_pos h, cond_true, mul_cast, inv_cast, mul_cast, isoZ'_cast, isoA'_cast, div_eq_mul_inv, isoB,
      Nat.cast_ofNat]
  | false =>
    rw [eq_false_iff, Nat.cast_zero] at h
    rw [if_neg h, cond_false, mul_cast, mul_cast, inv_cast, sub_cast, isoA'_cast,
      show Nat.add 1 (inv ta) = 1 + inv ta from rfl, Nat.cast_add, inv_cast, Nat.cast_zero, zero_sub,
      Nat.cast_one, div_eq_mul_inv, isoB, Nat.cast_ofNat]

/-- `mapToCurve`, if the computed square roots are right. -/
noncomputable def mapToCurve' (u : ℕ) : Option Pt :=
  force (isoX1' u) fun x1 => force (isoG' x1) fun g1 => force (sqrt g1) fun y =>
    bif eq (mul y y) g1 then some (some (x1, withSign' u y))
    else bif nonSquare g1 then
      force (mul (mul isoZ' (mul u u)) x1) fun x2 => force (isoG' x2) fun g2 =>
        force (sqrt g2) fun y =>
          bif eq (mul y y) g2 then some (some (x2, withSign' u y)) else none
    else none

theorem rep_isoPoint {u x y : ℕ} {z : Fp} (h : (y : Fp) ^ 2 = isoG x) (hz : z ^ 2 = isoG x) :
    Rep (some (x, withSign' u y)) (isoPoint x (withSign u z)) := by
  have hw : withSign (u : Fp) z = ((withSign' u y : ℕ) : Fp) := by
    rw [withSign'_cast, withSign_eq (hz.trans h.symm)]
  have hn : isoPallas.Nonsingular (x : Fp) ((withSign' u y : ℕ) : Fp) := by
    rw [isoPallas_nonsingular_iff, withSign'_cast, ← h]
    unfold withSign
    split
    · rfl
    · rw [neg_sq]
  refine ⟨hn, ?_⟩
  rw [hw]
  unfold isoPoint
  rw [dif_pos hn]

theorem mapToCurve_first {u z : Fp} (h : Point.fpSqrt (isoG (isoX1 u)) = some z) :
    mapToCurve u = isoPoint (isoX1 u) (withSign u z) := by
  rw [mapToCurve, h, select]

theorem mapToCurve_second {u z : Fp} (h : Point.fpSqrt (isoG (isoX1 u)) = none)
    (h' : Point.fpSqrt (isoG (isoX2 u)) = some z) :
    mapToCurve u = isoPoint (isoX2 u) (withSign u z) := by
  rw [mapToCurve, h, h', select]

theorem rep_mapToCurve {u : ℕ} {t : Pt} (h : mapToCurve' u = some t) : Rep t (mapToCurve (u : Fp)) := by
  unfold mapToCurve' at h
  simp only [force_eq] at h
  have hx1 := isoX1'_cast u
  have hx2 : isoX2 (u : Fp) =
      ((mul (mul isoZ' (mul u u)) (isoX1' u) : ℕ) : Fp) := by
    rw [isoX2, mul_cast, mul_cast, mul_cast, isoZ'_cast, hx1]; ring
  generalize isoX1' u = x1 at h hx1 hx2
  generalize mul (mul isoZ' (mul u u)) x1 = x2 at h hx2
  generalize sqrt (isoG' x1) = y1 at h
  generalize sqrt (isoG' x2) = y2 at h
  cases h1 : eq (mul y1 y1) (isoG' x1) with
  | true =>
    rw [h1, cond_true, Option.some.injEq] at h
    subst h
    rw [eq_iff, mul_cast, isoG'_cast, ← pow_two] at h1
    obtain ⟨z, hz⟩ := Point.fpSqrt_complete h1
    rw [mapToCurve_first (hx1 ▸ hz), ← hx1]
    exact rep_isoPoint h1 (Point.fpSqrt_sound hz)
  | false =>
    rw [h1, cond_false] at h
    cases hn : nonSquare (isoG' x1) with
    | false => rw [hn, cond_false] at h; exact absurd h (by simp)
    | true =>
      rw [hn, cond_true] at h
      have hnone : Point.fpSqrt (isoG (x1 : Fp)) = none := by
        cases hs : Point.fpSqrt (isoG (x1 : Fp)) with
        | none => rfl
        | some z =>
          have := Point.fpSqrt_sound hs
          rw [← isoG'_cast] at this
          exact absurd this (nonSquare_sound hn z)
      cases h2 : eq (mul y2 y2) (isoG' x2) with
      | false => rw [h2, cond_false] at h; exact absurd h (by simp)
      | true =>
        rw [h2, cond_true, Option.some.injEq] at h
        subst h
        rw [eq_iff, mul_cast, isoG'_cast, ← pow_two] at h2
        obtain ⟨z, hz⟩ := Point.fpSqrt_complete h2
        rw [mapToCurve_second (hx1 ▸ hnone) (hx2 ▸ hz), hx2]
        exact rep_isoPoint h2 (Point.fpSqrt_sound hz)

/-- `isoNumX`. -/
def isoNumX' (x : ℕ) : ℕ :=
  (((0x0e38e38e38e38e38e38e38e38e38e38e4081775473d8375b775f6034aaaaaaab * x +
    0x3509afd51872d88e267c7ffa51cf412a0f93b82ee4b994958cf863b02814fb76) * x +
    0x17329b9ec525375398c7d7ac3d98fd13380af066cfeb6d690eb64faef37ea4f7) * x +
    0x1c71c71c71c71c71c71c71c71c71c71c8102eea8e7b06eb6eebec06955555580) % p

/-- `isoDenX`. -/
def isoDenX' (x : ℕ) : ℕ :=
  ((x + 0x1d572e7ddc099cff5a607fcce0494a799c434ac1c96b6980c47f2ab668bcd71f) * x +
    0x325669becaecd5d11d13bf2a7f22b105b4abf9fb9a1fc81c2aa3af1eae5b6604) % p

/-- `isoNumY`. -/
def isoNumY' (x y : ℕ) : ℕ :=
  ((((0x1a12f684bda12f684bda12f684bda12f7642b01ad461bad25ad985b5e38e38e4 * x +
    0x1a84d7ea8c396c47133e3ffd28e7a09507c9dc17725cca4ac67c31d8140a7dbb) * x +
    0x3fb98ff0d2ddcadd303216cce1db9ff11765e924f745937802e2be87d225b234) * x +
    0x025ed097b425ed097b425ed097b425ed0ac03e8e134eb3e493e53ab371c71c4f) * y) % p

/-- `isoDenY`. -/
def isoDenY' (x : ℕ) : ℕ :=
  (((x + 0x0c02c5bcca0e6b7f0790bfb3506defb65941a3a4a97aa1b35a28279b1d1b42ae) * x +
    0x17033d3c60c68173573b3d7f7d681310d976bbfabbc5661d4d90ab820b12320a) * x +
    0x40000000000000000000000000000000224698fc094cf91b992d30ecfffffde5) % p

theorem isoNumX'_cast (x : ℕ) : ((isoNumX' x : ℕ) : Fp) = isoNumX x := by
  unfold isoNumX' isoNumX
  simp only [ZMod.natCast_mod, Nat.cast_add, Nat.cast_mul, Nat.cast_ofNat]

theorem isoDenX'_cast (x : ℕ) : ((isoDenX' x : ℕ) : Fp) = isoDenX x := by
  unfold isoDenX' isoDenX
  simp only [ZMod.natCast_mod, Nat.cast_add, Nat.cast_mul, Nat.cast_ofNat]

theorem isoNumY'_cast (x y : ℕ) : ((isoNumY' x y : ℕ) : Fp) = isoNumY x y := by
  unfold isoNumY' isoNumY
  simp only [ZMod.natCast_mod, Nat.cast_add, Nat.cast_mul, Nat.cast_ofNat]

theorem isoDenY'_cast (x : ℕ) : ((isoDenY' x : ℕ) : Fp) = isoDenY x := by
  unfold isoDenY' isoDenY
  simp only [ZMod.natCast_mod, Nat.cast_add, Nat.cast_mul, Nat.cast_ofNat]

/-- `isoMap`. -/
noncomputable def isoMap' : Pt → Option Pt
  | none => some none
  | some (x, y) =>
    force (isoNumX' x) fun nx => force (isoDenX' x) fun dx => force (isoNumY' x y) fun ny =>
    force (isoDenY' x) fun dy =>
    bif eq dx 0 || eq dy 0 then some none
    else force (mul nx (inv dx)) fun X => force (mul ny (inv dy)) fun Y =>
      bif eq (mul Y Y) (Nat.add (mul (mul X X) X) 5) then some (some (X, Y)) else none

theorem rep_isoMap {s t : Pt} {Q : isoPallas.Point} (hs : Rep s Q) (h : isoMap' s = some t) :
    Rep t (isoMap Q) := by
  rcases s with _ | ⟨x, y⟩
  · rw [show Q = 0 from hs]
    rw [isoMap', Option.some.injEq] at h
    subst h
    rfl
  · obtain ⟨hn, rfl⟩ := hs
    unfold isoMap' at h
    simp only [force_eq] at h
    rw [isoMap, ← isoNumX'_cast, ← isoDenX'_cast, ← isoNumY'_cast, ← isoDenY'_cast]
    generalize isoNumX' x = nx at h ⊢
    generalize isoDenX' x = dx at h ⊢
    generalize isoNumY' x y = ny at h ⊢
    generalize isoDenY' x = dy at h ⊢
    cases h0 : (eq dx 0 || eq dy 0) with
    | true =>
      rw [h0, cond_true, Option.some.injEq] at h
      rw [Bool.or_eq_true, eq_iff, eq_iff, Nat.cast_zero] at h0
      rw [if_pos h0]
      subst h
      rfl
    | false =>
      rw [h0, cond_false] at h
      rw [Bool.or_eq_false_iff, eq_false_iff, eq_false_iff, Nat.cast_zero] at h0
      rw [if_neg (fun hc => hc.elim h0.1 h0.2)]
      have hX : ((mul nx (inv dx) : ℕ) : Fp) = (nx : Fp) / dx := by
        rw [mul_cast, inv_cast, div_eq_mul_inv]
      have hY : ((mul ny (inv dy) : ℕ) : Fp) = (ny : Fp) / dy := by
        rw [mul_cast, inv_cast, div_eq_mul_inv]
      rw [← hX, ← hY]
      generalize mul nx (inv dx) = X at h
      generalize mul ny (inv dy) = Y at h
      cases he : eq (mul Y Y) (Nat.add (mul (mul X X) X) 5) with
      | false => rw [he, cond_false] at h; exact absurd h (by simp)
      | true =>
        rw [he, cond_true, Option.some.injEq] at h
        subst h
        rw [eq_iff, mul_cast, Nat.add_eq, Nat.cast_add, mul_cast, mul_cast] at he
        have he' : (Y : Fp) ^ 2 = (X : Fp) ^ 3 + 5 := by
          rw [pow_two, he]; push_cast; ring
        rw [pallasPoint, dif_pos he']
        exact rep_ofXY.2 ⟨he', rfl⟩

/-- `hashToCurve`, if the computed square roots are right. -/
noncomputable def hashToCurve' (domain message : List UInt8) : Option Pt :=
  force (hashToField domain message).1 fun u0 => force (hashToField domain message).2 fun u1 =>
    match mapToCurve' u0, mapToCurve' u1 with
    | some s, some t => isoMap' (addPt isoA' s t)
    | _, _ => none

theorem rep_hashToCurve {d m : List UInt8} {t : Pt} (h : hashToCurve' d m = some t) :
    Rep t (hashToCurve d m) := by
  unfold hashToCurve' at h
  simp only [force_eq] at h
  rw [hashToCurve]
  split at h
  · rename_i s t' hs ht
    exact rep_isoMap (rep_addPt rfl rfl rfl isoA'_cast.symm (rep_mapToCurve hs) (rep_mapToCurve ht)) h
  · exact absurd h (by simp)

end Orchard.Compute
