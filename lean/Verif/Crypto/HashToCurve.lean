import Verif.Crypto.Blake2b
import Verif.Basic.Encoding
import Mathlib.AlgebraicGeometry.EllipticCurve.Affine.Point

/-!
# Hashing to the Pallas curve (crate `pasta_curves`, `hashtocurve.rs`)

`pallas::Point::hash_to_curve(domain)(message)` is the suite `pallas_XMD:BLAKE2b_SSWU_RO_` of RFC 9380
(protocol specification § 5.4.9.8): hash to two field elements, map both to a curve that is 3-isogenous to
Pallas by the simplified SWU map, add there, and apply the isogeny.  Not in `/repo`; used in `spec.rs:221`,
`value.rs:312`, `note/nullifier.rs:59` and inside the crate `sinsemilla`.
-/

namespace Orchard.HashToCurve

/-! ### Hashing to the field -/

/-- BLAKE2b-512 with zero personalisation. -/
def blake (m : List UInt8) : List UInt8 := (Blake2b.hash 64 (List.replicate 16 0) m).toList

/-- Domain separation tag with its length (RFC 9380 § 3.1, `DST_prime`). -/
def dst (domain : List UInt8) : List UInt8 :=
  let d := domain ++ "-pallas_XMD:BLAKE2b_SSWU_RO_".toUTF8.toList
  d ++ [UInt8.ofNat d.length]

/-- `expand_message_xmd` to 128 bytes, as two blocks. -/
def expand (domain message : List UInt8) : List UInt8 × List UInt8 :=
  let b0 := blake (List.replicate 128 0 ++ message ++ [0, 128, 0] ++ dst domain)
  let b1 := blake (b0 ++ [1] ++ dst domain)
  let b2 := blake (List.zipWith (· ^^^ ·) b0 b1 ++ [2] ++ dst domain)
  (b1, b2)

/-- `hash_to_field`: the two blocks as big-endian integers. -/
def hashToField (domain message : List UInt8) : ℕ × ℕ :=
  let b := expand domain message
  (leNat b.1.reverse % p, leNat b.2.reverse % p)

/-! ### The isogenous curve -/

/-- Coefficient of `x` of the curve isogenous to Pallas. -/
def isoA : Fp := 0x18354a2eb0ea8c9c49be2d7258370742b74134581a27a59f92bb4b0b657a014b

/-- Constant coefficient of that curve. -/
def isoB : Fp := 1265

/-- The non-square used by the simplified SWU map. -/
def isoZ : Fp := -13

/-- `iso-Pallas`: `y² = x³ + isoA x + isoB`. -/
def isoPallas : WeierstrassCurve.Affine Fp := ⟨0, 0, 0, isoA, isoB⟩

open Classical in
/-- The point `(x, y)` of `iso-Pallas`. -/
noncomputable def isoPoint (x y : Fp) : isoPallas.Point :=
  if h : isoPallas.Nonsingular x y then .some x y h else 0

/-- The one of `y`, `-y` that has the sign of `u`. -/
def withSign (u y : Fp) : Fp := if Point.sgn u = Point.sgn y then y else -y

/-- The right-hand side of the curve equation. -/
def isoG (x : Fp) : Fp := x ^ 3 + isoA * x + isoB

/-- First candidate for the `x` coordinate. -/
noncomputable def isoX1 (u : Fp) : Fp :=
  let t := isoZ * u ^ 2
  if t ^ 2 + t = 0 then isoB / (isoZ * isoA) else -isoB / isoA * (1 + (t ^ 2 + t)⁻¹)

/-- Second candidate for the `x` coordinate. -/
noncomputable def isoX2 (u : Fp) : Fp := isoZ * u ^ 2 * isoX1 u

/-- The first candidate that has a square root, with the root that has the sign of `u`. -/
noncomputable def select (u x1 x2 : Fp) : Option Fp → Option Fp → isoPallas.Point
  | some y, _ => isoPoint x1 (withSign u y)
  | none, some y => isoPoint x2 (withSign u y)
  | none, none => 0

/-- Simplified SWU map (RFC 9380 § 6.6.2). -/
noncomputable def mapToCurve (u : Fp) : isoPallas.Point :=
  select u (isoX1 u) (isoX2 u) (Point.fpSqrt (isoG (isoX1 u))) (Point.fpSqrt (isoG (isoX2 u)))

/-! ### The isogeny -/

/-- Numerator of the `x` coordinate. -/
def isoNumX (x : Fp) : Fp :=
  ((0x0e38e38e38e38e38e38e38e38e38e38e4081775473d8375b775f6034aaaaaaab * x +
    0x3509afd51872d88e267c7ffa51cf412a0f93b82ee4b994958cf863b02814fb76) * x +
    0x17329b9ec525375398c7d7ac3d98fd13380af066cfeb6d690eb64faef37ea4f7) * x +
    0x1c71c71c71c71c71c71c71c71c71c71c8102eea8e7b06eb6eebec06955555580

/-- Denominator of the `x` coordinate. -/
def isoDenX (x : Fp) : Fp :=
  (x + 0x1d572e7ddc099cff5a607fcce0494a799c434ac1c96b6980c47f2ab668bcd71f) * x +
    0x325669becaecd5d11d13bf2a7f22b105b4abf9fb9a1fc81c2aa3af1eae5b6604

/-- Numerator of the `y` coordinate. -/
def isoNumY (x y : Fp) : Fp :=
  (((0x1a12f684bda12f684bda12f684bda12f7642b01ad461bad25ad985b5e38e38e4 * x +
    0x1a84d7ea8c396c47133e3ffd28e7a09507c9dc17725cca4ac67c31d8140a7dbb) * x +
    0x3fb98ff0d2ddcadd303216cce1db9ff11765e924f745937802e2be87d225b234) * x +
    0x025ed097b425ed097b425ed097b425ed0ac03e8e134eb3e493e53ab371c71c4f) * y

/-- Denominator of the `y` coordinate. -/
def isoDenY (x : Fp) : Fp :=
  ((x + 0x0c02c5bcca0e6b7f0790bfb3506defb65941a3a4a97aa1b35a28279b1d1b42ae) * x +
    0x17033d3c60c68173573b3d7f7d681310d976bbfabbc5661d4d90ab820b12320a) * x +
    0x40000000000000000000000000000000224698fc094cf91b992d30ecfffffde5

open Classical in
/-- The point `(x, y)` of Pallas. -/
noncomputable def pallasPoint (x y : Fp) : Point :=
  if h : y ^ 2 = x ^ 3 + 5 then Point.ofXY x y h else 0

/-- `iso_map`: the 3-isogeny to Pallas; points of its kernel go to the identity. -/
noncomputable def isoMap : isoPallas.Point → Point
  | .zero => 0
  | .some x y _ =>
    if isoDenX x = 0 ∨ isoDenY x = 0 then 0
    else pallasPoint (isoNumX x / isoDenX x) (isoNumY x y / isoDenY x)

/-- `pallas::Point::hash_to_curve(domain)(message)`. -/
noncomputable def hashToCurve (domain message : List UInt8) : Point :=
  isoMap (mapToCurve ((hashToField domain message).1 : Fp) +
    mapToCurve ((hashToField domain message).2 : Fp))

end Orchard.HashToCurve
