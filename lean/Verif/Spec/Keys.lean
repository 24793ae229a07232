import Verif.Model.Spec

/-!
# Specification of key components (protocol specification § 4.2.3)

Written from the protocol specification in terms of the primitives, not in terms of the functions
of `Verif/Model/Keys.lean`.
-/

namespace Orchard.Spec

/-- `ỹ`: parity of the `y` coordinate (`0` for the identity). -/
def ySign : Point → ℕ
  | .zero => 0
  | .some _ y _ => y.val % 2

/-- `ask = ToScalar(PRF^expand_sk([0x06]))`, before the sign correction. -/
def askScalar (P : Prims) (sk : Bytes 32) : Fq := toScalar (prfExpand P 0x06 sk [])

/-- `rivk_internal = ToScalar(PRF^expand_rivk([0x83] ‖ ak ‖ nk))`. -/
def rivkInternal (P : Prims) (ak : Point) (nk : Fp) (rivk : Fq) : Fq :=
  toScalar (prfExpand P 0x83 (Fq.toRepr rivk) (ak.toBytes.toList ++ (Fp.toRepr nk).toList))

/-- `Commit^ivk_rivk(Extract_P(ak), nk)` is neither `⊥` nor `0`. -/
def IvkDefined (P : Prims) (ak : Point) (nk : Fp) (rivk : Fq) : Prop :=
  ∃ ivk : Fp, commitIvk P (extractP ak) nk rivk = some ivk ∧ ivk ≠ 0

/-- A valid full viewing key: `ak` is a non-identity point with even `y`, and both the external and
the internal incoming viewing keys exist and are non-zero. -/
def ValidFvk (P : Prims) (ak : Point) (nk : Fp) (rivk : Fq) : Prop :=
  ak ≠ 0 ∧ ySign ak = 0 ∧ IvkDefined P ak nk rivk ∧
    IvkDefined P ak nk (rivkInternal P ak nk rivk)

end Orchard.Spec
