import Verif.Model.Spec

/-!
# Specification of the note commitment tree (protocol specification § 3.8, 4.9, 5.4.1.3)

A full tree is given by its leaves; nodes are indexed by height above the leaves and index from the
left.
-/

namespace Orchard.Spec

/-- `MerkleCRH^Orchard`: the Sinsemilla hash of `l ‖ left ‖ right`, with `⊥` mapped to `0`. -/
noncomputable def merkleCRH (P : Prims) (l : ℕ) (left right : Fp) : Fp :=
  match sinsemillaHashToPoint P Constants.qMerkleCrh
      (leBits 10 l ++ leBits 255 left.val ++ leBits 255 right.val) with
  | none => 0
  | some h => extractP h

/-- Value of the node at height `h` and index `i` of the tree with the given leaves. -/
noncomputable def node (P : Prims) (leaf : ℕ → Fp) : ℕ → ℕ → Fp
  | 0, i => leaf i
  | h + 1, i => merkleCRH P h (node P leaf h (2 * i)) (node P leaf h (2 * i + 1))

/-- Index of the sibling of node `i`. -/
def sibling (i : ℕ) : ℕ := if i % 2 = 0 then i + 1 else i - 1

end Orchard.Spec
