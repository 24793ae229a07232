import Verif.Lemmas.EmptyRoots
import Verif.Props.Tree

/-!
# The roots of empty trees are the published ones

Unlike the other theorems, which hold for all primitives, this one is about the primitives of Zcash,
`Prims.zcash`.  It covers the whole (finite) domain of `empty_root`.
-/

namespace Orchard

open Compute

/-- **C80.** With the primitives of Zcash, `empty_root(level)` is, for every level it is defined on, the published
root of the empty tree of that height (`Spec.publishedEmptyRoots`, copied byte by byte). -/
theorem C80_empty_roots_published (level : UInt8) (h : level.toNat ≤ 32) :
    ∃ r, emptyRoot Prims.zcash level = .ret r ∧
      Spec.publishedEmptyRoots[level.toNat]? = some (merkleHashToBytes r).toList := by
  refine ⟨_, (C47_empty_root Prims.zcash level).1 h, ?_⟩
  generalize level.toNat = n at h
  have hlen : Spec.publishedEmptyRoots.length = 33 := by decide +kernel
  have hl32 : ∀ l ∈ Spec.publishedEmptyRoots, l.length = 32 := by decide +kernel
  have hn : n < Spec.publishedEmptyRoots.length := by omega
  have hnode : ((leNat Spec.publishedEmptyRoots[n] : ℕ) : Fp) = Spec.node Prims.zcash (fun _ => 2) n 0 := by
    cases n with
    | zero =>
      have h2 : leNat (Spec.publishedEmptyRoots[0]'(by decide)) = 2 := by decide +kernel
      rw [h2, Spec.node, Nat.cast_ofNat]
    | succ n =>
      have hr : rootNats.tail.length = 32 := by decide +kernel
      have := rootsOk_sound rootNats.tail 0 2 (by rw [hr]; norm_num) rootsOk_published
        (by rw [Spec.node, Nat.cast_ofNat]) n (by rw [hr]; omega)
      rw [show 0 + 1 + n = n + 1 by omega] at this
      rw [← this, List.getElem_tail]
      unfold rootNats
      rw [List.getElem_map]
  rw [List.getElem?_eq_getElem hn, ← hnode]
  have hmem : Spec.publishedEmptyRoots[n] ∈ Spec.publishedEmptyRoots := List.getElem_mem hn
  have hlt := rootNats_lt _ (List.mem_map_of_mem hmem)
  have h32 := hl32 _ hmem
  generalize Spec.publishedEmptyRoots[n] = l at hlt h32
  unfold merkleHashToBytes Fp.toRepr
  rw [ZMod.val_natCast_of_lt hlt]
  have := leBytes_leNat l
  rw [h32] at this
  exact congrArg some this.symm

/-- **C80.** In particular for the anchor of the empty tree, whose bytes are those of the published root of height
32. -/
theorem C80_empty_tree_published :
    ∃ r, anchorEmptyTree Prims.zcash = .ret r ∧
      (anchorToBytes r).toList =
        [0xae, 0x29, 0x35, 0xf1, 0xdf, 0xd8, 0xa2, 0x4a, 0xed, 0x7c, 0x70, 0xdf, 0x7d, 0xe3, 0xa6, 0x68,
         0xeb, 0x7a, 0x49, 0xb1, 0x31, 0x98, 0x80, 0xdd, 0xe2, 0xbb, 0xd9, 0x03, 0x1a, 0xe5, 0xd8, 0x2f] := by
  obtain ⟨r, h1, h2⟩ := C80_empty_roots_published 32 (by decide)
  refine ⟨r, h1, (Option.some.inj (Eq.trans (Eq.symm ?_) h2)).symm⟩
  decide +kernel

/-- The published values at the two ends of the table, as a reminder that they are not all alike: the leaf is `2`. -/
example : Spec.publishedEmptyRoots[0]? = some (2 :: List.replicate 31 0) := by decide +kernel

end Orchard
