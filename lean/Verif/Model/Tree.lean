import Verif.Model.Note

/-!
# Model of `/repo/src/tree.rs`

`MerkleHashOrchard` and `Anchor` are newtypes around `pallas::Base` and appear as `Fp`.
-/

namespace Orchard

/-- `tree.rs:28` `UNCOMMITTED_ORCHARD`, `tree.rs:211-213` `empty_leaf`. -/
def emptyLeaf : Fp := 2

/-- `tree.rs:75-77` `Anchor::from_bytes`. -/
def anchorFromBytes (b : Bytes 32) : Option Fp := Fp.fromRepr b

/-- `tree.rs:80-82` `Anchor::to_bytes`. -/
def anchorToBytes (a : Fp) : Bytes 32 := Fp.toRepr a

/-- `tree.rs:199-201` `MerkleHashOrchard::from_bytes` (also used by `Deserialize`, 251-261). -/
def merkleHashFromBytes (b : Bytes 32) : Option Fp := Fp.fromRepr b

/-- `tree.rs:190-192` `MerkleHashOrchard::to_bytes` (also used by `Serialize`, 245-249). -/
def merkleHashToBytes (a : Fp) : Bytes 32 := Fp.toRepr a

/-- `tree.rs:225-239` `combine`.  `incrementalmerkletree::Level` wraps a `u8`; the assertion in
`i2lebsp_k` is kept as a possible panic. -/
noncomputable def merkleCombine (P : Prims) (level : UInt8) (left right : Fp) : Outcome Fp := do
  let l ← i2lebspK (UInt64.ofNat level.toNat)
  pure ((sinsemillaHash P Constants.qMerkleCrh
    (l ++ Fp.toLeBits 255 left ++ Fp.toLeBits 255 right)).getD 0)

/-- `tree.rs:29-40` `EMPTY_ROOTS`: the list built by `scan`, carrying the last state. -/
noncomputable def emptyRoots (P : Prims) : Outcome (List Fp) := do
  let r ← (List.range Constants.MERKLE_DEPTH).foldlM (init := ([emptyLeaf], emptyLeaf))
    fun (acc : List Fp × Fp) l => do
      let s ← merkleCombine P (UInt8.ofNat l) acc.2 acc.2
      pure (acc.1 ++ [s], s)
  pure r.1

/-- `tree.rs:241-243` `empty_root`: indexing panics out of range. -/
noncomputable def emptyRoot (P : Prims) (level : UInt8) : Outcome Fp := do
  let roots ← emptyRoots P
  Option.unwrapO roots[level.toNat]?

/-- `tree.rs:66-68` `Anchor::empty_tree`. -/
noncomputable def anchorEmptyTree (P : Prims) : Outcome Fp :=
  emptyRoot P (UInt8.ofNat Constants.MERKLE_DEPTH)

/-- `tree.rs:88-91` `MerklePath`. -/
structure MerklePath where
  position : UInt32
  authPath : List Fp
  len : authPath.length = Constants.MERKLE_DEPTH

/-- `tree.rs:146-159` `MerklePath::root`. -/
noncomputable def MerklePath.root (P : Prims) (path : MerklePath) (cmx : Fp) : Outcome Fp :=
  path.authPath.zipIdx.foldlM (init := cmx) fun node sl =>
    if path.position &&& ((1 : UInt32) <<< UInt32.ofNat sl.2) = 0 then
      merkleCombine P (UInt8.ofNat sl.2) node sl.1
    else merkleCombine P (UInt8.ofNat sl.2) sl.1 node

end Orchard
