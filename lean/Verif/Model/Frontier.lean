import Mathlib.Data.Nat.Size
import Verif.Model.Testing

/-!
# Incremental trees over the node hash of `/repo/src/tree.rs`

`builder.rs:1069-1087` and the test `anchor_incremental` (`tree.rs:355-401`) keep the note commitment tree as a
`Frontier` of crate `incrementalmerkletree` (version 0.7): the last leaf and the roots of the complete subtrees to its
left (ommers).  The crate's source is not in `/repo`; its functions are written here from memory, over the
implementation of `Hashable` in `tree.rs:210-244`.  In `Model/Testing` the same trees appear with all their leaves
(`frontierRoot`, `frontierWitness`).

Positions are `u64` there and numbers here: a frontier of depth 32 refuses to grow before `position + 1` could overflow.
-/

namespace Orchard.Incremental

/-- `incrementalmerkletree::Address`: level and index of a node, for instance `addr` at `builder.rs:1077`. -/
structure Address where
  level : ℕ
  index : ℕ
deriving DecidableEq

/-- `incrementalmerkletree::Source`: whether the sibling of a node on the way up lies to its left (the ommer with that
number) or to its right.  Behind `frontier.append`, `builder.rs:1074`. -/
inductive Source where
  | past (i : ℕ)
  | future
deriving DecidableEq

/-- `WitnessAddrsIter::next`, `n` times: the siblings on the way up from a node.  Behind `builder.rs:1074-1087`. -/
def witnessAddrsFrom : (n level index ommers : ℕ) → List (Address × Source)
  | 0, _, _, _ => []
  | n + 1, level, index, ommers =>
    if index % 2 = 1 then
      (⟨level, index - 1⟩, .past ommers) :: witnessAddrsFrom n (level + 1) (index / 2) (ommers + 1)
    else (⟨level, index + 1⟩, .future) :: witnessAddrsFrom n (level + 1) (index / 2) ommers

/-- `Position::witness_addrs`.  Behind `builder.rs:1074-1087`. -/
def witnessAddrs (position rootLevel : ℕ) : List (Address × Source) := witnessAddrsFrom rootLevel 0 position 0

/-- `Position::root_level`: the number of bits of the position.  Behind `builder.rs:1074`. -/
def rootLevel (position : ℕ) : ℕ := Nat.size position

/-- `NonEmptyFrontier<MerkleHashOrchard>`, `builder.rs:1069`. -/
structure NonEmptyFrontier where
  position : ℕ
  leaf : Fp
  ommers : List Fp

/-- `NonEmptyFrontier::new`.  Behind `builder.rs:1074`. -/
def NonEmptyFrontier.new (leaf : Fp) : NonEmptyFrontier := ⟨0, leaf, []⟩

/-- The body of the loop in `NonEmptyFrontier::append`; its state are the carry (a node and its level) and the new
ommers.  Behind `builder.rs:1074`. -/
noncomputable def appendStep (P : Prims) (ommers : List Fp) (st : Option (Fp × ℕ) × List Fp) (x : Address × Source) :
    Outcome (Option (Fp × ℕ) × List Fp) :=
  match x.2 with
  | .future => pure st
  | .past i =>
    match st.1 with
    | some (c, lvl) =>
      if lvl = x.1.level then do
        let o ← Option.unwrapO ommers[i]?
        let c' ← merkleCombine P (UInt8.ofNat x.1.level) o c
        pure (some (c', x.1.level + 1), st.2)
      else do
        let o ← Option.unwrapO ommers[i]?
        pure (none, st.2 ++ [c, o])
    | none => do
      let o ← Option.unwrapO ommers[i]?
      pure (none, st.2 ++ [o])

/-- `NonEmptyFrontier::append`.  Behind `builder.rs:1074`, `tree.rs:398`. -/
noncomputable def NonEmptyFrontier.append (P : Prims) (f : NonEmptyFrontier) (leaf : Fp) : Outcome NonEmptyFrontier :=
  if (f.position + 1) % 2 = 1 then pure ⟨f.position + 1, leaf, f.leaf :: f.ommers⟩
  else do
    let st ← (witnessAddrs f.position (rootLevel (f.position + 1))).foldlM (appendStep P f.ommers)
      (some (f.leaf, 0), [])
    let ommers := match st.1 with
      | some (c, _) => st.2 ++ [c]
      | none => st.2
    pure ⟨f.position + 1, leaf, ommers⟩

/-- `NonEmptyFrontier::root`: combines with the empty roots of the levels between `complete_lvl` and the next sibling,
then with that sibling.  Behind `builder.rs:1087`, `tree.rs:400`. -/
noncomputable def NonEmptyFrontier.root (P : Prims) (f : NonEmptyFrontier) (level : ℕ) : Outcome Fp := do
  let r ← (witnessAddrs f.position level).foldlM (init := (f.leaf, 0)) fun (st : Fp × ℕ) x => do
    let d ← (List.range' st.2 (x.1.level - st.2)).foldlM (init := st.1) fun d l => do
      merkleCombine P (UInt8.ofNat l) d (← emptyRoot P (UInt8.ofNat l))
    match x.2 with
    | .past i => do
      let o ← Option.unwrapO f.ommers[i]?
      pure (← merkleCombine P (UInt8.ofNat x.1.level) o d, x.1.level + 1)
    | .future => do
      let e ← emptyRoot P (UInt8.ofNat x.1.level)
      pure (← merkleCombine P (UInt8.ofNat x.1.level) d e, x.1.level + 1)
  pure r.1

/-- `NonEmptyFrontier::witness`: ommers, and what the callback gives for siblings to the right; `none` for the error if
it has no such node (the error names the node).  Behind `builder.rs:1076-1080`. -/
noncomputable def NonEmptyFrontier.witness (f : NonEmptyFrontier) (depth : ℕ)
    (complement : Address → Outcome (Option Fp)) : Outcome (Option (List Fp)) :=
  (witnessAddrs f.position depth).foldlM (init := some []) fun (acc : Option (List Fp)) x =>
    match acc with
    | none => pure none
    | some l =>
      match x.2 with
      | .past i => do pure (some (l ++ [← Option.unwrapO f.ommers[i]?]))
      | .future => do
        match ← complement x.1 with
        | some c => pure (some (l ++ [c]))
        | none => pure none

/-- `Frontier<MerkleHashOrchard, 32>`, `builder.rs:1069`, `tree.rs:395`; `None` is `Frontier::empty()`. -/
abbrev Frontier : Type := Option NonEmptyFrontier

/-- `Frontier::append`, `builder.rs:1074`, `tree.rs:398`: whether there was room, and the new frontier. -/
noncomputable def Frontier.append (P : Prims) (f : Frontier) (leaf : Fp) : Outcome (Bool × Frontier) :=
  match f with
  | none => pure (true, some (NonEmptyFrontier.new leaf))
  | some g =>
    -- `position.is_complete_subtree(32)`: the low 32 bits are ones
    if g.position % 2 ^ Constants.MERKLE_DEPTH = 2 ^ Constants.MERKLE_DEPTH - 1 then pure (false, some g)
    else do pure (true, some (← g.append P leaf))

/-- The loops at `builder.rs:1073-1074` and `tree.rs:396-399`: appends leaves (the returned Boolean is ignored). -/
noncomputable def Frontier.appendAll (P : Prims) (f : Frontier) (leaves : List Fp) : Outcome Frontier :=
  leaves.foldlM (init := f) fun f leaf => do pure (← Frontier.append P f leaf).2

/-- `Frontier::root`, `builder.rs:1087`, `tree.rs:400`. -/
noncomputable def Frontier.root (P : Prims) (f : Frontier) : Outcome Fp :=
  match f with
  | none => emptyRoot P (UInt8.ofNat Constants.MERKLE_DEPTH)
  | some g => g.root P Constants.MERKLE_DEPTH

/-- `incrementalmerkletree::MerklePath<MerkleHashOrchard, 32>`, `tree.rs:105`: the constructor checks the length. -/
structure Path where
  position : ℕ
  pathElems : List Fp
  lt : position < 2 ^ 64
  len : pathElems.length = Constants.MERKLE_DEPTH

/-- `incrementalmerkletree::MerklePath::root`, the computation that `tree.rs:146-159` repeats. -/
noncomputable def Path.root (P : Prims) (path : Path) (leaf : Fp) : Outcome Fp :=
  path.pathElems.zipIdx.foldlM (init := leaf) fun node x =>
    if path.position / 2 ^ x.2 % 2 = 0 then merkleCombine P (UInt8.ofNat x.2) node x.1
    else merkleCombine P (UInt8.ofNat x.2) x.1 node

/-- `tree.rs:105-113` `From<incrementalmerkletree::MerklePath<MerkleHashOrchard, 32>>`: `position as u32` drops the high
bits. -/
def Path.toOrchard (path : Path) : MerklePath := ⟨UInt32.ofNat path.position, path.pathElems, path.len⟩

/-- `tree.rs:95-103` `From<(Position, Vec<MerkleHashOrchard>)>`: `try_into().unwrap()` panics unless there are 32
siblings. -/
def pathFromParts (position : UInt64) (elems : List Fp) : Outcome MerklePath :=
  if h : elems.length = Constants.MERKLE_DEPTH then .ret ⟨UInt32.ofNat position.toNat, elems, h⟩ else .panic

/-- `Frontier::witness`, `builder.rs:1076`: `none` inside is the empty frontier, `none` outside an error. -/
noncomputable def Frontier.witness (f : Frontier) (complement : Address → Outcome (Option Fp)) :
    Outcome (Option (Option (ℕ × List Fp))) :=
  match f with
  | none => pure (some none)
  | some g => do
    match ← g.witness Constants.MERKLE_DEPTH complement with
    | none => pure none
    | some l => pure (some (some (g.position, l)))

/-- `builder.rs:1076-1081`: the path of the leaf appended last, with empty roots to the right; `.ok().flatten().expect()`
panics if there is none, `MerklePath::from_parts(..).unwrap()` inside `witness` unless it has 32 nodes. -/
noncomputable def Frontier.lastPath (P : Prims) (f : Frontier) : Outcome MerklePath := do
  let r ← Frontier.witness f fun addr => do pure (some (← emptyRoot P (UInt8.ofNat addr.level)))
  let x ← Option.unwrapO (r.getD none)
  if h : x.1 < 2 ^ 64 ∧ x.2.length = Constants.MERKLE_DEPTH then pure (Path.toOrchard ⟨x.1, x.2, h.1, h.2⟩)
  else .panic

/-- The loop `builder.rs:1072-1082` of `arb_bundle_inputs`, with the frontier. -/
noncomputable def appendNotes (P : Prims) :
    Frontier → List (Note × MerklePath) → List Note → Outcome (Frontier × List (Note × MerklePath))
  | f, acc, [] => pure (f, acc)
  | f, acc, note :: notes => do
    let leaf ← note.cmx P
    let f := (← Frontier.append P f leaf).2
    let path ← f.lastPath P
    appendNotes P f (acc ++ [(note, path)]) notes

end Orchard.Incremental
