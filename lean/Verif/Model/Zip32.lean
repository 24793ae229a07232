import Verif.Model.Keys

/-!
# Model of `/repo/src/zip32.rs` and `SpendingKey::from_zip32_seed`

`Result<_, Error>` is `Except`, inside `Outcome` for panics.  Arithmetic overflow of `depth + 1` is
modelled as a panic (Rust with overflow checks; without them the counter would wrap).
-/

namespace Orchard

namespace Zip32

/-- `zip32.rs:21-26` `Error`. -/
inductive Error
  | invalidSpendingKey
  | invalidChildIndex (i : UInt32)
  deriving DecidableEq

/-- Crate `zip32`: `ChildIndex`, a hardened index. Re-exported at `zip32.rs:14`. -/
structure ChildIndex where
  index : UInt32
  hardened : 2 ^ 31 ≤ index.toNat
  deriving DecidableEq

/-- Crate `zip32`: `ChildIndex::hardened`, asserting `value < 2^31`. Called at `keys.rs:104-106`. -/
def ChildIndex.mkHardened (v : UInt32) : Outcome ChildIndex :=
  if h : v.toNat < 2 ^ 31 then
    .ret ⟨UInt32.ofNat (v.toNat + 2 ^ 31), by
      rw [UInt32.toNat_ofNat_of_lt' (by norm_num [UInt32.size]; omega)]; omega⟩
  else .panic

/-- Crate `zip32`: `ChildIndex::from_index`. Called at `zip32.rs:105`. -/
def ChildIndex.fromIndex (i : UInt32) : Option ChildIndex :=
  if h : 2 ^ 31 ≤ i.toNat then some ⟨i, h⟩ else none

/-- Crate `zip32`: `AccountId`, a `u32` below `2^31`. Used at `keys.rs:96`. -/
structure AccountId where
  id : UInt32
  lt : id.toNat < 2 ^ 31

/-- `zip32.rs:37-50` `From<&FullViewingKey> for FvkFingerprint`. -/
def fingerprint (P : Prims) (fvk : FullViewingKey) : Bytes 32 :=
  P.blake2b256 (ascii "ZcashOrchardFVFP") fvk.toBytes.toList

/-- `zip32.rs:57-61` `FvkFingerprint::tag`. -/
def fingerprintTag (b : Bytes 32) : Bytes 4 := b.slice 0 4 (by norm_num)

/-- `zip32.rs:65-67` `FvkTag::master`. -/
def tagMaster : Bytes 4 := Bytes.replicate 4 0

/-- `zip32.rs:76` `KeyIndex(CtOption<ChildIndex>)`; equality (78-89) is that of `CtOption`. -/
abbrev KeyIndex := Option ChildIndex

/-- `zip32.rs:94-96` `KeyIndex::master`. -/
def KeyIndex.master : KeyIndex := none

/-- `zip32.rs:98-100` `KeyIndex::child`. -/
def KeyIndex.child (i : ChildIndex) : KeyIndex := some i

/-- `zip32.rs:102-108` `KeyIndex::new`. -/
def KeyIndex.new (depth : UInt8) (i : UInt32) : Option KeyIndex :=
  match decide (depth = 0), decide (i = 0) with
  | true, true => some KeyIndex.master
  | false, _ => (ChildIndex.fromIndex i).map KeyIndex.child
  | _, _ => none

/-- `zip32.rs:110-116` `KeyIndex::index`. -/
def KeyIndex.index : KeyIndex → UInt32
  | some i => i.index
  | none => 0

/-- `zip32.rs:125-131` `ExtendedSpendingKey`. -/
structure ExtendedSpendingKey where
  depth : UInt8
  parentFvkTag : Bytes 4
  childIndex : KeyIndex
  chainCode : Bytes 32
  sk : SpendingKey
  deriving DecidableEq

namespace ExtendedSpendingKey

/-- `zip32.rs:133-141` `ct_eq`. -/
def ctEq (a b : ExtendedSpendingKey) : Bool :=
  decide (a.depth = b.depth) && decide (a.parentFvkTag = b.parentFvkTag) &&
    decide (a.childIndex = b.childIndex) && decide (a.chainCode = b.chainCode) &&
    decide (a.sk = b.sk)

/-- `zip32.rs:168-197` `master`. -/
noncomputable def master (P : Prims) (seed : List UInt8) :
    Outcome (Except Error ExtendedSpendingKey) := do
  assertO (decide (seed.length ≥ 32) && decide (seed.length ≤ 252))
  let I := P.blake2b512 (ascii "ZcashIP32Orchard") seed
  match ← SpendingKey.fromBytes P (I.slice 0 32 (by norm_num)) with
  | none => pure (.error .invalidSpendingKey)
  | some skm =>
    pure (.ok ⟨0, Bytes.replicate 4 0, KeyIndex.master, I.slice 32 32 (by norm_num), skm⟩)

/-- `zip32.rs:206-233` `derive_child`. -/
noncomputable def deriveChild (P : Prims) (x : ExtendedSpendingKey) (index : ChildIndex) :
    Outcome (Except Error ExtendedSpendingKey) := do
  let I := prfExpand P 0x81 x.chainCode (x.sk.bytes.toList ++ leBytes 4 index.index.toNat)
  match ← SpendingKey.fromBytes P (I.slice 0 32 (by norm_num)) with
  | none => pure (.error .invalidSpendingKey)
  | some ski => do
    let ci := I.slice 32 32 (by norm_num)
    let fvk ← FullViewingKey.ofSk P x.sk
    assertO (decide (x.depth.toNat + 1 < 256))
    pure (.ok ⟨x.depth + 1, fingerprintTag (fingerprint P fvk), KeyIndex.child index, ci, ski⟩)

/-- The loop of `zip32.rs:153-155`. -/
noncomputable def deriveAlong (P : Prims) : ExtendedSpendingKey → List ChildIndex →
    Outcome (Except Error ExtendedSpendingKey)
  | x, [] => pure (.ok x)
  | x, i :: is => do
    match ← deriveChild P x i with
    | .error e => pure (.error e)
    | .ok y => deriveAlong P y is

/-- `zip32.rs:151-157` `from_path`. -/
noncomputable def fromPath (P : Prims) (seed : List UInt8) (path : List ChildIndex) :
    Outcome (Except Error ExtendedSpendingKey) := do
  match ← master P seed with
  | .error e => pure (.error e)
  | .ok x => deriveAlong P x path

end ExtendedSpendingKey

end Zip32

open Zip32 in
/-- `keys.rs:93-109` `SpendingKey::from_zip32_seed` (`ZIP32_PURPOSE = 32`, `keys.rs:33`). -/
noncomputable def SpendingKey.fromZip32Seed (P : Prims) (seed : List UInt8) (coinType : UInt32)
    (account : AccountId) : Outcome (Except Error SpendingKey) := do
  if coinType.toNat ≥ 2 ^ 31 then pure (.error (.invalidChildIndex coinType))
  else
    let p1 ← ChildIndex.mkHardened 32
    let p2 ← ChildIndex.mkHardened coinType
    let p3 ← ChildIndex.mkHardened account.id
    match ← ExtendedSpendingKey.fromPath P seed [p1, p2, p3] with
    | .error e => pure (.error e)
    | .ok x => pure (.ok x.sk)

end Orchard
