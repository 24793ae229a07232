import Verif.Spec.Keys

/-!
# Specification of Orchard key derivation (protocol spec § 4.2.3 and ZIP 32)
-/

namespace Orchard.Spec

/-- `ask`, with the sign corrected so that `ak` has even `y`. -/
def ask (P : Prims) (sk : Bytes 32) : Fq :=
  if ySign (askScalar P sk • Constants.spendAuthG) = 1 then -askScalar P sk else askScalar P sk

/-- `ak = [ask] G^Orchard`. -/
def ak (P : Prims) (sk : Bytes 32) : Point := ask P sk • Constants.spendAuthG

/-- `nk = ToBase(PRF^expand_sk([7]))`. -/
def nk (P : Prims) (sk : Bytes 32) : Fp := toBase (prfExpand P 7 sk [])

/-- `rivk = ToScalar(PRF^expand_sk([8]))`. -/
def rivk (P : Prims) (sk : Bytes 32) : Fq := toScalar (prfExpand P 8 sk [])

/-- `sk` yields a non-zero `ask` and a valid full viewing key. -/
def ValidSk (P : Prims) (sk : Bytes 32) : Prop :=
  askScalar P sk ≠ 0 ∧ ValidFvk P (ak P sk) (nk P sk) (rivk P sk)

/-- Raw encoding `ak ‖ nk ‖ rivk` of the full viewing key of `sk`. -/
def fvkBytes (P : Prims) (sk : Bytes 32) : List UInt8 :=
  (ak P sk).toBytes.toList ++ (Fp.toRepr (nk P sk)).toList ++ (Fq.toRepr (rivk P sk)).toList

/-- Spending key and chain code. -/
structure Node where
  sk : Bytes 32
  c : Bytes 32

/-- The two halves of a 64-byte string. -/
def Node.ofHalves (I : Bytes 64) : Node := ⟨I.slice 0 32 (by norm_num), I.slice 32 32 (by norm_num)⟩

/-- Master key generation: the halves of `BLAKE2b-512("ZcashIP32Orchard", seed)`. -/
def masterNode (P : Prims) (seed : List UInt8) : Node :=
  .ofHalves (P.blake2b512 (ascii "ZcashIP32Orchard") seed)

/-- `CDKsk`: the halves of `PRF^expand(c, [0x81] ‖ sk ‖ I2LEOSP_32(i))`. -/
def childNode (P : Prims) (n : Node) (i : ℕ) : Node :=
  .ofHalves (P.blake2b512 (ascii "Zcash_ExpandSeed")
    (n.c.toList ++ [0x81] ++ n.sk.toList ++ leBytes 4 i))

/-- The node at the end of a path of (already hardened) indices. -/
def pathNode (P : Prims) (seed : List UInt8) (path : List ℕ) : Node :=
  path.foldl (childNode P) (masterNode P seed)

/-- First four bytes of `BLAKE2b-256("ZcashOrchardFVFP", ak ‖ nk ‖ rivk)`. -/
def fvkTag (P : Prims) (sk : Bytes 32) : List UInt8 :=
  (P.blake2b256 (ascii "ZcashOrchardFVFP") (fvkBytes P sk)).toList.take 4

end Orchard.Spec
