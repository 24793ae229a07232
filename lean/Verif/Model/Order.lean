import Verif.Model.Note

/-!
# Equality and order of keys and nullifiers

`PartialEq`, `Eq`, `PartialOrd`, `Ord` and `ConstantTimeEq` of the types of the crate that have them, and the encoding
of signing keys.  The order of field elements is that of crate `pasta_curves` (`fields/fp.rs`, `Ord for Fp`: from the
last byte of the canonical encoding to the first), the order of arrays is that of Rust's `Ord for [T; N]`, and derived
orders are lexicographic in the order of the fields.
-/

namespace Orchard

/-- Rust's `Ord for [u8; N]` (arrays of one length): the first difference decides.
For the derived orders, for instance `keys.rs:551`. -/
def cmpBytes : List UInt8 → List UInt8 → Ordering
  | a :: l, b :: m => if a < b then .lt else if b < a then .gt else cmpBytes l m
  | _, _ => .eq

/-- `Ord for pallas::Base` (`pasta_curves`): the canonical encodings, last byte first.
For the derived orders, for instance `note/nullifier.rs:15`. -/
def Fp.cmp (a b : Fp) : Ordering := cmpBytes (Fp.toRepr a).toList.reverse (Fp.toRepr b).toList.reverse

/-- `Ord for pallas::Scalar` (`pasta_curves`): the canonical encodings, last byte first.
For the derived orders, for instance `keys.rs:268`. -/
def Fq.cmp (a b : Fq) : Ordering := cmpBytes (Fq.toRepr a).toList.reverse (Fq.toRepr b).toList.reverse

namespace RedPallas

/-- `From<SigningKey<T>> for [u8; 32]`, `From<&SigningKey<T>> for [u8; 32]` (`redpallas.rs:28-38`). -/
def SigningKey.toBytes {T : SigType} (sk : SigningKey T) : Bytes 32 := Fq.toRepr sk.s

/-- `PartialEq for VerificationKey<T>` (`redpallas.rs:94-98`): the encodings are compared. -/
def VerificationKey.eq {T : SigType} (a b : VerificationKey T) : Bool := a.toBytes.toList == b.toBytes.toList

/-- `Ord for VerificationKey<T>` (`redpallas.rs:102-112`): the encodings are compared. -/
def VerificationKey.cmp {T : SigType} (a b : VerificationKey T) : Ordering :=
  cmpBytes a.toBytes.toList b.toBytes.toList

end RedPallas

/-- `ConstantTimeEq for SpendingKey` (`keys.rs:43-47`): the bytes are compared. -/
def SpendingKey.ctEq (a b : SpendingKey) : Bool := a.bytes.toList == b.bytes.toList

/-- `PartialEq for SpendValidatingKey` (`keys.rs:173-177`). -/
def SpendValidatingKey.eq (a b : SpendValidatingKey) : Bool :=
  (RedPallas.VerificationKey.toBytes a).toList == (RedPallas.VerificationKey.toBytes b).toList

/-- Derived `Ord for SpendValidatingKey` (`keys.rs:158-159`). -/
def SpendValidatingKey.cmp (a b : SpendValidatingKey) : Ordering := RedPallas.VerificationKey.cmp a b

/-- Derived `PartialEq for FullViewingKey` (`keys.rs:306-311`). -/
def FullViewingKey.eq (a b : FullViewingKey) : Bool :=
  SpendValidatingKey.eq a.ak b.ak && a.nk == b.nk && a.rivk == b.rivk

/-- Derived `Ord for FullViewingKey` (`keys.rs:306-311`): `ak`, then `nk`, then `rivk`. -/
def FullViewingKey.cmp (a b : FullViewingKey) : Ordering :=
  (SpendValidatingKey.cmp a.ak b.ak).then ((Fp.cmp a.nk b.nk).then (Fq.cmp a.rivk b.rivk))

/-- Derived `Ord for DiversifierKey` (`keys.rs:476-477`). -/
def diversifierKeyCmp (a b : Bytes 32) : Ordering := cmpBytes a.toList b.toList

/-- Derived `Ord for IncomingViewingKey` (`keys.rs:615-619`): `dk`, then `ivk` (`KeyAgreementPrivateKey`,
`NonZeroPallasScalar`: `keys.rs:551-552`, `spec.rs:93-94`). -/
def IncomingViewingKey.cmp (a b : IncomingViewingKey) : Ordering :=
  (diversifierKeyCmp a.dk b.dk).then (Fq.cmp a.ivk b.ivk)

/-- Derived `Ord for Nullifier` (`note/nullifier.rs:15-16`). -/
def nullifierCmp (a b : Fp) : Ordering := Fp.cmp a b

/-- Derived `Ord for Rho` (`note.rs:24-26`). -/
def rhoCmp (a b : Fp) : Ordering := Fp.cmp a b

end Orchard
