import Verif.Model.Spec

/-!
# RedPallas (`/repo/src/primitives/redpallas.rs`, a wrapper around crate `reddsa`)

The scheme is modelled concretely from protocol spec § 5.4.7 (which `reddsa` implements), with the
hash as parameter.  The cofactor of Pallas is 1.
-/

namespace Orchard

namespace RedPallas

/-- The two instantiations (`redpallas.rs:17-22`: `SpendAuth`, `Binding`). -/
inductive SigType | spendAuth | binding
  deriving DecidableEq, Repr

/-- Base point of each instantiation. Fixed by the types of `redpallas.rs:17-22`. -/
def basepoint : SigType → Point
  | .spendAuth => Constants.spendAuthG
  | .binding => Constants.valueCommitR

/-- `SigningKey<T>` (`redpallas.rs:26`): a scalar (zero allowed). -/
structure SigningKey (T : SigType) where
  s : Fq
  deriving DecidableEq

/-- `VerificationKey<T>` (`redpallas.rs:66`): a point (identity allowed) with its encoding. -/
structure VerificationKey (T : SigType) where
  point : Point
  deriving DecidableEq

/-- `Signature<T>` (`redpallas.rs:158`): 64 bytes, `R` then `S`. -/
abbrev Signature (_T : SigType) : Type := Bytes 64

/-- `TryFrom<[u8; 32]> for SigningKey<T>` (`redpallas.rs:40-46`). -/
def SigningKey.fromBytes {T : SigType} (b : Bytes 32) : Option (SigningKey T) :=
  (Fq.fromRepr b).map .mk

/-- `From<&SigningKey<T>> for VerificationKey<T>` (`redpallas.rs:88-92`). -/
def SigningKey.vk {T : SigType} (sk : SigningKey T) : VerificationKey T := ⟨sk.s • basepoint T⟩

/-- `From<&VerificationKey<T>> for [u8; 32]` (`redpallas.rs:74-78`). -/
def VerificationKey.toBytes {T : SigType} (vk : VerificationKey T) : Bytes 32 := vk.point.toBytes

/-- `TryFrom<[u8; 32]> for VerificationKey<T>` (`redpallas.rs:80-86`). -/
noncomputable def VerificationKey.fromBytes {T : SigType} (b : Bytes 32) :
    Option (VerificationKey T) := (Point.fromBytes b).map .mk

/-- `SigningKey<SpendAuth>::randomize` (`redpallas.rs:52-54`). -/
def SigningKey.randomize (sk : SigningKey .spendAuth) (α : Fq) : SigningKey .spendAuth := ⟨sk.s + α⟩

/-- `VerificationKey<SpendAuth>::randomize` (`redpallas.rs:124-126`). -/
noncomputable def VerificationKey.randomize (vk : VerificationKey .spendAuth) (α : Fq) :
    VerificationKey .spendAuth := ⟨vk.point + α • Constants.spendAuthG⟩

/-- `H*`: BLAKE2b-512 with personalisation `Zcash_RedPallasH`, reduced modulo the group order.
Part of signing and verification (`redpallas.rs:59-61`, `151-153`). -/
def hStar (P : Prims) (m : List UInt8) : Fq :=
  Fq.fromUniform (P.blake2b512 (ascii "Zcash_RedPallasH") m)

/-- `SigningKey<T>::sign` (`redpallas.rs:59-61`); `T` is the 80 random bytes. -/
def SigningKey.sign {T : SigType} (P : Prims) (sk : SigningKey T) (rnd : Bytes 80)
    (msg : List UInt8) : Signature T :=
  let vkBytes := sk.vk.toBytes.toList
  let r := hStar P (rnd.toList ++ vkBytes ++ msg)
  let rBytes := (r • basepoint T).toBytes
  let c := hStar P (rBytes.toList ++ vkBytes ++ msg)
  rBytes.append (Fq.toRepr (r + c * sk.s))

/-- `VerificationKey<T>::verify` (`redpallas.rs:151-153`). -/
noncomputable def VerificationKey.verify {T : SigType} (P : Prims) (vk : VerificationKey T)
    (msg : List UInt8) (sig : Signature T) : Bool :=
  let rBytes := sig.slice 0 32 (by norm_num)
  match Point.fromBytes rBytes, Fq.fromRepr (sig.slice 32 32 (by norm_num)) with
  | some R, some s =>
    let c := hStar P (rBytes.toList ++ vk.toBytes.toList ++ msg)
    decide (s • basepoint T = R + c • vk.point)
  | _, _ => false

end RedPallas

end Orchard
