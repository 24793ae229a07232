import Verif.Model.Spec

/-!
# RedPallas signatures (protocol specification § 5.4.7)
-/

namespace Orchard.Spec

/-- The challenge `H*(R || vk || M)`: BLAKE2b-512 with personalisation `Zcash_RedPallasH`, as a little-endian integer
modulo the group order. -/
def challenge (P : Prims) (R vk : Point) (msg : List UInt8) : Fq :=
  (leNat (P.blake2b512 (ascii "Zcash_RedPallasH") (R.toBytes.toList ++ vk.toBytes.toList ++ msg)).toList : ℕ)

/-- `sig` is a valid signature of `msg` under `vk` for the base `B`: 32 bytes that encode a point `R`, 32 bytes that
encode a scalar `S` below the group order, and `[S] B = R + [c] vk`. -/
def ValidSignature (P : Prims) (B vk : Point) (msg : List UInt8) (sig : Bytes 64) : Prop :=
  ∃ (R : Point) (S : Fq), sig.toList = R.toBytes.toList ++ (Fq.toRepr S).toList ∧
    S • B = R + challenge P R vk msg • vk

end Orchard.Spec
