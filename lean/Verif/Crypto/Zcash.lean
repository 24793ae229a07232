import Verif.Crypto.Aes
import Verif.Crypto.ChaCha20Poly1305
import Verif.Crypto.HashToCurve
import Verif.Crypto.Poseidon
import Verif.Model.Prims

/-!
# The primitives of Zcash

The instance of `Prims` that the crate runs with: every primitive written out from its specification.  The
theorems of the development hold for all `Prims` and so for this one; with it the model computes the published
test vectors (`Verif/Vectors`).
-/

namespace Orchard

/-- The primitives of the crate's dependencies. -/
noncomputable def Prims.zcash : Prims where
  blake2b512 := Blake2b.hash 64
  blake2b256 := Blake2b.hash 32
  hashToCurve := HashToCurve.hashToCurve
  poseidon := Poseidon.hash
  sinsemillaS j := HashToCurve.hashToCurve (ascii "z.cash:SinsemillaS") (leBytes 4 j)
  ff1Round key i half := Aes.ff1Round (key.toList.map UInt8.toNat) i half
  chacha20 key i := ChaCha.keystream key.toNat i
  poly1305 key ct := Bytes.ofNat 16 (ChaCha.tag key.toNat (leNat ct) ct.length)

end Orchard
