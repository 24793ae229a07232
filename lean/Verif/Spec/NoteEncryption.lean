import Verif.Lemmas.Note
import Verif.Model.NoteEncryption

/-!
# Specification of note plaintexts and of what an accepted output means

(protocol specification § 4.19, 5.5; ZIP 212)
-/

namespace Orchard.Spec

/-- The 52-byte compact note plaintext: lead byte, diversifier, value, random seed. -/
def compactPlaintext (n : Note) : List UInt8 :=
  [2] ++ n.recipient.d.toList ++ leBytes 8 n.value.inner.toNat ++ n.rseed.toList

/-- The outgoing plaintext: transmission key and ephemeral secret. -/
def outPlaintext (pkd : Point) (esk : Fq) : List UInt8 :=
  pkd.toBytes.toList ++ leBytes 32 esk.val

/-- The note is the one announced by an output with the given nullifier, `cmx` and ephemeral key:
its `ρ` is the nullifier, its commitment is defined and extracts to `cmx`, its `esk` is non-zero and
`[esk] g_d` encodes to the ephemeral key. -/
structure NoteOfOutput (P : Prims) (nf cmx : Fp) (epk : Bytes 32) (n : Note) : Prop where
  rho : n.rho = nf
  commitment : ∃ cm, noteCommitOf P n.recipient.d n.recipient.pkd n.value.inner.toNat n.rho n.rseed =
    some cm ∧ extractP cm = cmx
  esk : Spec.esk P n.rseed n.rho ≠ 0
  epk : (Spec.esk P n.rseed n.rho • diversifyHash P n.recipient.d).toBytes = epk

/-- Symmetric key of the note ciphertext. -/
def encKey (P : Prims) (secret : Point) (epk : Bytes 32) : Bytes 32 :=
  P.blake2b256 (ascii "Zcash_OrchardKDF") (secret.toBytes.toList ++ epk.toList)

/-- Outgoing cipher key. -/
def outKey (P : Prims) (ovk : Bytes 32) (cv : Point) (cmx : Fp) (epk : Bytes 32) : Bytes 32 :=
  P.blake2b256 (ascii "Zcash_Orchardock")
    (ovk.toList ++ cv.toBytes.toList ++ (Fp.toRepr cmx).toList ++ epk.toList)

/-- ChaCha20 encryption or decryption of `l` under `key`. -/
def stream (P : Prims) (key : Bytes 32) (l : List UInt8) : List UInt8 :=
  l.mapIdx fun i x => x ^^^ P.chacha20 key i

/-- `c` is an authentic encryption of `pt`. -/
def Seals (P : Prims) (key : Bytes 32) (pt c : List UInt8) : Prop :=
  c = stream P key pt ++ (P.poly1305 key (stream P key pt)).toList

end Orchard.Spec
