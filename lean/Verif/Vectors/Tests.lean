import Verif.Model.Note
import Verif.Model.NoteEncryption
import Verif.Model.Tree

/-!
# The crate's tests against published vectors

Models of the test functions, with `assert_eq!` as an assertion that may panic: a test passes for a vector iff its model
returns.  The primitives are a parameter here; in `Verif/Vectors/*` they are those of Zcash.
-/

namespace Orchard.Vectors

open RedPallas

/-- `test_vectors/keys.rs:3-25` `TestVector`. -/
structure KeyVector where
  sk : Bytes 32
  ask : Bytes 32
  ak : Bytes 32
  nk : Bytes 32
  rivk : Bytes 32
  ivk : Bytes 32
  ovk : Bytes 32
  dk : Bytes 32
  defaultD : Bytes 11
  defaultPkD : Bytes 32
  internalRivk : Bytes 32
  internalIvk : Bytes 32
  internalOvk : Bytes 32
  internalDk : Bytes 32
  noteV : UInt64
  noteRho : Bytes 32
  noteRseed : Bytes 32
  noteCmx : Bytes 32
  noteNf : Bytes 32

/-- `keys.rs:1029-1078`: the body of the loop of `test_vectors`. -/
noncomputable def keysTest (P : Prims) (tv : KeyVector) : Outcome Unit := do
  let sk ← Option.unwrapO (← SpendingKey.fromBytes P tv.sk)
  let ask ← SpendAuthorizingKey.ofSk P sk
  assertO (decide (Fq.toRepr ask.s = tv.ask))
  assertO (decide (VerificationKey.toBytes ask.vk = tv.ak))
  assertO (decide (Fp.toRepr (nkOfSk P sk) = tv.nk))
  assertO (decide (Fq.toRepr (rivkOfSk P sk) = tv.rivk))
  let fvk ← FullViewingKey.ofSk P sk
  assertO (decide (VerificationKey.toBytes fvk.ak = tv.ak))
  assertO (decide (Fp.toRepr fvk.nk = tv.nk))
  assertO (decide (Fq.toRepr fvk.rivk = tv.rivk))
  let externalIvk ← fvk.toIvk P .external
  assertO (decide (Fq.toRepr externalIvk.ivk = tv.ivk))
  let addr ← fvk.address P tv.defaultD .external
  assertO (decide (pkdToBytes addr.pkd = tv.defaultPkD))
  let rho ← Option.unwrapO (rhoFromBytes tv.noteRho)
  let rseed ← Option.unwrapO (RandomSeed.fromBytes P tv.noteRseed rho)
  let note ← Option.unwrapO (Note.fromParts P addr (NoteValue.fromRaw tv.noteV) rho rseed)
  let cmx ← note.cmx P
  assertO (decide (cmxToBytes cmx = tv.noteCmx))
  let nf ← note.nullifier P fvk
  assertO (decide (nullifierToBytes nf = tv.noteNf))
  let internalRivk ← fvk.rivkFor P .internal
  assertO (decide (Fq.toRepr internalRivk = tv.internalRivk))
  let internalIvk ← fvk.toIvk P .internal
  assertO (decide (Fq.toRepr internalIvk.ivk = tv.internalIvk))
  assertO (decide (internalIvk.dk = tv.internalDk))
  let internalOvk ← fvk.toOvk P .internal
  assertO (decide (internalOvk = tv.internalOvk))
  -- Not in the Rust test, although the vectors contain the values:
  let ovk ← fvk.toOvk P .external
  assertO (decide (ovk = tv.ovk))
  assertO (decide (externalIvk.dk = tv.dk))

/-- `test_vectors/note_encryption.rs:3-23` `TestVector`. -/
structure NoteEncryptionVector where
  incomingViewingKey : Bytes 64
  ovk : Bytes 32
  defaultD : Bytes 11
  defaultPkD : Bytes 32
  v : UInt64
  rseed : Bytes 32
  memo : Bytes 512
  cvNet : Bytes 32
  nfOld : Bytes 32
  cmx : Bytes 32
  esk : Bytes 32
  ephemeralKey : Bytes 32
  sharedSecret : Bytes 32
  kEnc : Bytes 32
  pEnc : Bytes 564
  cEnc : Bytes 580
  ock : Bytes 32
  op : Bytes 64
  cOut : Bytes 80

/-- `note_encryption.rs:421-526`: the body of the loop of `test_vectors`.  `rk` is the random verification key of
`VerificationKey::dummy`.  Decrypted notes are compared in all components, not only by their commitments as `==` does.  The
Rust test passes `esk` to the encryption; here the note's own `esk` is compared with it first. -/
noncomputable def noteEncryptionTest (P : Prims) (rk : VerificationKey .spendAuth) (tv : NoteEncryptionVector) :
    Outcome Unit := do
  let ivk ← Option.unwrapO (← IncomingViewingKey.fromBytes tv.incomingViewingKey)
  let pkd ← Option.unwrapO (pkdFromBytes tv.defaultPkD)
  let cvNet ← Option.unwrapO (ValueCommitment.fromBytes tv.cvNet)
  let nfOld ← Option.unwrapO (nullifierFromBytes tv.nfOld)
  let cmx ← Option.unwrapO (cmxFromBytes tv.cmx)
  let esk ← Option.unwrapO (eskFromBytes tv.esk)
  let rseed ← Option.unwrapO (RandomSeed.fromBytes P tv.rseed nfOld)
  let sharedSecret := eskAgree esk pkd
  assertO (decide (sharedSecret.toBytes = tv.sharedSecret))
  assertO (decide (kdfOrchard P sharedSecret tv.ephemeralKey = tv.kEnc))
  assertO (decide (prfOck P tv.ovk cvNet (cmxToBytes cmx) tv.ephemeralKey = tv.ock))
  let recipient : Address := ⟨tv.defaultD, pkd⟩
  let note ← Option.unwrapO (Note.fromParts P recipient (NoteValue.fromRaw tv.v) nfOld rseed)
  let noteCmx ← note.cmx P
  assertO (decide (noteCmx = cmx))
  let action : Action Unit := ⟨nfOld, rk, cmx, ⟨tv.ephemeralKey, tv.cEnc, tv.cOut⟩, cvNet, ()⟩
  let full ← tryNoteDecryption P ivk.ivk action
  assertO (decide (full = some (note, recipient, tv.memo)))
  let compact ← tryCompactNoteDecryption P ivk.ivk (CompactAction.ofAction action)
  assertO (decide (compact = some (note, recipient)))
  let recovered ← tryOutputRecoveryWithOvk P tv.ovk action
  assertO (decide (recovered = some (note, recipient, tv.memo)))
  let noteEsk ← note.esk P
  assertO (decide (noteEsk = esk))
  let enc ← encryptNote P (some tv.ovk) note tv.memo cvNet cmx default default
  assertO (decide (enc.encCiphertext = tv.cEnc))
  assertO (decide (enc.outCiphertext = tv.cOut))
  -- Not in the Rust test, although the vectors contain the values:
  assertO (decide (enc.epkBytes = tv.ephemeralKey))
  assertO (decide (notePlaintextBytes note tv.memo = tv.pEnc))
  assertO (decide (outgoingPlaintextBytes note esk = tv.op))

end Orchard.Vectors
