import Verif.Model.Action

/-!
# Model of `/repo/src/note_encryption.rs`

The generic part of the note encryption scheme lives in the crate `zcash_note_encryption` (version
0.4); it is modelled here as well (`tryNoteDecryption`, `tryCompactNoteDecryption`,
`tryOutputRecoveryWithOvk`, `NoteEncryption`), specialised to `OrchardDomain`, because the crate's
functions only make sense together with it.  The AEAD is ChaCha20 (keystream from block 1) followed
by a Poly1305 tag over the ciphertext, both parameters.
-/

namespace Orchard

/-! ### ChaCha20Poly1305 -/

/-- Exclusive or with the keystream. Of the cipher used for the domain of `note_encryption.rs:97-235`. -/
def xorStream (P : Prims) (key : Bytes 32) {n : ℕ} (b : Bytes n) : Bytes n :=
  ⟨b.toList.mapIdx fun i x => x ^^^ P.chacha20 key i, by simp⟩

/-- `ChaCha20Poly1305::encrypt_in_place_detached` with zero nonce, tag appended.
Used for the domain of `note_encryption.rs:97-235`. -/
def aeadEncrypt (P : Prims) (key : Bytes 32) {n : ℕ} (pt : Bytes n) : Bytes (n + 16) :=
  let ct := xorStream P key pt
  ct.append (P.poly1305 key ct.toList)

/-- `ChaCha20Poly1305::decrypt_in_place_detached` with zero nonce.
Used for the domain of `note_encryption.rs:97-235`. -/
def aeadDecrypt (P : Prims) (key : Bytes 32) {n : ℕ} (c : Bytes (n + 16)) : Option (Bytes n) :=
  let ct := c.slice 0 n (by omega)
  if P.poly1305 key ct.toList = c.slice n 16 (by omega) then some (xorStream P key ct) else none

/-! ### `OrchardDomain` -/

/-- `note_encryption.rs:29-49` `prf_ock_orchard` (also `derive_ock`, 172-179). -/
def prfOck (P : Prims) (ovk : Bytes 32) (cv : ValueCommitment) (cmxBytes epkBytes : Bytes 32) :
    Bytes 32 :=
  P.blake2b256 (ascii "Zcash_Orchardock")
    (ovk.toList ++ cv.toBytes.toList ++ cmxBytes.toList ++ epkBytes.toList)

/-- The note plaintext version byte `0x02` (`note_encryption.rs:62,164`). -/
def leadByte : Bytes 1 := Bytes.replicate 1 0x02

/-- `note_encryption.rs:51-79` `orchard_parse_note_plaintext_without_memo`; the domain is `rho`
(`OrchardDomain`, 83-85). -/
noncomputable def parseNotePlaintext (P : Prims) (rho : Fp) {n : ℕ} (plaintext : Bytes n)
    (getPkd : Bytes 11 → Point) : Outcome (Option (Note × Address)) :=
  if h : 52 ≤ n then
    if plaintext.slice 0 1 (by omega) ≠ leadByte then pure none
    else
      let diversifier := plaintext.slice 1 11 (by omega)
      let value := NoteValue.fromBytes (plaintext.slice 12 8 (by omega))
      match RandomSeed.fromBytes P (plaintext.slice 20 32 (by omega)) rho with
      | none => pure none
      | some rseed =>
        let pkd := getPkd diversifier
        let recipient : Address := ⟨diversifier, pkd⟩
        match Note.fromParts P recipient value rho rseed with
        | none => pure none
        | some note => pure (some (note, recipient))
  else .panic

/-- `note_encryption.rs:203-211` `parse_note_plaintext_without_memo_ivk`. -/
noncomputable def parseIvk (P : Prims) (rho : Fp) (ivk : Fq) {n : ℕ} (plaintext : Bytes n) :
    Outcome (Option (Note × Address)) :=
  parseNotePlaintext P rho plaintext (derivePkd P ivk)

/-- `note_encryption.rs:213-219` `parse_note_plaintext_without_memo_ovk`. -/
noncomputable def parseOvk (P : Prims) (rho : Fp) (pkd : Point) (plaintext : Bytes 564) :
    Outcome (Option (Note × Address)) :=
  parseNotePlaintext P rho plaintext fun _ => pkd

/-- `note_encryption.rs:162-170` `note_plaintext_bytes`. -/
def notePlaintextBytes (note : Note) (memo : Bytes 512) : Bytes 564 :=
  (((leadByte.append note.recipient.d).append note.value.toBytes).append
    note.rseed).append memo

/-- `note_encryption.rs:221-225` `extract_memo`. -/
def extractMemo (plaintext : Bytes 564) : Bytes 512 := plaintext.slice 52 512 (by norm_num)

/-- `note_encryption.rs:181-189` `outgoing_plaintext_bytes`. -/
def outgoingPlaintextBytes (note : Note) (esk : Fq) : Bytes 64 :=
  (pkdToBytes note.recipient.pkd).append (Fq.toRepr esk)

/-- `note_encryption.rs:227-229` `extract_pk_d`. -/
noncomputable def extractPkd (op : Bytes 64) : Option Point :=
  pkdFromBytes (op.slice 0 32 (by norm_num))

/-- `note_encryption.rs:231-234` `extract_esk`. -/
def extractEsk (op : Bytes 64) : Option Fq := eskFromBytes (op.slice 32 32 (by norm_num))

/-- `note_encryption.rs:137-142` `ka_derive_public`. -/
def kaDerivePublic (P : Prims) (note : Note) (esk : Fq) : Point :=
  eskDerivePublic esk (note.recipient.gd P)

/-! ### Encryption (crate `zcash_note_encryption`, `NoteEncryption`) -/

/-- `NoteEncryption::new`, `encrypt_note_plaintext` and `encrypt_outgoing_plaintext`, as used in
`builder.rs:347-353`.  `rndOck`, `rndOp` are the random key and plaintext used without an ovk. -/
noncomputable def encryptNote (P : Prims) (ovk : Option (Bytes 32)) (note : Note)
    (memo : Bytes 512) (cv : ValueCommitment) (cmx : Fp) (rndOck : Bytes 32) (rndOp : Bytes 64) :
    Outcome TransmittedNoteCiphertext := do
  let esk ← note.esk P
  let epk := kaDerivePublic P note esk
  let secret := eskAgree esk note.recipient.pkd
  let key := kdfOrchard P secret epk.toBytes
  let enc : Bytes 580 := aeadEncrypt P key (notePlaintextBytes note memo)
  let out : Bytes 80 := match ovk with
    | some ovk => aeadEncrypt P (prfOck P ovk cv (cmxToBytes cmx) epk.toBytes)
        (outgoingPlaintextBytes note esk)
    | none => aeadEncrypt P rndOck rndOp
  pure ⟨epk.toBytes, enc, out⟩

/-! ### Decryption (crate `zcash_note_encryption`) -/

/-- `check_note_validity`; `derive_esk` is `note_encryption.rs:125-127`, `cmstar` is 199-201. -/
noncomputable def checkNoteValidity (P : Prims) (note : Note) (ephemeralKey cmstar : Bytes 32) :
    Outcome Bool := do
  let cmx ← note.cmx P
  if cmxToBytes cmx = cmstar then
    let esk ← note.esk P
    pure (decide ((kaDerivePublic P note esk).toBytes = ephemeralKey))
  else pure false

/-- `parse_note_plaintext_without_memo_ivk` of `zcash_note_encryption`.
Calls the functions of `note_encryption.rs:97-235`. -/
noncomputable def parseAndCheck (P : Prims) (rho : Fp) (ivk : Fq) (ephemeralKey cmstar : Bytes 32)
    {n : ℕ} (plaintext : Bytes n) : Outcome (Option (Note × Address)) := do
  match ← parseIvk P rho ivk plaintext with
  | none => pure none
  | some (note, recip) =>
    if ← checkNoteValidity P note ephemeralKey cmstar then pure (some (note, recip)) else pure none

/-- `try_note_decryption` for an `Action` (`note_encryption.rs:255-267`) in the domain of that
action (`OrchardDomain::for_action`, 99-101). -/
noncomputable def tryNoteDecryption {T : Type} (P : Prims) (ivk : Fq) (a : Action T) :
    Outcome (Option (Note × Address × Bytes 512)) :=
  let ephemeralKey := a.encryptedNote.epkBytes
  match epkFromBytes ephemeralKey with
  | none => pure none
  | some epk =>
    let key := kdfOrchard P (epkAgreePrepared epk ivk) ephemeralKey
    match aeadDecrypt P key (n := 564) a.encryptedNote.encCiphertext with
    | none => pure none
    | some plaintext => do
      match ← parseAndCheck P a.rho ivk ephemeralKey (cmxToBytes a.cmx) plaintext with
      | none => pure none
      | some (note, recip) => pure (some (note, recip, extractMemo plaintext))

/-- `note_encryption.rs:271-276` `CompactAction`; `from_parts` 313-325 and the accessors 328-340 are
the constructor and the projections. -/
structure CompactAction where
  nullifier : Fp
  cmx : Fp
  ephemeralKey : Bytes 32
  encCiphertext : Bytes 52
  deriving DecidableEq

/-- `note_encryption.rs:284-295` `From<&Action<T>> for CompactAction`. -/
def CompactAction.ofAction {T : Type} (a : Action T) : CompactAction :=
  ⟨a.nf, a.cmx, a.encryptedNote.epkBytes, a.encryptedNote.encCiphertext.slice 0 52 (by norm_num)⟩

/-- `note_encryption.rs:338-340` `CompactAction::rho`. -/
def CompactAction.rho (c : CompactAction) : Fp := c.nullifier

/-- `try_compact_note_decryption` for a `CompactAction` (`note_encryption.rs:297-309`) in the domain
of that action (`OrchardDomain::for_compact_action`, 104-106). -/
noncomputable def tryCompactNoteDecryption (P : Prims) (ivk : Fq) (c : CompactAction) :
    Outcome (Option (Note × Address)) :=
  match epkFromBytes c.ephemeralKey with
  | none => pure none
  | some epk =>
    let key := kdfOrchard P (epkAgreePrepared epk ivk) c.ephemeralKey
    parseAndCheck P c.rho ivk c.ephemeralKey (cmxToBytes c.cmx) (xorStream P key c.encCiphertext)

/-- `try_output_recovery_with_ovk` for an `Action`, with `cv` and `out_ciphertext` of that action
(`bundle.rs:368-383`). -/
noncomputable def tryOutputRecoveryWithOvk {T : Type} (P : Prims) (ovk : Bytes 32) (a : Action T) :
    Outcome (Option (Note × Address × Bytes 512)) :=
  let ephemeralKey := a.encryptedNote.epkBytes
  let ock := prfOck P ovk a.cvNet (cmxToBytes a.cmx) ephemeralKey
  match aeadDecrypt P ock (n := 64) a.encryptedNote.outCiphertext with
  | none => pure none
  | some op =>
    match extractPkd op, extractEsk op with
    | some pkd, some esk =>
      let key := kdfOrchard P (eskAgree esk pkd) ephemeralKey
      match aeadDecrypt P key (n := 564) a.encryptedNote.encCiphertext with
      | none => pure none
      | some plaintext => do
        match ← parseOvk P a.rho pkd plaintext with
        | none => pure none
        | some (note, recip) =>
          let derived ← note.esk P
          if derived ≠ esk then pure none
          else if ← checkNoteValidity P note ephemeralKey (cmxToBytes a.cmx) then
            pure (some (note, recip, extractMemo plaintext))
          else pure none
    | _, _ => pure none

end Orchard
