import Verif.Model.Bundle

/-!
# Model of batched trial decryption

The driver is the module `batch` of the crate `zcash_note_encryption` (version 0.4), used with the
`BatchDomain` implementation of `/repo/src/note_encryption.rs:237-250` (as in
`/repo/benches/note_decryption.rs:117-137`).  It is specialised to `OrchardDomain`; the domain of an
output is the one of that output (`OrchardDomain::for_action`, `for_compact_action`).
-/

namespace Orchard

/-- `try_note_decryption_inner` of `zcash_note_encryption`: decryption with a symmetric key that was
derived before. Called through `benches/note_decryption.rs`; the domain is `note_encryption.rs:97-250`. -/
noncomputable def tryNoteDecryptionInner {T : Type} (P : Prims) (ivk : Fq) (ephemeralKey : Bytes 32)
    (a : Action T) (key : Bytes 32) : Outcome (Option (Note × Address × Bytes 512)) :=
  match aeadDecrypt P key (n := 564) a.encryptedNote.encCiphertext with
  | none => pure none
  | some plaintext => do
    match ← parseAndCheck P a.rho ivk ephemeralKey (cmxToBytes a.cmx) plaintext with
    | none => pure none
    | some (note, recip) => pure (some (note, recip, extractMemo plaintext))

/-- `try_compact_note_decryption_inner` of `zcash_note_encryption`.
The domain is `note_encryption.rs:97-250`. -/
noncomputable def tryCompactNoteDecryptionInner (P : Prims) (ivk : Fq) (ephemeralKey : Bytes 32)
    (c : CompactAction) (key : Bytes 32) : Outcome (Option (Note × Address)) :=
  parseAndCheck P c.rho ivk ephemeralKey (cmxToBytes c.cmx) (xorStream P key c.encCiphertext)

/-- `slice.chunks(n)` for `n > 0`; `fuel` bounds the number of chunks.
Used by the batched key derivation (`note_encryption.rs:237-250`). -/
def chunksOf {α : Type} (n : ℕ) : ℕ → List α → List (List α)
  | 0, _ => []
  | _ + 1, [] => []
  | fuel + 1, l => l.take n :: chunksOf n fuel (l.drop n)

/-- `batch_note_decryption` of `zcash_note_encryption`; `ephemeralKey` is
`ShieldedOutput::ephemeral_key`, `decryptInner` one of the two functions above.  `Domain::batch_epk`
is its default implementation (one output at a time). The domain is `note_encryption.rs:97-250`. -/
noncomputable def batchNoteDecryption {Out X : Type} (P : Prims) (ephemeralKey : Out → Bytes 32)
    (decryptInner : Fq → Bytes 32 → Out → Bytes 32 → Outcome (Option X))
    (ivks : List Fq) (outputs : List Out) : Outcome (List (Option (X × ℕ))) :=
  if ivks.isEmpty then pure (outputs.map fun _ => none)
  else
    let ephemeralKeys := outputs.map fun o => (epkFromBytes (ephemeralKey o), ephemeralKey o)
    let items := ephemeralKeys.flatMap fun e =>
      ivks.map fun ivk => (e.1.map fun epk => epkAgreePrepared epk ivk, e.2)
    let keys := batchKdf P items
    ((chunksOf ivks.length keys.length keys).zip (ephemeralKeys.zip outputs)).mapM fun x =>
      Bundle.findMapO (fun (y : Option (Bytes 32) × (Fq × ℕ)) =>
        match y.1 with
        | none => pure none
        | some key => do
          let r ← decryptInner y.2.1 x.2.1.2 x.2.2 key
          pure (r.map fun out => (out, y.2.2))) (x.1.zip ivks.zipIdx)

/-- `batch::try_note_decryption` of `zcash_note_encryption`, for actions.
The domain is `note_encryption.rs:97-250`. -/
noncomputable def batchTryNoteDecryption {T : Type} (P : Prims) (ivks : List Fq)
    (actions : List (Action T)) : Outcome (List (Option ((Note × Address × Bytes 512) × ℕ))) :=
  batchNoteDecryption P (fun a => a.encryptedNote.epkBytes) (tryNoteDecryptionInner P) ivks actions

/-- `batch::try_compact_note_decryption` of `zcash_note_encryption`, for compact actions.
The domain is `note_encryption.rs:97-250`. -/
noncomputable def batchTryCompactNoteDecryption (P : Prims) (ivks : List Fq)
    (actions : List CompactAction) : Outcome (List (Option ((Note × Address) × ℕ))) :=
  batchNoteDecryption P CompactAction.ephemeralKey (tryCompactNoteDecryptionInner P) ivks actions

end Orchard
