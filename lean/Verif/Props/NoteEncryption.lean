import Verif.Lemmas.NoteEncryption
import Verif.Props.Note
import Verif.Examples.Note

/-!
# Properties C41 to C44: note encryption
-/

namespace Orchard

/-! ### C41: note plaintexts -/

/-- **C41** (layout). A note plaintext is `0x02 ‖ d ‖ v (8 bytes) ‖ rseed ‖ memo`; the compact
plaintext is its prefix of 52 bytes. -/
theorem C41_layout (n : Note) (memo : Bytes 512) :
    (notePlaintextBytes n memo).toList =
      [2] ++ n.recipient.d.toList ++ leBytes 8 n.value.inner.toNat ++ n.rseed.toList ++ memo.toList ∧
    (notePlaintextBytes n memo).toList.take 52 = Spec.compactPlaintext n := by
  refine ⟨toList_notePlaintextBytes n memo, ?_⟩
  rw [toList_notePlaintextBytes, List.take_append_of_le_length (by rw [length_compactPlaintext]),
    List.take_of_length_le (by rw [length_compactPlaintext])]

/-- **C41** (parsing). Parsing at least 52 bytes never panics.  It returns a note exactly if the
first 52 bytes are that note's compact plaintext, its `ρ` is the given one, its transmission key is
the given one for its diversifier, and its seed is acceptable for that `ρ`. -/
theorem C41_parse (P : Prims) (rho : Fp) {n : ℕ} (h : 52 ≤ n) (pt : Bytes n)
    (getPkd : Bytes 11 → Point) :
    parseNotePlaintext P rho pt getPkd ≠ .panic ∧
    ∀ note a, parseNotePlaintext P rho pt getPkd = .ret (some (note, a)) ↔
      (a = note.recipient ∧ note.rho = rho ∧ note.recipient.pkd = getPkd note.recipient.d ∧
      (Spec.esk P note.rseed note.rho ≠ 0 ∧ ∃ cm, Spec.noteCommitOf P note.recipient.d
        note.recipient.pkd note.value.inner.toNat note.rho note.rseed = some cm) ∧
      pt.toList.take 52 = [2] ++ note.recipient.d.toList ++ leBytes 8 note.value.inner.toNat ++
        note.rseed.toList) :=
  ⟨parse_ne_panic h pt getPkd, fun _ _ => parse_eq_some h⟩

/-- **C41** (lead byte). Plaintexts whose first byte is not `0x02` are rejected. -/
theorem C41_lead_byte (P : Prims) (rho : Fp) {n : ℕ} (h : 52 ≤ n) (pt : Bytes n)
    (getPkd : Bytes 11 → Point) (hb : pt.toList.head? ≠ some 2) :
    parseNotePlaintext P rho pt getPkd = .ret none := by
  cases hp : parseNotePlaintext P rho pt getPkd with
  | panic => exact absurd hp (parse_ne_panic h pt getPkd)
  | ret r =>
    cases r with
    | none => rfl
    | some x =>
      obtain ⟨-, -, -, -, h5⟩ := (parse_eq_some h).1 hp
      exfalso; apply hb
      cases hl : pt.toList with
      | nil => rw [hl] at h5; simp [Spec.compactPlaintext] at h5
      | cons b l =>
        rw [hl] at h5
        have := congrArg List.head? h5
        simpa [Spec.compactPlaintext] using this

/-- **C41** (round trip). Parsing the encoding of a note, in full or only its first 52 bytes, gives
the note back, and the memo is recovered. -/
theorem C41_round_trip (P : Prims) (note : Note) (memo : Bytes 512) (getPkd : Bytes 11 → Point)
    (hpk : note.recipient.pkd = getPkd note.recipient.d)
    (he : Spec.esk P note.rseed note.rho ≠ 0) (hc : ∃ cm, Spec.noteCommitOf P note.recipient.d
        note.recipient.pkd note.value.inner.toNat note.rho note.rseed = some cm) :
    parseNotePlaintext P note.rho (notePlaintextBytes note memo) getPkd =
      .ret (some (note, note.recipient)) ∧
    parseNotePlaintext P note.rho ((notePlaintextBytes note memo).slice 0 52 (by norm_num)) getPkd =
      .ret (some (note, note.recipient)) ∧
    extractMemo (notePlaintextBytes note memo) = memo := by
  have hl := (C41_layout note memo).2
  refine ⟨?_, ?_, ?_⟩
  · exact (parse_eq_some (by norm_num)).2 ⟨rfl, rfl, hpk, ⟨he, hc⟩, hl⟩
  · refine (parse_eq_some le_rfl).2 ⟨rfl, rfl, hpk, ⟨he, hc⟩, ?_⟩
    rw [Bytes.toList_slice, List.drop_zero, List.take_take]
    exact hl
  · rw [extractMemo_eq hl]; exact toList_notePlaintextBytes note memo

/-! ### C44: what decryption returns -/

theorem epkFromBytes_of {b : Bytes 32} {A : Point} (h : A.toBytes = b) (hA : A ≠ 0) :
    epkFromBytes b = some A := nonIdentityFromBytes_eq_some.2 ⟨h.symm, hA⟩

/-- **C44** (full decryption). Trial decryption never panics, whatever the action carries.  It
returns a note exactly if
* the note belongs to the output (`ρ` is the action's nullifier, its commitment extracts to the
  action's `cmx`, its `esk` derives the action's ephemeral key),
* its transmission key is that of the decrypting key for its diversifier,
* the ciphertext is an authentic encryption of the note plaintext and memo under the shared key. -/
theorem C44_decryption {T : Type} (P : Prims) (ivk : Fq) (act : Action T) :
    tryNoteDecryption P ivk act ≠ .panic ∧
    ∀ note a memo, tryNoteDecryption P ivk act = .ret (some (note, a, memo)) ↔
      (a = note.recipient ∧ note.recipient.pkd = ivk • diversifyHash P note.recipient.d ∧
      Spec.NoteOfOutput P act.nf act.cmx act.encryptedNote.epkBytes note ∧
      ∃ epk : Point, epk ≠ 0 ∧ epk = Spec.esk P note.rseed note.rho • diversifyHash P note.recipient.d ∧
        Spec.Seals P (Spec.encKey P (ivk • epk) act.encryptedNote.epkBytes)
          (Spec.compactPlaintext note ++ memo.toList) act.encryptedNote.encCiphertext.toList) := by
  unfold tryNoteDecryption
  simp only
  cases hepk : epkFromBytes act.encryptedNote.epkBytes with
  | none =>
    refine ⟨by simp, fun note a memo => ?_⟩
    simp only [Outcome.pure_eq, Outcome.ret.injEq, reduceCtorEq, false_iff]
    rintro ⟨-, -, h, epk, h0, h1, -⟩
    rw [epkFromBytes_of (h1 ▸ h.epk) h0] at hepk
    simp at hepk
  | some epk =>
    obtain ⟨hb, h0⟩ := nonIdentityFromBytes_eq_some.1 hepk
    simp only
    have hkey : kdfOrchard P (epkAgreePrepared epk ivk) act.encryptedNote.epkBytes =
        Spec.encKey P (ivk • epk) act.encryptedNote.epkBytes := rfl
    rw [hkey]
    cases hd : aeadDecrypt P (Spec.encKey P (ivk • epk) act.encryptedNote.epkBytes) (n := 564)
      act.encryptedNote.encCiphertext with
    | none =>
      refine ⟨by simp, fun note a memo => ?_⟩
      simp only [Outcome.pure_eq, Outcome.ret.injEq, reduceCtorEq, false_iff]
      rintro ⟨-, -, h, epk', h0', h1', hs⟩
      have he : epk' = epk := Point.toBytes_injective ((h1' ▸ h.epk).trans hb)
      subst he
      rw [← toList_notePlaintextBytes] at hs
      rw [aeadDecrypt_eq_some.2 hs] at hd
      simp at hd
    | some pt =>
      have hs := aeadDecrypt_eq_some.1 hd
      obtain ⟨hnp, hpc⟩ := parseAndCheck_spec (P := P) (rho := act.rho) (cmx := act.cmx) (ivk := ivk)
        (epk := act.encryptedNote.epkBytes) (n := 564) (by norm_num) pt
      simp only
      cases hr : parseAndCheck P act.rho ivk act.encryptedNote.epkBytes (cmxToBytes act.cmx) pt with
      | panic => exact absurd hr hnp
      | ret r =>
        have huniq : ∀ (note : Note) (memo : Bytes 512) (epk' : Point),
            Spec.NoteOfOutput P act.nf act.cmx act.encryptedNote.epkBytes note →
            epk' = Spec.esk P note.rseed note.rho • diversifyHash P note.recipient.d →
            Spec.Seals P (Spec.encKey P (ivk • epk') act.encryptedNote.epkBytes)
              (Spec.compactPlaintext note ++ memo.toList) act.encryptedNote.encCiphertext.toList →
            pt.toList = Spec.compactPlaintext note ++ memo.toList := by
          intro note memo epk' h h1' hs'
          have he : epk' = epk := Point.toBytes_injective ((h1' ▸ h.epk).trans hb)
          subst he
          rw [← toList_notePlaintextBytes] at hs'
          rw [aeadDecrypt_eq_some.2 hs', Option.some.injEq] at hd
          rw [← hd, toList_notePlaintextBytes]
        have htake : ∀ (note : Note) (memo : Bytes 512),
            pt.toList = Spec.compactPlaintext note ++ memo.toList →
            pt.toList.take 52 = Spec.compactPlaintext note := by
          intro note memo h
          rw [h, List.take_append_of_le_length (by rw [length_compactPlaintext]),
            List.take_of_length_le (by rw [length_compactPlaintext])]
        cases r with
        | none =>
          refine ⟨by simp, fun note a memo => ?_⟩
          simp only [Outcome.ret_bind, Outcome.pure_eq, Outcome.ret.injEq, reduceCtorEq, false_iff]
          rintro ⟨h1, h2, h, epk', -, h1', hs'⟩
          have := (hpc note a).2 ⟨h1, h2, htake note memo (huniq note memo epk' h h1' hs'), h⟩
          rw [hr] at this; simp at this
        | some x =>
          obtain ⟨n', a'⟩ := x
          refine ⟨by simp, fun note a memo => ?_⟩
          simp only [Outcome.ret_bind, Outcome.pure_eq, Outcome.ret.injEq, Option.some.injEq,
            Prod.mk.injEq]
          constructor
          · rintro ⟨rfl, rfl, hm⟩
            obtain ⟨e1, e2, e3, e4⟩ := (hpc n' a').1 hr
            have he : epk = Spec.esk P n'.rseed n'.rho • diversifyHash P n'.recipient.d :=
              Point.toBytes_injective (hb.symm.trans e4.epk.symm)
            refine ⟨e1, e2, e4, epk, h0, he, ?_⟩
            rw [← (extractMemo_eq e3).1 hm]
            exact hs
          · rintro ⟨h1, h2, h, epk', -, h1', hs'⟩
            have hpt := huniq note memo epk' h h1' hs'
            have := (hpc note a).2 ⟨h1, h2, htake note memo hpt, h⟩
            rw [hr] at this
            simp only [Outcome.ret.injEq, Option.some.injEq, Prod.mk.injEq] at this
            obtain ⟨rfl, rfl⟩ := this
            exact ⟨rfl, rfl, (extractMemo_eq (htake n' memo hpt)).2 hpt⟩

/-- **C44** (compact decryption). As for full decryption, except that the 52 transmitted bytes only
have to decrypt to the compact plaintext (there is no authentication tag). -/
theorem C44_compact_decryption (P : Prims) (ivk : Fq) (c : CompactAction) :
    tryCompactNoteDecryption P ivk c ≠ .panic ∧
    ∀ note a, tryCompactNoteDecryption P ivk c = .ret (some (note, a)) ↔
      (a = note.recipient ∧ note.recipient.pkd = ivk • diversifyHash P note.recipient.d ∧
      Spec.NoteOfOutput P c.nullifier c.cmx c.ephemeralKey note ∧
      ∃ epk : Point, epk ≠ 0 ∧ epk = Spec.esk P note.rseed note.rho • diversifyHash P note.recipient.d ∧
        c.encCiphertext.toList =
          Spec.stream P (Spec.encKey P (ivk • epk) c.ephemeralKey) (Spec.compactPlaintext note)) := by
  unfold tryCompactNoteDecryption
  cases hepk : epkFromBytes c.ephemeralKey with
  | none =>
    refine ⟨by simp, fun note a => ?_⟩
    simp only [Outcome.pure_eq, Outcome.ret.injEq, reduceCtorEq, false_iff]
    rintro ⟨-, -, h, epk, h0, h1, -⟩
    rw [epkFromBytes_of (h1 ▸ h.epk) h0] at hepk
    simp at hepk
  | some epk =>
    obtain ⟨hb, h0⟩ := nonIdentityFromBytes_eq_some.1 hepk
    simp only
    have hkey : kdfOrchard P (epkAgreePrepared epk ivk) c.ephemeralKey =
        Spec.encKey P (ivk • epk) c.ephemeralKey := rfl
    rw [hkey]
    obtain ⟨hnp, hpc⟩ := parseAndCheck_spec (P := P) (rho := c.rho) (cmx := c.cmx) (ivk := ivk)
        (epk := c.ephemeralKey) (n := 52) le_rfl
        (xorStream P (Spec.encKey P (ivk • epk) c.ephemeralKey) c.encCiphertext)
    refine ⟨hnp, fun note a => ?_⟩
    rw [hpc, toList_xorStream, List.take_of_length_le (by rw [length_stream]; simp)]
    constructor
    · rintro ⟨h1, h2, h3, h4⟩
      have he : epk = Spec.esk P note.rseed note.rho • diversifyHash P note.recipient.d :=
        Point.toBytes_injective (hb.symm.trans h4.epk.symm)
      refine ⟨h1, h2, h4, epk, h0, he, ?_⟩
      rw [← h3, stream_stream]
    · rintro ⟨h1, h2, h, epk', -, h1', hs'⟩
      have he : epk' = epk := Point.toBytes_injective ((h1' ▸ h.epk).trans hb)
      subst he
      exact ⟨h1, h2, by rw [hs', stream_stream], h⟩

/-- **C44** (compact form). A note found by full decryption is found by compact decryption of the
same action, and both agree on it. -/
theorem C44_compact_agrees {T : Type} (P : Prims) (ivk : Fq) (act : Action T) (note : Note)
    (a : Address) (memo : Bytes 512) (h : tryNoteDecryption P ivk act = .ret (some (note, a, memo))) :
    tryCompactNoteDecryption P ivk (CompactAction.ofAction act) = .ret (some (note, a)) := by
  obtain ⟨h1, h2, h3, epk, h4, h5, h6⟩ := ((C44_decryption P ivk act).2 note a memo).1 h
  refine ((C44_compact_decryption P ivk _).2 note a).2 ⟨h1, h2, h3, epk, h4, h5, ?_⟩
  unfold CompactAction.ofAction
  simp only
  rw [Bytes.toList_slice, List.drop_zero, h6, List.take_append_of_le_length, take_stream,
    List.take_append_of_le_length (by rw [length_compactPlaintext]),
    List.take_of_length_le (by rw [length_compactPlaintext])]
  rw [length_stream, List.length_append, length_compactPlaintext]
  omega

/-- **C44** (recovery). Recovery with an outgoing viewing key never panics.  It returns a note
exactly if the note belongs to the output, the outgoing ciphertext is an authentic encryption of the
note's transmission key and `esk` under the outgoing cipher key, and the note ciphertext is an
authentic encryption of note and memo under the sender's shared key. -/
theorem C44_recovery {T : Type} (P : Prims) (ovk : Bytes 32) (act : Action T) :
    tryOutputRecoveryWithOvk P ovk act ≠ .panic ∧
    ∀ note a memo, tryOutputRecoveryWithOvk P ovk act = .ret (some (note, a, memo)) ↔
      (a = note.recipient ∧ note.recipient.pkd ≠ 0 ∧
      Spec.NoteOfOutput P act.nf act.cmx act.encryptedNote.epkBytes note ∧
      Spec.Seals P (Spec.outKey P ovk act.cvNet.inner act.cmx act.encryptedNote.epkBytes)
        (Spec.outPlaintext note.recipient.pkd (Spec.esk P note.rseed note.rho))
        act.encryptedNote.outCiphertext.toList ∧
      Spec.Seals P (Spec.encKey P (Spec.esk P note.rseed note.rho • note.recipient.pkd)
          act.encryptedNote.epkBytes)
        (Spec.compactPlaintext note ++ memo.toList) act.encryptedNote.encCiphertext.toList) := by
  have hout : ∀ (pkd : Point) (esk : Fq),
      ((pkdToBytes pkd).append (Fq.toRepr esk)).toList = Spec.outPlaintext pkd esk := by
    intro pkd esk
    rw [Bytes.toList_append]; rfl
  unfold tryOutputRecoveryWithOvk
  simp only
  have hock : prfOck P ovk act.cvNet (cmxToBytes act.cmx) act.encryptedNote.epkBytes =
      Spec.outKey P ovk act.cvNet.inner act.cmx act.encryptedNote.epkBytes := rfl
  rw [hock]
  cases ho : aeadDecrypt P (Spec.outKey P ovk act.cvNet.inner act.cmx act.encryptedNote.epkBytes)
      (n := 64) act.encryptedNote.outCiphertext with
  | none =>
    refine ⟨by simp, fun note a memo => ?_⟩
    simp only [Outcome.pure_eq, Outcome.ret.injEq, reduceCtorEq, false_iff]
    rintro ⟨-, -, -, hs, -⟩
    rw [← hout] at hs
    rw [aeadDecrypt_eq_some.2 hs] at ho
    simp at ho
  | some op =>
    have hso := aeadDecrypt_eq_some.1 ho
    have hop : ∀ (pkd : Point) (esk : Fq),
        Spec.Seals P (Spec.outKey P ovk act.cvNet.inner act.cmx act.encryptedNote.epkBytes)
          (Spec.outPlaintext pkd esk) act.encryptedNote.outCiphertext.toList →
        op = (pkdToBytes pkd).append (Fq.toRepr esk) := by
      intro pkd esk hs
      rw [← hout] at hs
      rw [aeadDecrypt_eq_some.2 hs, Option.some.injEq] at ho
      exact ho.symm
    have hex : ∀ (pkd : Point) (esk : Fq), (extractPkd op = some pkd ∧ extractEsk op = some esk) ↔
        (op = (pkdToBytes pkd).append (Fq.toRepr esk) ∧ pkd ≠ 0 ∧ esk ≠ 0) := by
      intro pkd esk
      unfold extractPkd extractEsk pkdFromBytes eskFromBytes nonZeroScalarFromBytes nonZeroFromScalar
      rw [nonIdentityFromBytes_eq_some, Option.bind_eq_some_iff]
      constructor
      · rintro ⟨⟨h1, h2⟩, s, h3, h4⟩
        split_ifs at h4 with h5
        rw [Option.some.injEq] at h4
        subst h4
        have h6 := Fq.fromRepr_eq_some_iff.1 h3
        refine ⟨?_, h2, h5⟩
        have := Bytes.append_slice (m := 32) (n := 32) op (by norm_num) (by norm_num)
        rw [← this, h1, h6]; rfl
      · rintro ⟨rfl, h2, h3⟩
        refine ⟨⟨?_, h2⟩, esk, ?_, if_neg h3⟩
        · rw [Bytes.slice_append_left _ _ _ (by norm_num), Bytes.slice_all]; rfl
        · rw [Bytes.slice_append_right _ _ _ (by norm_num) (by norm_num), Bytes.slice_all,
            Fq.fromRepr_eq_some_iff]
    by_cases hpe : ∃ pkd esk, extractPkd op = some pkd ∧ extractEsk op = some esk
    · obtain ⟨pkd, esk, hpk, hes⟩ := hpe
      obtain ⟨hopeq, hpk0, hes0⟩ := (hex pkd esk).1 ⟨hpk, hes⟩
      simp only [hpk, hes]
      have hkey : kdfOrchard P (eskAgree esk pkd) act.encryptedNote.epkBytes =
          Spec.encKey P (esk • pkd) act.encryptedNote.epkBytes := rfl
      rw [hkey]
      -- the outgoing plaintext determines the keys
      have hdet : ∀ note : Note, Spec.Seals P (Spec.outKey P ovk act.cvNet.inner act.cmx
          act.encryptedNote.epkBytes)
          (Spec.outPlaintext note.recipient.pkd (Spec.esk P note.rseed note.rho))
          act.encryptedNote.outCiphertext.toList →
          note.recipient.pkd = pkd ∧ Spec.esk P note.rseed note.rho = esk := by
        intro note hs
        have e := (hop _ _ hs).symm.trans hopeq
        obtain ⟨e1, e2⟩ := Bytes.append_inj.1 e
        exact ⟨Point.toBytes_injective e1, Fq.toRepr_injective e2⟩
      cases hd : aeadDecrypt P (Spec.encKey P (esk • pkd) act.encryptedNote.epkBytes) (n := 564)
        act.encryptedNote.encCiphertext with
      | none =>
        refine ⟨by simp, fun note a memo => ?_⟩
        simp only [Outcome.pure_eq, Outcome.ret.injEq, reduceCtorEq, false_iff]
        rintro ⟨-, -, -, hs1, hs2⟩
        obtain ⟨e1, e2⟩ := hdet note hs1
        rw [e1, e2, ← toList_notePlaintextBytes] at hs2
        rw [aeadDecrypt_eq_some.2 hs2] at hd
        simp at hd
      | some pt =>
        have hsp := aeadDecrypt_eq_some.1 hd
        have hpt : ∀ (note : Note) (memo : Bytes 512),
            Spec.Seals P (Spec.encKey P (esk • pkd) act.encryptedNote.epkBytes)
              (Spec.compactPlaintext note ++ memo.toList) act.encryptedNote.encCiphertext.toList →
            pt.toList = Spec.compactPlaintext note ++ memo.toList ∧
              pt.toList.take 52 = Spec.compactPlaintext note := by
          intro note memo hs
          rw [← toList_notePlaintextBytes] at hs
          rw [aeadDecrypt_eq_some.2 hs, Option.some.injEq] at hd
          subst hd
          exact ⟨toList_notePlaintextBytes note memo, (C41_layout note memo).2⟩
        simp only
        unfold parseOvk
        cases hp : parseNotePlaintext P act.rho pt (fun _ => pkd) with
        | panic => exact absurd hp (parse_ne_panic (by norm_num) pt _)
        | ret r =>
          cases r with
          | none =>
            refine ⟨by simp, fun note a memo => ?_⟩
            simp only [Outcome.ret_bind, Outcome.pure_eq, Outcome.ret.injEq, reduceCtorEq, false_iff]
            rintro ⟨h1, -, h, hs1, hs2⟩
            obtain ⟨e1, e2⟩ := hdet note hs1
            rw [e1, e2] at hs2
            obtain ⟨cm, hcm, -⟩ := h.commitment
            have := (parse_eq_some (by norm_num) (P := P) (rho := act.rho) (pt := pt)
              (getPkd := fun _ => pkd) (note := note) (a := a)).2
              ⟨h1, h.rho, e1, ⟨h.esk, cm, hcm⟩, (hpt note memo hs2).2⟩
            rw [hp] at this; simp at this
          | some x =>
            obtain ⟨n', a'⟩ := x
            obtain ⟨p1, p2, p3, p4, p5⟩ := (parse_eq_some (by norm_num)).1 hp
            obtain ⟨b, hb, hiff⟩ := checkNoteValidity_eq (epk := act.encryptedNote.epkBytes)
              (cmx := act.cmx) p4
            rw [p2] at hiff
            simp only [Outcome.ret_bind, esk_eq_ret p4.1]
            -- any note satisfying the right-hand side is the parsed one
            have huniq : ∀ (note : Note) (a : Address) (memo : Bytes 512),
                a = note.recipient → Spec.NoteOfOutput P act.nf act.cmx act.encryptedNote.epkBytes note →
                Spec.Seals P (Spec.outKey P ovk act.cvNet.inner act.cmx act.encryptedNote.epkBytes)
                  (Spec.outPlaintext note.recipient.pkd (Spec.esk P note.rseed note.rho))
                  act.encryptedNote.outCiphertext.toList →
                Spec.Seals P (Spec.encKey P (Spec.esk P note.rseed note.rho • note.recipient.pkd)
                    act.encryptedNote.epkBytes)
                  (Spec.compactPlaintext note ++ memo.toList)
                  act.encryptedNote.encCiphertext.toList →
                (n' = note ∧ a' = a) ∧ Spec.esk P note.rseed note.rho = esk ∧
                  pt.toList = Spec.compactPlaintext note ++ memo.toList := by
              intro note a memo h1 h hs1 hs2
              obtain ⟨e1, e2⟩ := hdet note hs1
              rw [e1, e2] at hs2
              obtain ⟨cm, hcm, -⟩ := h.commitment
              have := (parse_eq_some (by norm_num) (P := P) (rho := act.rho) (pt := pt)
                (getPkd := fun _ => pkd) (note := note) (a := a)).2
                ⟨h1, h.rho, e1, ⟨h.esk, cm, hcm⟩, (hpt note memo hs2).2⟩
              rw [hp] at this
              simp only [Outcome.ret.injEq, Option.some.injEq, Prod.mk.injEq] at this
              exact ⟨this, e2, (hpt note memo hs2).1⟩
            by_cases hesk : Spec.esk P n'.rseed n'.rho = esk
            · simp only [hesk, ne_eq, not_true_eq_false, if_false, hb, Outcome.ret_bind]
              cases b with
              | true =>
                refine ⟨by simp, fun note a memo => ?_⟩
                simp only [if_true, Outcome.pure_eq, Outcome.ret.injEq, Option.some.injEq,
                  Prod.mk.injEq]
                constructor
                · rintro ⟨rfl, rfl, hm⟩
                  refine ⟨p1, by rw [p3]; exact hpk0, hiff.1 rfl, ?_, ?_⟩
                  · rw [p3, hesk, ← hout, ← hopeq]; exact hso
                  · rw [p3, hesk, ← (extractMemo_eq p5).1 hm]; exact hsp
                · rintro ⟨h1, -, h, hs1, hs2⟩
                  obtain ⟨⟨rfl, rfl⟩, -, h3⟩ := huniq note a memo h1 h hs1 hs2
                  exact ⟨rfl, rfl, (extractMemo_eq p5).2 h3⟩
              | false =>
                refine ⟨by simp, fun note a memo => ?_⟩
                simp only [Bool.false_eq_true, if_false, Outcome.pure_eq, Outcome.ret.injEq,
                  reduceCtorEq, false_iff]
                rintro ⟨h1, -, h, hs1, hs2⟩
                obtain ⟨⟨rfl, rfl⟩, -, -⟩ := huniq note a memo h1 h hs1 hs2
                exact absurd (hiff.2 h) (by simp)
            · simp only [hesk, ne_eq, not_false_eq_true, if_true, Outcome.pure_eq]
              refine ⟨by simp, fun note a memo => ?_⟩
              simp only [Outcome.ret.injEq, reduceCtorEq, false_iff]
              rintro ⟨h1, -, h, hs1, hs2⟩
              obtain ⟨⟨rfl, rfl⟩, h2, -⟩ := huniq note a memo h1 h hs1 hs2
              exact hesk h2
    · have hno : ∀ note a memo, ¬ (a = note.recipient ∧ note.recipient.pkd ≠ 0 ∧
          Spec.NoteOfOutput P act.nf act.cmx act.encryptedNote.epkBytes note ∧
          Spec.Seals P (Spec.outKey P ovk act.cvNet.inner act.cmx act.encryptedNote.epkBytes)
            (Spec.outPlaintext note.recipient.pkd (Spec.esk P note.rseed note.rho))
            act.encryptedNote.outCiphertext.toList ∧
          Spec.Seals P (Spec.encKey P (Spec.esk P note.rseed note.rho • note.recipient.pkd)
              act.encryptedNote.epkBytes)
            (Spec.compactPlaintext note ++ (memo : Bytes 512).toList)
            act.encryptedNote.encCiphertext.toList) := by
        rintro note a memo ⟨-, h2, h, hs1, -⟩
        exact hpe ⟨_, _, (hex _ _).2 ⟨hop _ _ hs1, h2, h.esk⟩⟩
      cases h1 : extractPkd op with
      | none =>
        simp only [h1]
        refine ⟨by simp, fun note a memo => ?_⟩
        simp only [Outcome.pure_eq, Outcome.ret.injEq, reduceCtorEq, false_iff]
        exact hno note a memo
      | some pkd =>
        cases h2 : extractEsk op with
        | none =>
          simp only [h1, h2]
          refine ⟨by simp, fun note a memo => ?_⟩
          simp only [Outcome.pure_eq, Outcome.ret.injEq, reduceCtorEq, false_iff]
          exact hno note a memo
        | some esk => exact absurd ⟨pkd, esk, h1, h2⟩ hpe

/-- **C38** (decryption). Every note returned by decryption or recovery has a defined commitment. -/
theorem C38_decrypted {T : Type} (P : Prims) (act : Action T) (c : CompactAction) (ivk : Fq)
    (ovk : Bytes 32) (note : Note) (a : Address)
    (h : (∃ memo, tryNoteDecryption P ivk act = .ret (some (note, a, memo))) ∨
      tryCompactNoteDecryption P ivk c = .ret (some (note, a)) ∨
      ∃ memo, tryOutputRecoveryWithOvk P ovk act = .ret (some (note, a, memo))) :
    note.Obtainable P ∧ ∃ cm, note.commitment P = .ret cm := by
  have key : ∀ nf cmx epk, Spec.NoteOfOutput P nf cmx epk note →
      note.Obtainable P ∧ ∃ cm, note.commitment P = .ret cm := by
    intro nf cmx epk h
    obtain ⟨cm, hcm, -⟩ := h.commitment
    refine ⟨.fromParts (a := note.recipient) (v := note.value) (rho := note.rho) (s := note.rseed)
      ((fromParts_eq ..).2 ⟨rfl, cm, hcm⟩), cm, commitment_eq_ret.2 hcm⟩
  rcases h with ⟨memo, h⟩ | h | ⟨memo, h⟩
  · exact key _ _ _ (((C44_decryption P ivk act).2 note a memo).1 h).2.2.1
  · exact key _ _ _ (((C44_compact_decryption P ivk c).2 note a).1 h).2.2.1
  · exact key _ _ _ (((C44_recovery P ovk act).2 note a memo).1 h).2.2.1

/-! ### C42 and C43: encrypted notes can be decrypted -/

/-- What encryption produces, for a note with non-zero `esk`. -/
theorem encryptNote_eq {P : Prims} {ovk : Option (Bytes 32)} {note : Note} {memo : Bytes 512}
    {cv : ValueCommitment} {cmx : Fp} {rndOck : Bytes 32} {rndOp : Bytes 64}
    (he : Spec.esk P note.rseed note.rho ≠ 0) :
    ∃ enc, encryptNote P ovk note memo cv cmx rndOck rndOp = .ret enc ∧
      enc.epkBytes = (Spec.esk P note.rseed note.rho • diversifyHash P note.recipient.d).toBytes ∧
      Spec.Seals P (Spec.encKey P (Spec.esk P note.rseed note.rho • note.recipient.pkd) enc.epkBytes)
        (Spec.compactPlaintext note ++ memo.toList) enc.encCiphertext.toList ∧
      ∀ k, ovk = some k → Spec.Seals P (Spec.outKey P k cv.inner cmx enc.epkBytes)
        (Spec.outPlaintext note.recipient.pkd (Spec.esk P note.rseed note.rho))
        enc.outCiphertext.toList := by
  unfold encryptNote
  rw [esk_eq_ret he, Outcome.ret_bind]
  refine ⟨_, rfl, rfl, ?_, ?_⟩
  · rw [← toList_notePlaintextBytes]
    exact seals_aeadEncrypt P _ (notePlaintextBytes note memo)
  · rintro k rfl
    have : Spec.outPlaintext note.recipient.pkd (Spec.esk P note.rseed note.rho) =
        (outgoingPlaintextBytes note (Spec.esk P note.rseed note.rho)).toList := by
      unfold outgoingPlaintextBytes
      rw [Bytes.toList_append]; rfl
    rw [this]
    exact seals_aeadEncrypt P _ _

/-- **C42.** For a note addressed to `ivk` and put into an action with the right nullifier and `cmx`
(as the builder does), encryption succeeds, and whoever holds `ivk` gets back exactly the note, its
address and the memo from the action, and the note and its address from the compact action. -/
theorem C42_recipient_decrypts {T : Type} (P : Prims)
    (hP : P.hashToCurve keyDiversificationPersonalization [] ≠ 0) (ivk : Fq)
    (note : Note) (memo : Bytes 512) (ovk : Option (Bytes 32)) (rndOck : Bytes 32) (rndOp : Bytes 64)
    (haddr : note.recipient.pkd = ivk • diversifyHash P note.recipient.d)
    (he : Spec.esk P note.rseed note.rho ≠ 0) (cm : Point)
    (hcm : Spec.noteCommitOf P note.recipient.d note.recipient.pkd note.value.inner.toNat note.rho
      note.rseed = some cm) (cv : ValueCommitment) :
    ∃ enc, encryptNote P ovk note memo cv (extractP cm) rndOck rndOp = .ret enc ∧
    ∀ act : Action T, act.nf = note.rho → act.cmx = extractP cm → act.encryptedNote = enc →
      tryNoteDecryption P ivk act = .ret (some (note, note.recipient, memo)) ∧
      tryCompactNoteDecryption P ivk (CompactAction.ofAction act) =
        .ret (some (note, note.recipient)) := by
  obtain ⟨enc, h1, h2, h3, -⟩ := encryptNote_eq (P := P) (ovk := ovk) (note := note) (memo := memo)
    (cv := cv) (cmx := extractP cm) (rndOck := rndOck) (rndOp := rndOp) he
  refine ⟨enc, h1, ?_⟩
  rintro act a1 a2 rfl
  have hd : tryNoteDecryption P ivk act = .ret (some (note, note.recipient, memo)) := by
    refine ((C44_decryption P ivk act).2 _ _ _).2 ⟨rfl, haddr,
      ⟨a1.symm, ⟨cm, hcm, a2.symm⟩, he, h2.symm⟩,
      Spec.esk P note.rseed note.rho • diversifyHash P note.recipient.d, ?_, rfl, ?_⟩
    · rw [Ne, smul_eq_zero_iff', not_or]
      exact ⟨he, diversifyHash_ne_zero hP _⟩
    · have : Spec.esk P note.rseed note.rho • note.recipient.pkd =
          ivk • (Spec.esk P note.rseed note.rho • diversifyHash P note.recipient.d) := by
        rw [haddr, ← mul_smul, ← mul_smul, mul_comm]
      rw [← this]; exact h3
  exact ⟨hd, C44_compact_agrees P ivk act _ _ _ hd⟩

/-- **C43.** With the outgoing viewing key used for encryption, recovery returns exactly the note,
its recipient and the memo. -/
theorem C43_sender_recovers {T : Type} (P : Prims)
    (note : Note) (memo : Bytes 512) (ovk : Bytes 32) (rndOck : Bytes 32) (rndOp : Bytes 64)
    (hpk : note.recipient.pkd ≠ 0)
    (he : Spec.esk P note.rseed note.rho ≠ 0) (cm : Point)
    (hcm : Spec.noteCommitOf P note.recipient.d note.recipient.pkd note.value.inner.toNat note.rho
      note.rseed = some cm) (cv : ValueCommitment) :
    ∃ enc, encryptNote P (some ovk) note memo cv (extractP cm) rndOck rndOp = .ret enc ∧
    ∀ act : Action T, act.nf = note.rho → act.cmx = extractP cm → act.cvNet = cv →
      act.encryptedNote = enc →
      tryOutputRecoveryWithOvk P ovk act = .ret (some (note, note.recipient, memo)) := by
  obtain ⟨enc, h1, h2, h3, h4⟩ := encryptNote_eq (P := P) (ovk := some ovk) (note := note)
    (memo := memo) (cv := cv) (cmx := extractP cm) (rndOck := rndOck) (rndOp := rndOp) he
  refine ⟨enc, h1, ?_⟩
  rintro act a1 a2 rfl rfl
  refine ((C44_recovery P ovk act).2 _ _ _).2 ⟨rfl, hpk, ⟨a1.symm, ⟨cm, hcm, a2.symm⟩, he, h2.symm⟩,
    ?_, h3⟩
  rw [a2]
  exact h4 ovk rfl

/-- Under `P0` the hypotheses of C42 and C43 hold for a note of value 5 sent to key 3. -/
example : ∃ (note : Note) (cm : Point), note.value.inner = 5 ∧
    Examples.P0.hashToCurve keyDiversificationPersonalization [] ≠ 0 ∧
    note.recipient.pkd = (3 : Fq) • diversifyHash Examples.P0 note.recipient.d ∧
    note.recipient.pkd ≠ 0 ∧ Spec.esk Examples.P0 note.rseed note.rho ≠ 0 ∧
    Spec.noteCommitOf Examples.P0 note.recipient.d note.recipient.pkd note.value.inner.toNat note.rho
      note.rseed = some cm := by
  obtain ⟨cm, -, h⟩ := Examples.noteCommit_P0
  refine ⟨⟨⟨default, (3 : Fq) • diversifyHash Examples.P0 default⟩, ⟨5⟩, 7, default⟩, cm, rfl,
    genG_ne_zero, rfl, ?_, ?_, h _ _ _ _ _⟩
  · rw [Ne, smul_eq_zero_iff', not_or]
    exact ⟨by decide +kernel, diversifyHash_ne_zero genG_ne_zero _⟩
  · rw [Examples.esk_P0]; exact one_ne_zero

/-! ### C72: outputs without an outgoing viewing key -/

/-- **C72.** What an output without an outgoing viewing key publishes about the sender: its outgoing
ciphertext is the random plaintext sealed under the random key, whatever the note, the memo and the
commitments are.  The ephemeral key and the note ciphertext do not depend on the outgoing viewing
key. -/
theorem C72_without_ovk (P : Prims) (ovk : Option (Bytes 32)) (note : Note) (memo : Bytes 512)
    (cv cv' : ValueCommitment) (cmx cmx' : Fp) (rndOck rndOck' : Bytes 32) (rndOp rndOp' : Bytes 64)
    (enc enc' : TransmittedNoteCiphertext)
    (h : encryptNote P none note memo cv cmx rndOck rndOp = .ret enc)
    (h' : encryptNote P ovk note memo cv' cmx' rndOck' rndOp' = .ret enc') :
    Spec.Seals P rndOck rndOp.toList enc.outCiphertext.toList ∧
      enc.epkBytes = enc'.epkBytes ∧ enc.encCiphertext = enc'.encCiphertext := by
  unfold encryptNote at h h'
  rw [Outcome.bind_eq_ret] at h h'
  obtain ⟨esk, he, h⟩ := h
  obtain ⟨esk', he', h'⟩ := h'
  rw [he, Outcome.ret.injEq] at he'
  subst he'
  rw [Outcome.pure_eq, Outcome.ret.injEq] at h h'
  subst h h'
  exact ⟨seals_aeadEncrypt P rndOck rndOp, rfl, rfl⟩

/-- **C72** (consequence). Without an outgoing viewing key, the outgoing ciphertexts of two outputs
encrypted with the same randomness are the same, whatever the notes. -/
theorem C72_independent (P : Prims) (note note' : Note) (memo memo' : Bytes 512)
    (cv cv' : ValueCommitment) (cmx cmx' : Fp) (rndOck : Bytes 32) (rndOp : Bytes 64)
    (enc enc' : TransmittedNoteCiphertext)
    (h : encryptNote P none note memo cv cmx rndOck rndOp = .ret enc)
    (h' : encryptNote P none note' memo' cv' cmx' rndOck rndOp = .ret enc') :
    enc.outCiphertext = enc'.outCiphertext := by
  unfold encryptNote at h h'
  rw [Outcome.bind_eq_ret] at h h'
  obtain ⟨esk, he, h⟩ := h
  obtain ⟨esk', he', h'⟩ := h'
  rw [Outcome.pure_eq, Outcome.ret.injEq] at h h'
  subst h h'
  rfl

/-- Under `P0` both hypotheses of C72 hold for two notes that differ. -/
example : ∃ note note' : Note, note ≠ note' ∧
    ∀ memo cv cmx r1 r2, (∃ enc, encryptNote Examples.P0 none note memo cv cmx r1 r2 = .ret enc) ∧
      ∃ enc', encryptNote Examples.P0 none note' memo cv cmx r1 r2 = .ret enc' := by
  refine ⟨⟨⟨default, genG⟩, ⟨5⟩, 7, default⟩, ⟨⟨default, genG⟩, ⟨6⟩, 7, default⟩, ?_, ?_⟩
  · intro h
    exact absurd (congrArg (fun n : Note => n.value.inner) h) (by decide)
  · intro memo cv cmx r1 r2
    constructor
    · obtain ⟨enc, h, -⟩ := encryptNote_eq (P := Examples.P0) (ovk := none)
        (note := ⟨⟨default, genG⟩, ⟨5⟩, 7, default⟩) (memo := memo) (cv := cv) (cmx := cmx)
        (rndOck := r1) (rndOp := r2) (by rw [Examples.esk_P0]; exact one_ne_zero)
      exact ⟨enc, h⟩
    · obtain ⟨enc, h, -⟩ := encryptNote_eq (P := Examples.P0) (ovk := none)
        (note := ⟨⟨default, genG⟩, ⟨6⟩, 7, default⟩) (memo := memo) (cv := cv) (cmx := cmx)
        (rndOck := r1) (rndOp := r2) (by rw [Examples.esk_P0]; exact one_ne_zero)
      exact ⟨enc, h⟩

/-! ### A note for which encryption panics -/

/-- `P0`, except that `esk` is zero for `ρ = 0`. -/
noncomputable def Examples.P1 : Prims :=
  { Examples.P0 with
    blake2b512 := fun pers m =>
      if m.drop 32 = 4 :: (Fp.toRepr 0).toList then Bytes.ofNat 64 0 else
        Examples.P0.blake2b512 pers m }

/-- **C42** (finding). `Note::from_parts` does not check that the seed was validated for the given
`ρ`: there is an obtainable note whose seed passed `RandomSeed::from_bytes` (for another `ρ`) and for
which note encryption panics in `Note::esk`. -/
theorem C42_encryption_can_panic : ∃ (P : Prims) (note : Note) (rho' : Fp),
    note.Obtainable P ∧ RandomSeed.fromBytes P note.rseed rho' = some note.rseed ∧
    ∀ ovk memo cv cmx r1 r2, encryptNote P ovk note memo cv cmx r1 r2 = .panic := by
  have hprf : ∀ dst s rho, ¬ (dst = 4 ∧ rho = 0) →
      Spec.seedPrf Examples.P1 dst s rho = Spec.seedPrf Examples.P0 dst s rho := by
    intro dst s rho h
    unfold Spec.seedPrf Examples.P1
    simp only
    rw [if_neg]
    intro hc
    rw [List.append_assoc, List.drop_append_of_le_length (by simp), List.drop_of_length_le (by simp),
      List.nil_append] at hc
    simp only [List.singleton_append, List.cons.injEq] at hc
    exact h ⟨hc.1, Fp.toRepr_injective (Bytes.ext hc.2)⟩
  have hcm : ∃ cm, Spec.noteCommitOf Examples.P1 default genG 5 0 default = some cm := by
    obtain ⟨cm, -, h⟩ := Examples.noteCommit_P0
    refine ⟨cm, ?_⟩
    have h := h default genG 5 0 default
    unfold Spec.noteCommitOf Spec.psi Spec.rcm at h ⊢
    rw [hprf _ _ _ (by decide), hprf _ _ _ (by decide)]
    have hs : sinsemillaHashToPoint Examples.P1 = sinsemillaHashToPoint Examples.P0 := by
      have : sinsemillaStep Examples.P1 = sinsemillaStep Examples.P0 := by
        funext acc m; unfold sinsemillaStep Examples.P1; rfl
      funext Q m
      unfold sinsemillaHashToPoint
      rw [this]
    have hd : diversifyHash Examples.P1 default = diversifyHash Examples.P0 default := by
      unfold diversifyHash Examples.P1; rfl
    unfold Spec.noteCommit at h ⊢
    rw [hs, hd]
    exact h
  obtain ⟨cm, hcm⟩ := hcm
  refine ⟨Examples.P1, ⟨⟨default, genG⟩, ⟨5⟩, 0, default⟩, 1, ?_, ?_, ?_⟩
  · exact .fromParts ((fromParts_eq ..).2 ⟨rfl, cm, hcm⟩)
  · rw [randomSeed_fromBytes_eq, if_neg]
    unfold Spec.esk
    rw [hprf _ _ _ (by rintro ⟨-, h⟩; exact absurd h one_ne_zero)]
    have := Examples.esk_P0 default 1
    unfold Spec.esk at this
    rw [this]; exact one_ne_zero
  · intro ovk memo cv cmx r1 r2
    have hz : Spec.esk Examples.P1 default 0 = 0 := by
      unfold Spec.esk Spec.seedPrf Examples.P1
      simp only
      rw [if_pos]
      · have h0 : (Bytes.ofNat 64 0).toNat = 0 := Bytes.toNat_ofNat (Nat.pow_pos (by norm_num))
        rw [h0]; exact Nat.cast_zero
      · rw [List.append_assoc, List.drop_append_of_le_length (by simp),
          List.drop_of_length_le (by simp)]; rfl
    unfold encryptNote Note.esk RandomSeed.esk
    simp only [eskInner_eq, hz, if_true, Option.unwrapO_none, Outcome.panic_bind]

end Orchard
