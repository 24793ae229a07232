import Verif.Spec.NoteEncryption

/-!
# Lemmas about note encryption
-/

namespace Orchard

/-! ### The cipher -/

theorem stream_stream (P : Prims) (key : Bytes 32) (l : List UInt8) :
    Spec.stream P key (Spec.stream P key l) = l := by
  unfold Spec.stream
  apply List.ext_getElem?
  intro i
  simp only [List.getElem?_mapIdx, Option.map_map]
  cases l[i]? with
  | none => rfl
  | some x => simp [UInt8.xor_assoc]

theorem length_stream (P : Prims) (key : Bytes 32) (l : List UInt8) :
    (Spec.stream P key l).length = l.length := by simp [Spec.stream]

theorem take_stream (P : Prims) (key : Bytes 32) (l : List UInt8) (n : ℕ) :
    (Spec.stream P key l).take n = Spec.stream P key (l.take n) := by
  unfold Spec.stream
  apply List.ext_getElem?
  intro i
  simp only [List.getElem?_mapIdx, List.getElem?_take]
  split_ifs <;> simp

theorem toList_xorStream (P : Prims) (key : Bytes 32) {n : ℕ} (b : Bytes n) :
    (xorStream P key b).toList = Spec.stream P key b.toList := rfl

theorem xorStream_xorStream (P : Prims) (key : Bytes 32) {n : ℕ} (b : Bytes n) :
    xorStream P key (xorStream P key b) = b := by
  apply Bytes.ext
  rw [toList_xorStream, toList_xorStream, stream_stream]

theorem seals_aeadEncrypt (P : Prims) (key : Bytes 32) {n : ℕ} (pt : Bytes n) :
    Spec.Seals P key pt.toList (aeadEncrypt P key pt).toList := by
  unfold Spec.Seals aeadEncrypt
  rw [Bytes.toList_append, toList_xorStream]

theorem aeadDecrypt_eq_some {P : Prims} {key : Bytes 32} {n : ℕ} {c : Bytes (n + 16)} {pt : Bytes n} :
    aeadDecrypt P key c = some pt ↔ Spec.Seals P key pt.toList c.toList := by
  unfold aeadDecrypt Spec.Seals
  simp only
  constructor
  · intro h
    split_ifs at h with ht
    rw [Option.some.injEq] at h
    subst h
    rw [toList_xorStream, stream_stream, ht, Bytes.toList_slice, Bytes.toList_slice, List.drop_zero]
    have h1 : (c.toList.drop n).take 16 = c.toList.drop n := by
      apply List.take_of_length_le; simp
    rw [h1, List.take_append_drop]
  · intro h
    have hl : (Spec.stream P key pt.toList).length = n := by rw [length_stream]; simp
    have h1 : (c.slice 0 n (by omega)).toList = Spec.stream P key pt.toList := by
      rw [Bytes.toList_slice, h, List.drop_zero, List.take_append_of_le_length hl.ge,
        List.take_of_length_le hl.le]
    have h2 : c.slice n 16 (by omega) = P.poly1305 key (Spec.stream P key pt.toList) := by
      apply Bytes.ext
      rw [Bytes.toList_slice, h, List.drop_append_of_le_length hl.ge, List.drop_of_length_le hl.le,
        List.nil_append, List.take_of_length_le (by simp)]
    rw [h1, h2, if_pos rfl, Option.some.injEq]
    apply Bytes.ext
    rw [toList_xorStream, h1, stream_stream]

theorem aeadDecrypt_aeadEncrypt (P : Prims) (key : Bytes 32) {n : ℕ} (pt : Bytes n) :
    aeadDecrypt P key (aeadEncrypt P key pt) = some pt :=
  aeadDecrypt_eq_some.2 (seals_aeadEncrypt P key pt)

/-! ### Plaintexts -/

theorem take_52 {α : Type} (l : List α) :
    l.take 52 = l.take 1 ++ (l.drop 1).take 11 ++ (l.drop 12).take 8 ++ (l.drop 20).take 32 := by
  rw [show 52 = 1 + 11 + 8 + 32 from rfl, List.take_add, List.take_add, List.take_add]

theorem slices_eq_iff {n : ℕ} (h : 52 ≤ n) (pt : Bytes n) (A : Bytes 1) (B : Bytes 11) (C : Bytes 8)
    (D : Bytes 32) :
    (pt.slice 0 1 (by omega) = A ∧ pt.slice 1 11 (by omega) = B ∧ pt.slice 12 8 (by omega) = C ∧
      pt.slice 20 32 (by omega) = D) ↔
    pt.toList.take 52 = A.toList ++ B.toList ++ C.toList ++ D.toList := by
  have e1 : (pt.slice 0 1 (by omega)).toList = pt.toList.take 1 := by rw [Bytes.toList_slice]; rfl
  have e2 : (pt.slice 1 11 (by omega)).toList = (pt.toList.drop 1).take 11 := Bytes.toList_slice ..
  have e3 : (pt.slice 12 8 (by omega)).toList = (pt.toList.drop 12).take 8 := Bytes.toList_slice ..
  have e4 : (pt.slice 20 32 (by omega)).toList = (pt.toList.drop 20).take 32 := Bytes.toList_slice ..
  rw [take_52, ← e1, ← e2, ← e3, ← e4]
  constructor
  · rintro ⟨rfl, rfl, rfl, rfl⟩; rfl
  · intro h
    obtain ⟨h, h4⟩ := List.append_inj' h (by simp)
    obtain ⟨h, h3⟩ := List.append_inj' h (by simp)
    obtain ⟨h1, h2⟩ := List.append_inj' h (by simp)
    exact ⟨Bytes.ext h1, Bytes.ext h2, Bytes.ext h3, Bytes.ext h4⟩

theorem value_fromBytes_eq {b : Bytes 8} {v : NoteValue} :
    NoteValue.fromBytes b = v ↔ b = Bytes.ofNat 8 v.inner.toNat := by
  unfold NoteValue.fromBytes
  have hb : b.toNat < 2 ^ 64 := by
    have := b.toNat_lt
    have e : (256 : ℕ) ^ 8 = 2 ^ 64 := by norm_num
    omega
  constructor
  · rintro rfl
    apply Bytes.toNat_injective
    simp only
    rw [UInt64.toNat_ofNat_of_lt' hb, Bytes.toNat_ofNat b.toNat_lt]
  · rintro rfl
    have hv : v.inner.toNat < 256 ^ 8 := by
      have := v.inner.toNat_lt
      have e : (256 : ℕ) ^ 8 = 2 ^ 64 := by norm_num
      omega
    rw [Bytes.toNat_ofNat hv]
    cases v; simp

theorem parse_ne_panic {P : Prims} {rho : Fp} {n : ℕ} (h : 52 ≤ n) (pt : Bytes n)
    (getPkd : Bytes 11 → Point) : parseNotePlaintext P rho pt getPkd ≠ .panic := by
  unfold parseNotePlaintext
  rw [dif_pos h]
  split_ifs
  · simp
  · simp only
    cases RandomSeed.fromBytes P (pt.slice 20 32 (by omega)) rho with
    | none => simp
    | some s =>
      simp only
      split <;> simp

/-- A successful parse, spelled out. -/
theorem parse_eq_some {P : Prims} {rho : Fp} {n : ℕ} (h : 52 ≤ n) {pt : Bytes n}
    {getPkd : Bytes 11 → Point} {note : Note} {a : Address} :
    parseNotePlaintext P rho pt getPkd = .ret (some (note, a)) ↔
      a = note.recipient ∧ note.rho = rho ∧ note.recipient.pkd = getPkd note.recipient.d ∧
      Spec.GoodSeed P note.recipient.d note.recipient.pkd note.value.inner.toNat note.rho note.rseed ∧
      pt.toList.take 52 = Spec.compactPlaintext note := by
  have hs : pt.toList.take 52 = Spec.compactPlaintext note ↔
      (pt.slice 0 1 (by omega) = leadByte ∧ pt.slice 1 11 (by omega) = note.recipient.d ∧
        NoteValue.fromBytes (pt.slice 12 8 (by omega)) = note.value ∧
        pt.slice 20 32 (by omega) = note.rseed) := by
    rw [value_fromBytes_eq, slices_eq_iff h]; rfl
  rw [hs]
  unfold parseNotePlaintext
  rw [dif_pos h]
  by_cases h0 : pt.slice 0 1 (by omega) = leadByte
  · simp only [h0, ne_eq, not_true_eq_false, if_false, true_and]
    rw [randomSeed_fromBytes_eq]
    by_cases he : Spec.esk P (pt.slice 20 32 (by omega)) rho = 0
    · simp only [he, if_true, Outcome.pure_eq, Outcome.ret.injEq, reduceCtorEq, false_iff]
      rintro ⟨-, h1, -, h2, -, -, h3⟩
      rw [h3, ← h1] at he
      exact h2.1 he
    · simp only [he, if_false]
      cases hn : Note.fromParts P ⟨pt.slice 1 11 (by omega), getPkd (pt.slice 1 11 (by omega))⟩
        (NoteValue.fromBytes (pt.slice 12 8 (by omega))) rho (pt.slice 20 32 (by omega)) with
      | none =>
        simp only [Outcome.pure_eq, Outcome.ret.injEq, reduceCtorEq, false_iff]
        rintro ⟨-, h1, h4, h2, h5, h6, h3⟩
        have := (fromParts_eq P ⟨pt.slice 1 11 (by omega), getPkd (pt.slice 1 11 (by omega))⟩
          (NoteValue.fromBytes (pt.slice 12 8 (by omega))) rho (pt.slice 20 32 (by omega))
          ⟨_, _, _, _⟩).2 ⟨rfl, ?_⟩
        · rw [hn] at this; simp at this
        · rw [h3, h6, h5, ← h4, ← h1]
          exact h2.2
      | some note' =>
        obtain ⟨e, hc⟩ := (fromParts_eq ..).1 hn
        simp only [Outcome.pure_eq, Outcome.ret.injEq, Option.some.injEq, Prod.mk.injEq]
        constructor
        · rintro ⟨rfl, rfl⟩
          subst e
          exact ⟨rfl, rfl, rfl, ⟨he, hc⟩, rfl, rfl, rfl⟩
        · rintro ⟨rfl, rfl, h4, h2, h5, h6, h3⟩
          subst e
          rw [h3, h5, h6, ← h4]
          exact ⟨rfl, rfl⟩
  · simp [h0]

theorem toList_notePlaintextBytes (note : Note) (memo : Bytes 512) :
    (notePlaintextBytes note memo).toList = Spec.compactPlaintext note ++ memo.toList := by
  unfold notePlaintextBytes Spec.compactPlaintext
  simp only [Bytes.toList_append]
  rfl

theorem length_compactPlaintext (note : Note) : (Spec.compactPlaintext note).length = 52 := by
  simp [Spec.compactPlaintext]

theorem extractMemo_eq {pt : Bytes 564} {note : Note} {memo : Bytes 512}
    (h : pt.toList.take 52 = Spec.compactPlaintext note) :
    extractMemo pt = memo ↔ pt.toList = Spec.compactPlaintext note ++ memo.toList := by
  have hd : (extractMemo pt).toList = pt.toList.drop 52 := by
    unfold extractMemo
    rw [Bytes.toList_slice, List.take_of_length_le (by simp)]
  constructor
  · rintro rfl
    rw [hd, ← h, List.take_append_drop]
  · intro he
    apply Bytes.ext
    rw [hd, he, List.drop_append_of_le_length (by rw [length_compactPlaintext]),
      List.drop_of_length_le (by rw [length_compactPlaintext]), List.nil_append]

/-! ### Validity -/

theorem esk_eq_ret {P : Prims} {n : Note} (h : Spec.esk P n.rseed n.rho ≠ 0) :
    n.esk P = .ret (Spec.esk P n.rseed n.rho) := by
  unfold Note.esk RandomSeed.esk
  rw [eskInner_eq, if_neg h]; rfl

/-- For notes that parsed, the validity check does not panic and tests the two equations. -/
theorem checkNoteValidity_eq {P : Prims} {n : Note} {epk : Bytes 32} {cmx : Fp}
    (hg : Spec.GoodSeed P n.recipient.d n.recipient.pkd n.value.inner.toNat n.rho n.rseed) :
    ∃ b, checkNoteValidity P n epk (cmxToBytes cmx) = .ret b ∧
      (b = true ↔ Spec.NoteOfOutput P n.rho cmx epk n) := by
  obtain ⟨he, cm, hcm⟩ := hg
  have hc : n.cmx P = .ret (extractP cm) := by
    unfold Note.cmx; rw [commitment_eq_ret.2 hcm]; rfl
  unfold checkNoteValidity
  rw [hc, Outcome.ret_bind]
  have hinj : cmxToBytes (extractP cm) = cmxToBytes cmx ↔ extractP cm = cmx :=
    ⟨fun h => Fp.toRepr_injective h, fun h => by rw [h]⟩
  by_cases h1 : extractP cm = cmx
  · rw [if_pos (hinj.2 h1), esk_eq_ret he]
    refine ⟨_, rfl, ?_⟩
    rw [decide_eq_true_iff]
    constructor
    · intro h; exact ⟨rfl, ⟨cm, hcm, h1⟩, he, h⟩
    · intro h; exact h.epk
  · rw [if_neg (fun h => h1 (hinj.1 h))]
    refine ⟨_, rfl, ?_⟩
    constructor
    · intro h; simp at h
    · intro h
      obtain ⟨cm', h2, h3⟩ := h.commitment
      rw [hcm, Option.some.injEq] at h2
      exact absurd (h2 ▸ h3) h1

/-- What the incoming-key branch accepts, given the decrypted bytes. -/
theorem parseAndCheck_spec {P : Prims} {rho cmx : Fp} {ivk : Fq} {epk : Bytes 32} {n : ℕ} (h : 52 ≤ n)
    (pt : Bytes n) : parseAndCheck P rho ivk epk (cmxToBytes cmx) pt ≠ .panic ∧
    ∀ note a, parseAndCheck P rho ivk epk (cmxToBytes cmx) pt = .ret (some (note, a)) ↔
      a = note.recipient ∧ note.recipient.pkd = ivk • diversifyHash P note.recipient.d ∧
      pt.toList.take 52 = Spec.compactPlaintext note ∧ Spec.NoteOfOutput P rho cmx epk note := by
  unfold parseAndCheck parseIvk
  cases hp : parseNotePlaintext P rho pt (derivePkd P ivk) with
  | panic => exact absurd hp (parse_ne_panic h pt _)
  | ret r =>
    cases r with
    | none =>
      simp only [Outcome.ret_bind, Outcome.pure_eq, ne_eq, reduceCtorEq, not_false_eq_true,
        true_and, Outcome.ret.injEq, false_iff]
      rintro note a ⟨h1, h2, h3, h4⟩
      have := (parse_eq_some h (P := P) (rho := rho) (getPkd := derivePkd P ivk) (pt := pt)
        (note := note) (a := a)).2 ⟨h1, h4.rho, h2, ⟨h4.esk, ?_⟩, h3⟩
      · rw [hp] at this; simp at this
      · obtain ⟨cm, hcm, -⟩ := h4.commitment
        exact ⟨cm, hcm⟩
    | some x =>
      obtain ⟨note, a⟩ := x
      obtain ⟨h1, h2, h3, h4, h5⟩ := (parse_eq_some h).1 hp
      obtain ⟨b, hb, hiff⟩ := checkNoteValidity_eq (epk := epk) (cmx := cmx) h4
      simp only [Outcome.ret_bind, hb]
      rw [h2] at hiff
      constructor
      · cases b <;> simp
      · intro note' a'
        have huniq : pt.toList.take 52 = Spec.compactPlaintext note' →
            note'.recipient.pkd = ivk • diversifyHash P note'.recipient.d → note'.rho = rho →
            note' = note := by
          intro e1 e2 e3
          have hs := fun n' : Note => (slices_eq_iff h pt leadByte n'.recipient.d
            (Bytes.ofNat 8 n'.value.inner.toNat) n'.rseed).2
          obtain ⟨-, d1, d2, d3⟩ := hs note' e1
          obtain ⟨-, f1, f2, f3⟩ := hs note h5
          have hd : note'.recipient.d = note.recipient.d := d1.symm.trans f1
          have hv : note'.value = note.value :=
            (value_fromBytes_eq.2 d2).symm.trans (value_fromBytes_eq.2 f2)
          have hr : note'.rseed = note.rseed := d3.symm.trans f3
          have hpk : note'.recipient.pkd = note.recipient.pkd := by
            rw [e2, h3, hd]; rfl
          have hrho : note'.rho = note.rho := by rw [e3, h2]
          obtain ⟨⟨nd, np⟩, nv, nr, ns⟩ := note
          obtain ⟨⟨nd', np'⟩, nv', nr', ns'⟩ := note'
          simp only at hd hv hr hpk hrho
          subst hd hv hr hpk hrho
          rfl
        cases b with
        | true =>
          simp only [if_true, Outcome.pure_eq, Outcome.ret.injEq, Option.some.injEq, Prod.mk.injEq]
          constructor
          · rintro ⟨rfl, rfl⟩
            exact ⟨h1, h3, h5, hiff.1 rfl⟩
          · rintro ⟨e1, e2, e3, e4⟩
            have := huniq e3 e2 e4.rho
            subst this
            exact ⟨rfl, h1.trans e1.symm⟩
        | false =>
          simp only [Bool.false_eq_true, if_false, Outcome.pure_eq, Outcome.ret.injEq, reduceCtorEq,
            false_iff]
          rintro ⟨e1, e2, e3, e4⟩
          have := huniq e3 e2 e4.rho
          subst this
          exact absurd (hiff.2 e4) (by simp)

end Orchard
