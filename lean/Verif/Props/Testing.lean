import Verif.Lemmas.Testing
import Verif.Lemmas.Builder
import Verif.Props.NoteEncryption
import Verif.Examples.Builder

/-!
# Property C99: the generators of values, keys, addresses and notes for property testing
-/

namespace Orchard

open RedPallas Testing

/-- Under `P0` all spending keys are valid. -/
theorem Examples.validSk_P0 (sk : Bytes 32) : Spec.ValidSk P0 sk :=
  (C30_valid_keys P0 sk).1.1 (fromBytes_P0 sk)

/-- Under `P0` there are addresses. -/
theorem Examples.someAddress_P0 : ∃ a, Spec.SomeAddress P0 a := by
  have h := validSk_P0 default
  obtain ⟨a, -, ho⟩ := addressAt_owned (P := P0) (fvk := Spec.fvkOf P0 default) h.2 default .external
  exact ⟨a, default, h, ho⟩

/-! ### C99: values, keys and addresses -/

/-- **C99** (values). Each of the generators of scalars, base field elements, value sums, trapdoors
and note values yields exactly the values that it promises and never panics: all scalars, all base
field elements, the value sums of absolute value at most `2^64 - 1` (or at most the bound), and the
note values below `2^64 - 1` (or below the bound, with or without zero).  A bound that leaves no value
makes every use panic.  (The largest note value is never generated.) -/
theorem C99_values :
    Spec.Yields arbScalar (fun _ => True) ∧ Spec.Yields arbBase (fun _ => True) ∧
    Spec.Yields arbTrapdoor (fun _ => True) ∧
    Spec.Yields arbValueSum (fun v => |v.inner| ≤ 2 ^ 64 - 1) ∧
    (∀ bound, Spec.Yields (arbValueSumBounded bound) fun v => |v.inner| ≤ Spec.intValue bound) ∧
    Spec.Yields arbNoteValue (fun v => v.inner.toNat < 2 ^ 64 - 1) ∧
    (∀ max < 2 ^ 64, if 0 < max then
        Spec.Yields (arbNoteValueBounded max) fun v => v.inner.toNat < max
      else Spec.AlwaysPanics (arbNoteValueBounded max)) ∧
    (∀ max < 2 ^ 64, if 1 < max then
        Spec.Yields (arbPositiveNoteValue max) fun v => 0 < v.inner.toNat ∧ v.inner.toNat < max
      else Spec.AlwaysPanics (arbPositiveNoteValue max)) := by
  have hs : Spec.Yields arbScalar (fun _ => True) := by
    refine Gen.yields_map Gen.yields_anything _ fun x => ⟨fun _ => ⟨Fq.toRepr x, trivial, ?_⟩,
      fun _ => trivial⟩
    unfold Fq.fromUniform
    rw [toNat_padded, Fq.toNat_toRepr, ZMod.natCast_zmod_val]
  have hpanic : ∀ lo hi : ℕ, ¬ lo < hi →
      Spec.AlwaysPanics (Gen.range lo hi >>= fun v => pure (⟨UInt64.ofNat v⟩ : NoteValue)) := by
    intro lo hi h o
    rw [Gen.mem_bind]
    simp only [Gen.mem_range, if_neg h, true_and]
    simp
  refine ⟨hs, ?_, ?_, ?_, ?_, ?_, ?_, ?_⟩
  · refine Gen.yields_map Gen.yields_anything _ fun x => ⟨fun _ => ⟨Fp.toRepr x, trivial, ?_⟩,
      fun _ => trivial⟩
    unfold Fp.fromUniform
    rw [toNat_padded, Fp.toNat_toRepr, ZMod.natCast_zmod_val]
  · exact Gen.yields_map hs _ fun t => ⟨fun _ => ⟨t.inner, trivial, rfl⟩, fun _ => trivial⟩
  · refine Gen.yields_map (Gen.yields_rangeInclusive (by decide)) _ fun v => ?_
    rw [abs_le]
    exact ⟨fun h => ⟨v.inner, h, rfl⟩, by rintro ⟨a, h, rfl⟩; exact h⟩
  · intro bound
    refine Gen.yields_map (Gen.yields_rangeInclusive (by omega)) _ fun v => ?_
    rw [abs_le]
    exact ⟨fun h => ⟨v.inner, h, rfl⟩, by rintro ⟨a, h, rfl⟩; exact h⟩
  · have := yields_ofNat (lo := 0) (hi := maxNoteValue) (by decide) (by decide)
    simp only [Nat.zero_le, true_and] at this
    exact this
  · intro max hm
    split_ifs with h
    · have := yields_ofNat (lo := 0) hm h
      simp only [Nat.zero_le, true_and] at this
      exact this
    · exact hpanic 0 max h
  · intro max hm
    split_ifs with h
    · exact yields_ofNat (lo := 1) hm h
    · exact hpanic 1 max h

/-- The largest value but one is generated, the largest is not; both bounds occur. -/
example : .ret ⟨0xfffffffffffffffe⟩ ∈ arbNoteValue ∧ .ret ⟨0xffffffffffffffff⟩ ∉ arbNoteValue ∧
    .ret ⟨-3⟩ ∈ arbValueSumBounded ⟨3⟩ ∧ .ret ⟨4⟩ ∉ arbValueSumBounded ⟨3⟩ ∧
    .ret ⟨0⟩ ∈ arbNoteValueBounded 3 ∧ .ret ⟨0⟩ ∉ arbPositiveNoteValue 3 := by
  obtain ⟨-, -, -, -, h1, h2, h3, h4⟩ := C99_values
  have h3 := h3 3 (by decide)
  have h4 := h4 3 (by decide)
  rw [if_pos (by decide)] at h3 h4
  simp only [h1 _ _, h2 _, h3 _, h4 _, Outcome.ret.injEq, exists_eq_right', abs_le, Spec.intValue]
  decide

/-- **C99** (spending keys). The generator of spending keys yields exactly the valid spending keys of
the specification.  It can panic exactly if some 32 bytes have `ask = 0` (see C30). -/
theorem C99_spending_key (P : Prims) :
    (∀ sk, .ret sk ∈ arbSpendingKey P ↔ Spec.ValidSk P sk.bytes) ∧
    (.panic ∈ arbSpendingKey P ↔ ∃ b, Spec.askScalar P b = 0) := by
  have h1 : ∀ k, .ret k ∈ Gen.filter Option.isSome (do
      let b ← Gen.anything (Bytes 32)
      Gen.run (SpendingKey.fromBytes P b)) ↔ ∃ sk, k = some sk ∧ Spec.ValidSk P sk.bytes := by
    intro k
    rw [Gen.mem_filter, Gen.ret_mem_bind]
    constructor
    · rintro ⟨⟨b, -, h⟩, h2⟩
      rw [Gen.mem_run] at h
      obtain ⟨sk, rfl⟩ := Option.isSome_iff_exists.1 (h2 k rfl)
      have ha : Spec.askScalar P b ≠ 0 := by
        intro h0; rw [(C30_panics_on_zero_ask P b).2 h0] at h; simp at h
      obtain ⟨r, fvk, h3, -, h4, -⟩ := C30_spending_key_partial P b ha
      rw [h3, Outcome.ret.injEq] at h
      have := h4 sk h.symm
      subst this
      exact ⟨sk, rfl, (C30_valid_keys P sk.bytes).1.1 (by rw [h3, ← h])⟩
    · rintro ⟨sk, rfl, h⟩
      refine ⟨⟨sk.bytes, by simp, ?_⟩, by intro a h; simp only [Outcome.ret.injEq] at h; rw [← h]; rfl⟩
      rw [Gen.mem_run, (C30_valid_keys P sk.bytes).1.2 h]
  constructor
  · intro sk
    unfold arbSpendingKey
    rw [Gen.ret_mem_bind]
    constructor
    · rintro ⟨k, h, h2⟩
      obtain ⟨sk', rfl, h3⟩ := (h1 k).1 h
      rw [Gen.mem_run, Option.unwrapO, Outcome.ret.injEq] at h2
      rw [h2]; exact h3
    · intro h
      exact ⟨some sk, (h1 _).2 ⟨sk, rfl, h⟩, rfl⟩
  · unfold arbSpendingKey
    rw [Gen.panic_mem_bind, Gen.mem_filter, Gen.panic_mem_bind]
    simp only [Gen.mem_anything, Gen.mem_run]
    constructor
    · rintro (⟨(⟨_, h⟩ | ⟨b, -, h⟩), -⟩ | ⟨k, h, h2⟩)
      · simp at h
      · exact ⟨b, (C30_panics_on_zero_ask P b).1 h.symm⟩
      · obtain ⟨sk, rfl, -⟩ := (h1 k).1 h
        simp [Option.unwrapO] at h2
    · rintro ⟨b, h⟩
      exact Or.inl ⟨Or.inr ⟨b, ⟨b, rfl⟩, ((C30_panics_on_zero_ask P b).2 h).symm⟩, by simp⟩

/-- Under `P0` all keys are valid, and the generator never panics. -/
example : (∀ sk, .ret sk ∈ arbSpendingKey Examples.P0) ∧ .panic ∉ arbSpendingKey Examples.P0 := by
  refine ⟨fun sk => ((C99_spending_key _).1 sk).2 (Examples.validSk_P0 _), fun h => ?_⟩
  obtain ⟨b, hb⟩ := (C99_spending_key _).2.1 h
  rw [Examples.askScalar_P0] at hb
  exact one_ne_zero hb

/-- **C99** (other keys). The generators of ephemeral secret keys, signing keys and verification keys
yield exactly the non-zero scalars, all signing keys, and all multiples of the base point, and never
panic. -/
theorem C99_keys (T : SigType) :
    Spec.Yields arbEsk (fun e => e ≠ 0) ∧
    Spec.Yields (arbSigningKey T) (fun _ => True) ∧
    Spec.Yields (arbVerificationKey T) (fun vk => ∃ s : Fq, vk.point = s • basepoint T) := by
  have hs : Spec.Yields (arbSigningKey T) (fun _ => True) := by
    refine Gen.yields_filter_unwrap Gen.yields_anything fun sk => ⟨fun _ => ⟨Fq.toRepr sk.s, trivial, ?_⟩,
      fun _ => trivial⟩
    unfold SigningKey.fromBytes
    rw [Fq.fromRepr_toRepr]; rfl
  refine ⟨?_, hs, ?_⟩
  · refine Gen.yields_filter_unwrap Gen.yields_anything fun e => ?_
    unfold eskFromBytes nonZeroScalarFromBytes
    constructor
    · intro h
      refine ⟨Fq.toRepr e, trivial, ?_⟩
      rw [Fq.fromRepr_toRepr]
      simp [nonZeroFromScalar, h]
    · rintro ⟨b, -, h⟩
      rw [Option.bind_eq_some_iff] at h
      obtain ⟨x, -, h⟩ := h
      unfold nonZeroFromScalar at h
      split_ifs at h with h0
      simp only [Option.some.injEq] at h
      rw [← h]; exact h0
  · refine Gen.yields_map hs _ fun vk => ⟨?_, ?_⟩
    · rintro ⟨s, h⟩; exact ⟨⟨s⟩, trivial, by cases vk; simp only at h; simp [SigningKey.vk, h]⟩
    · rintro ⟨sk, -, rfl⟩; exact ⟨sk.s, rfl⟩

/-- **C99** (addresses). The generator of addresses yields exactly the external addresses of the valid
spending keys, and panics only on bytes with `ask = 0`. -/
theorem C99_address (P : Prims) :
    (∀ a, .ret a ∈ arbAddress P ↔ Spec.SomeAddress P a) ∧
    (.panic ∈ arbAddress P → ∃ b, Spec.askScalar P b = 0) := by
  have key : ∀ (sk : SpendingKey), Spec.ValidSk P sk.bytes → ∃ k : IncomingViewingKey,
      (∀ j, (do let fvk ← FullViewingKey.ofSk P sk; fvk.addressAt P j .external) =
        .ret (k.addressAt P j)) ∧
      ∀ a, Spec.OwnedInScope P (Spec.fvkOf P sk.bytes) .external a ↔ ∃ j, k.addressAt P j = a := by
    intro sk h
    have hv : Spec.ValidFvk P (Spec.fvkOf P sk.bytes).ak.point (Spec.fvkOf P sk.bytes).nk
      (Spec.fvkOf P sk.bytes).rivk := h.2
    obtain ⟨k, hk, -, hat, -⟩ := C34_address_agrees P _ hv .external
    refine ⟨k, ?_, fun a => ?_⟩
    · intro j
      rw [C29_full_viewing_key, if_neg h.1]
      exact hat j
    · rw [← ownedInScope_iff hv hk, ← diversifierIndex_isSome_iff, Option.isSome_iff_exists]
      simp only [(C33_diversifier_index P k).2.1, eq_comm]
  constructor
  · intro a
    unfold arbAddress
    rw [Gen.ret_mem_bind]
    simp only [Gen.ret_mem_bind, Gen.mem_run, (C99_spending_key P).1]
    constructor
    · rintro ⟨sk, h1, j, -, h2⟩
      obtain ⟨k, h3, h4⟩ := key sk h1
      rw [h3, Outcome.ret.injEq] at h2
      exact ⟨sk.bytes, h1, (h4 a).2 ⟨j, h2.symm⟩⟩
    · rintro ⟨b, h1, h2⟩
      obtain ⟨k, h3, h4⟩ := key ⟨b⟩ h1
      obtain ⟨j, h5⟩ := (h4 a).1 h2
      exact ⟨⟨b⟩, h1, j, ⟨j, rfl⟩, by rw [h3, h5]⟩
  · unfold arbAddress
    rw [Gen.panic_mem_bind, (C99_spending_key P).2]
    rintro (h | ⟨sk, h1, h⟩)
    · exact h
    · rw [Gen.panic_mem_bind] at h
      rcases h with ⟨_, h⟩ | ⟨j, -, h⟩
      · simp at h
      · obtain ⟨k, h3, -⟩ := key sk (((C99_spending_key P).1 sk).1 h1)
        rw [Gen.mem_run, h3] at h
        simp at h

/-- **C99** (notes). The generator of notes yields exactly the notes with the given value, an address
as in `C99_address` and as `rho` the `x` coordinate of a multiple of the generator of the curve; the
seed is arbitrary, so that the note commitment can be undefined.  It panics only on bytes with
`ask = 0`. -/
theorem C99_note (P : Prims) (G : Point) (value : NoteValue) :
    (∀ note, .ret note ∈ arbNote P G value ↔ note.value = value ∧ Spec.SomeAddress P note.recipient ∧
      ∃ s : Fq, note.rho = extractP (s • G)) ∧
    (.panic ∈ arbNote P G value → ∃ b, Spec.askScalar P b = 0) := by
  have hn : Spec.Yields (arbNullifier G) fun nf => ∃ s : Fq, nf = extractP (s • G) := by
    refine Gen.yields_map Gen.yields_anything _ fun nf => ⟨?_, ?_⟩
    · rintro ⟨s, rfl⟩
      refine ⟨padded (Fq.toRepr s), trivial, ?_⟩
      unfold Fq.fromUniform
      rw [toNat_padded, Fq.toNat_toRepr, ZMod.natCast_zmod_val]
    · rintro ⟨b, -, rfl⟩; exact ⟨_, rfl⟩
  constructor
  · intro note
    unfold arbNote
    rw [Gen.ret_mem_bind]
    simp only [Gen.mem_bind_yields hn, arbRseed, Gen.ret_mem_bind, Gen.mem_pure, Outcome.ret.injEq,
      (C99_address P).1]
    constructor
    · rintro ⟨a, h1, rho, h2, rseed, -, rfl⟩; exact ⟨rfl, h1, h2⟩
    · rintro ⟨rfl, h1, h2⟩
      exact ⟨note.recipient, h1, note.rho, h2, note.rseed, by simp, rfl⟩
  · unfold arbNote
    rw [Gen.panic_mem_bind]
    rintro (h | ⟨a, -, h⟩)
    · exact (C99_address P).2 h
    · simp only [Gen.mem_bind_yields hn, arbRseed, Gen.mem_bind_yields Gen.yields_anything,
        Gen.mem_pure] at h
      obtain ⟨_, _, _, _, h⟩ := h
      simp at h

/-- Under `P0` a note of value 5 is generated, and none of value 4. -/
example : ∃ note : Note, note.value.inner = 5 ∧ .ret note ∈ arbNote Examples.P0 Constants.spendAuthG ⟨5⟩ ∧
    .ret note ∉ arbNote Examples.P0 Constants.spendAuthG ⟨4⟩ := by
  obtain ⟨a, ha⟩ := Examples.someAddress_P0
  refine ⟨⟨a, ⟨5⟩, extractP ((2 : Fq) • Constants.spendAuthG), default⟩, rfl, ?_, ?_⟩
  · exact ((C99_note ..).1 _).2 ⟨rfl, ha, 2, rfl⟩
  · intro h
    have := (((C99_note ..).1 _).1 h).1
    simp at this

/-! ### C99: fake compact actions -/

/-- **C99** (fake compact actions). `fake_compact_action` takes the first random block with a non-zero
ephemeral secret.  If the note with this seed has no commitment, it panics (it does not draw again, as
`Note::new` does).  Otherwise it returns a note with the given recipient and value and with the given
nullifier as `rho`, and a compact action with this nullifier and the commitment of the note, from
which every incoming viewing key that owns the recipient's address gets exactly this note.  The
outgoing viewing key has no influence. -/
theorem C99_fake_compact_action (P : Prims)
    (hP : P.hashToCurve keyDiversificationPersonalization [] ≠ 0)
    (draws : List (Bytes 32)) (nf : Fp) (recipient : Address) (value : NoteValue)
    (ovk : Option (Bytes 32)) :
    ((∀ s ∈ draws, Spec.esk P s nf = 0) ∧
      fakeCompactAction P draws nf recipient value ovk = .ret none) ∨
    ∃ pre s rest, draws = pre ++ s :: rest ∧ (∀ b ∈ pre, Spec.esk P b nf = 0) ∧
      Spec.esk P s nf ≠ 0 ∧
      (Spec.commitmentOf P ⟨recipient, value, nf, s⟩ = none ∧
          fakeCompactAction P draws nf recipient value ovk = .panic ∨
        ∃ cm c, Spec.commitmentOf P ⟨recipient, value, nf, s⟩ = some cm ∧
          fakeCompactAction P draws nf recipient value ovk =
            .ret (some (c, ⟨recipient, value, nf, s⟩)) ∧
          c.nullifier = nf ∧ c.cmx = extractP cm ∧
          (∀ ivk : Fq, recipient.pkd = ivk • diversifyHash P recipient.d →
            tryCompactNoteDecryption P ivk c = .ret (some (⟨recipient, value, nf, s⟩, recipient))) ∧
          ∀ ovk', fakeCompactAction P draws nf recipient value ovk' =
            fakeCompactAction P draws nf recipient value ovk) := by
  cases hr : RandomSeed.random P nf draws with
  | none =>
    refine Or.inl ⟨?_, by unfold fakeCompactAction; rw [hr]; rfl⟩
    clear hP
    induction draws with
    | nil => simp
    | cons b t ih =>
      rw [RandomSeed.random, randomSeed_fromBytes_eq] at hr
      by_cases hb : Spec.esk P b nf = 0
      · rw [if_pos hb] at hr
        simpa [hb] using ih hr
      · rw [if_neg hb] at hr; simp at hr
  | some x =>
    obtain ⟨s, rest⟩ := x
    obtain ⟨pre, h1, h2, h3⟩ := (random_eq_some P nf draws s rest).1 hr
    refine Or.inr ⟨pre, s, rest, h1, h3, h2, ?_⟩
    cases hcm : Spec.commitmentOf P ⟨recipient, value, nf, s⟩ with
    | none =>
      left
      refine ⟨rfl, ?_⟩
      have : Note.fromParts P recipient value nf s = none := by
        cases hf : Note.fromParts P recipient value nf s with
        | none => rfl
        | some n =>
          obtain ⟨-, cm, h⟩ := (C38_from_parts ..).1 hf
          have h' : Spec.commitmentOf P ⟨recipient, value, nf, s⟩ = some cm := h
          rw [hcm] at h'; simp at h'
      unfold fakeCompactAction
      rw [hr]
      simp only [this]
      rfl
    | some cm =>
      right
      have hf : Note.fromParts P recipient value nf s = some ⟨recipient, value, nf, s⟩ :=
        (C38_from_parts ..).2 ⟨⟨rfl, rfl, rfl, rfl⟩, cm, hcm⟩
      have hc : (⟨recipient, value, nf, s⟩ : Note).cmx P = .ret (extractP cm) := by
        unfold Note.cmx
        rw [commitment_eq_ret.2 hcm]; rfl
      have he : (⟨recipient, value, nf, s⟩ : Note).esk P = .ret (Spec.esk P s nf) :=
        esk_eq_ret (n := ⟨recipient, value, nf, s⟩) h2
      have hall : ∀ o, fakeCompactAction P draws nf recipient value o =
          .ret (some (⟨nf, extractP cm, (Spec.esk P s nf • diversifyHash P recipient.d).toBytes,
            (aeadEncrypt P (kdfOrchard P (eskAgree (Spec.esk P s nf) recipient.pkd)
              (Spec.esk P s nf • diversifyHash P recipient.d).toBytes)
              (notePlaintextBytes ⟨recipient, value, nf, s⟩ (Bytes.replicate 512 0)) : Bytes 580).slice
                0 52 (by norm_num)⟩, ⟨recipient, value, nf, s⟩)) := by
        intro o
        unfold fakeCompactAction
        rw [hr]
        simp only [hf, Option.unwrapO, Outcome.ret_bind, he, hc]
        rfl
      refine ⟨cm, _, rfl, hall ovk, rfl, rfl, ?_, fun o => by rw [hall, hall]⟩
      intro ivk hivk
      obtain ⟨enc, g1, g2⟩ := C42_recipient_decrypts (T := Unit) P hP ivk ⟨recipient, value, nf, s⟩
        (Bytes.replicate 512 0) none default default hivk h2 cm hcm ⟨0⟩
      have g3 := (g2 ⟨nf, ⟨0⟩, extractP cm, enc, ⟨0⟩, ()⟩ rfl rfl rfl).2
      have hen : enc.epkBytes = (Spec.esk P s nf • diversifyHash P recipient.d).toBytes ∧
          enc.encCiphertext = (aeadEncrypt P (kdfOrchard P (eskAgree (Spec.esk P s nf) recipient.pkd)
              (Spec.esk P s nf • diversifyHash P recipient.d).toBytes)
              (notePlaintextBytes ⟨recipient, value, nf, s⟩ (Bytes.replicate 512 0)) : Bytes 580) := by
        unfold encryptNote at g1
        rw [he] at g1
        simp only [Outcome.ret_bind, Outcome.pure_eq, Outcome.ret.injEq] at g1
        rw [← g1]
        exact ⟨rfl, rfl⟩
      rw [← hen.2, ← hen.1]
      exact g3

/-- Under `P0` with one random block the second case of the theorem holds for a note of value 5 sent to
key 3, and the compact action is decrypted with this key. -/
example : ∃ (a : Address) (c : CompactAction) (note : Note), note.value.inner = 5 ∧
    fakeCompactAction Examples.P0 [default] 7 a ⟨5⟩ none = .ret (some (c, note)) ∧
    tryCompactNoteDecryption Examples.P0 3 c = .ret (some (note, a)) := by
  obtain ⟨cm, -, hcm⟩ := Examples.noteCommit_P0
  rcases C99_fake_compact_action Examples.P0 genG_ne_zero [default] 7
      ⟨default, (3 : Fq) • diversifyHash Examples.P0 default⟩ ⟨5⟩ none with ⟨h, -⟩ | ⟨pre, s, rest, -, -, -, h⟩
  · have := h default (by simp)
    rw [Examples.esk_P0] at this
    exact absurd this one_ne_zero
  · rcases h with ⟨h, -⟩ | ⟨cm', c, -, h, -, -, h', -⟩
    · have : Spec.commitmentOf Examples.P0
          ⟨⟨default, (3 : Fq) • diversifyHash Examples.P0 default⟩, ⟨5⟩, 7, s⟩ = some cm := hcm _ _ _ _ _
      rw [this] at h; simp at h
    · exact ⟨_, c, _, rfl, h, h' 3 rfl⟩

end Orchard
