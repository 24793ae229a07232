import Verif.Props.Testing
import Verif.Lemmas.RedPallas

/-!
# Lemmas about generated actions and bundles
-/

namespace Orchard

open RedPallas Testing

theorem noteValue_ext {v w : NoteValue} (h : Spec.intValue v = w.inner.toNat) : v = w := by
  cases v; cases w
  simp only [Spec.intValue, Nat.cast_inj, UInt64.toNat_inj] at h
  rw [h]

theorem fakeCommitments_ret {P : Prims} {note : Note} {s o : NoteValue} {c : Fp × ValueCommitment} :
    fakeCommitments P note s o = .ret c ↔ ∃ cm, Spec.commitmentOf P note = some cm ∧
      c = (extractP cm, ⟨(((s.inner.toNat : ℤ) - (o.inner.toNat : ℤ) : ℤ) : Fq) •
        Constants.valueCommitV⟩) := by
  obtain ⟨v, h1, h2, h3⟩ := C01_sub_exact s o
  have hd := C03_derive v h3 ValueCommitTrapdoor.zero
  have hv : ValueCommitment.derive v ValueCommitTrapdoor.zero =
      some ⟨(((s.inner.toNat : ℤ) - (o.inner.toNat : ℤ) : ℤ) : Fq) • Constants.valueCommitV⟩ := by
    rw [hd, ← h2]
    unfold valueCommitSpec ValueCommitTrapdoor.zero
    simp
  unfold fakeCommitments
  rw [h1]
  simp only [Option.unwrapO, Outcome.ret_bind, hv, Outcome.pure_eq]
  rw [Outcome.bind_eq_ret]
  constructor
  · rintro ⟨cmx, h4, h5⟩
    unfold Note.cmx at h4
    rw [Outcome.bind_eq_ret] at h4
    obtain ⟨cm, h6, h7⟩ := h4
    simp only [Outcome.pure_eq, Outcome.ret.injEq] at h5 h7
    exact ⟨cm, commitment_eq_ret.1 h6, by rw [← h5, ← h7]⟩
  · rintro ⟨cm, h4, rfl⟩
    exact ⟨extractP cm, cmx_eq_ret h4, rfl⟩

theorem fakeCommitments_panic {P : Prims} {note : Note} {s o : NoteValue}
    (h : fakeCommitments P note s o = .panic) : Spec.commitmentOf P note = none := by
  cases hc : Spec.commitmentOf P note with
  | none => rfl
  | some cm =>
    rw [fakeCommitments_ret.2 ⟨cm, hc, rfl⟩] at h
    simp at h

theorem replicate_zero {n : ℕ} : ∀ x ∈ (Bytes.replicate n 0).toList, x = 0 := by
  intro x hx
  exact List.eq_of_mem_replicate hx

theorem fakeAction_mk {A : Type} {P : Prims} {G : Point} {s o : NoteValue} {note : Note} {c : Fp × ValueCommitment}
    (hn : .ret note ∈ arbNote P G o) (hc : fakeCommitments P note s o = .ret c) (nf : Fp)
    (rk : VerificationKey .spendAuth) (auth : A) :
    Spec.FakeAction P (s.inner.toNat, o.inner.toNat) ⟨nf, rk, c.1, zeroCiphertext, c.2, auth⟩ := by
  obtain ⟨h1, h2, -⟩ := ((C99_note P G o).1 note).1 hn
  obtain ⟨cm, h3, rfl⟩ := fakeCommitments_ret.1 hc
  exact ⟨⟨note, cm, by rw [h1]; rfl, h2, h3, rfl⟩, rfl, replicate_zero, replicate_zero, replicate_zero⟩

theorem yields_arbNullifier (G : Point) :
    Spec.Yields (arbNullifier G) fun nf => ∃ s : Fq, nf = extractP (s • G) := by
  refine Gen.yields_map Gen.yields_anything _ fun nf => ⟨?_, ?_⟩
  · rintro ⟨s, rfl⟩
    refine ⟨padded (Fq.toRepr s), trivial, ?_⟩
    unfold Fq.fromUniform
    rw [toNat_padded, Fq.toNat_toRepr, ZMod.natCast_zmod_val]
  · rintro ⟨b, -, rfl⟩; exact ⟨_, rfl⟩

theorem exceptional_of_note {P : Prims} {G : Point} {s o : NoteValue} {β : Type}
    {f : Note → Fp × ValueCommitment → Gen β} (hf : ∀ n c, .panic ∉ f n c)
    (h : .panic ∈ (do
      let note ← arbNote P G o
      let c ← Gen.run (fakeCommitments P note s o)
      f note c : Gen β)) : Spec.Exceptional P := by
  rw [Gen.panic_mem_bind] at h
  rcases h with h | ⟨note, h1, h⟩
  · exact Or.inl ((C99_note P G o).2 h)
  · rw [Gen.panic_mem_bind] at h
    rcases h with h | ⟨c, -, h⟩
    · exact Or.inr ⟨note, (((C99_note P G o).1 note).1 h1).2.1, fakeCommitments_panic
        (Gen.mem_run.1 h).symm⟩
    · exact absurd h (hf note c)

/-- Actions without authorisation. -/
theorem unauthorized_action (P : Prims) (G : Point) (s o : NoteValue) :
    (∀ a, .ret a ∈ arbUnauthorizedAction P G s o →
      Spec.FakeAction P (s.inner.toNat, o.inner.toNat) a) ∧
    (.panic ∈ arbUnauthorizedAction P G s o → Spec.Exceptional P) ∧
    ((∃ note, Spec.Generable P G o.inner.toNat note) → ∃ a, .ret a ∈ arbUnauthorizedAction P G s o) := by
  have hk := (C99_keys .spendAuth).2.2
  have e : ∀ x, x ∈ arbUnauthorizedAction P G s o ↔ ∃ nf, (∃ t : Fq, nf = extractP (t • G)) ∧
      ∃ rk : VerificationKey .spendAuth, (∃ t : Fq, rk.point = t • basepoint .spendAuth) ∧ x ∈ (do
        let note ← arbNote P G o
        let c ← Gen.run (fakeCommitments P note s o)
        pure ⟨nf, rk, c.1, zeroCiphertext, c.2, ()⟩ : Gen (Action Unit)) := by
    intro x
    unfold arbUnauthorizedAction
    rw [Gen.mem_bind_yields (yields_arbNullifier G)]
    simp only [Gen.mem_bind_yields hk]
  refine ⟨?_, ?_, ?_⟩
  · intro a ha
    rw [e] at ha
    obtain ⟨nf, -, rk, -, h⟩ := ha
    rw [Gen.ret_mem_bind] at h
    obtain ⟨note, h1, h⟩ := h
    rw [Gen.ret_mem_bind] at h
    obtain ⟨c, h2, h⟩ := h
    rw [Gen.mem_pure, Outcome.ret.injEq] at h
    rw [h]
    exact fakeAction_mk h1 (Gen.mem_run.1 h2).symm nf rk ()
  · intro h
    rw [e] at h
    obtain ⟨nf, -, rk, -, h⟩ := h
    exact exceptional_of_note (G := G) (o := o) (s := s)
      (f := fun _ c => pure (⟨nf, rk, c.1, zeroCiphertext, c.2, ()⟩ : Action Unit))
      (fun n c => by simp) h
  · rintro ⟨note, h0, h2, h3, cm, h4⟩
    have h1 : note.value = o := noteValue_ext h0
    refine ⟨⟨extractP ((0 : Fq) • G), ⟨(0 : Fq) • basepoint .spendAuth⟩, extractP cm, zeroCiphertext,
      ⟨(((s.inner.toNat : ℤ) - (o.inner.toNat : ℤ) : ℤ) : Fq) • Constants.valueCommitV⟩, ()⟩, ?_⟩
    rw [e]
    refine ⟨_, ⟨0, rfl⟩, _, ⟨0, rfl⟩, ?_⟩
    rw [Gen.ret_mem_bind]
    refine ⟨note, ((C99_note P G o).1 note).2 ⟨h1, h2, h3⟩, ?_⟩
    rw [Gen.ret_mem_bind]
    exact ⟨_, Gen.mem_run.2 (fakeCommitments_ret.2 ⟨cm, h4, rfl⟩).symm, by simp⟩

/-- Actions with a signature. -/
theorem authorized_action (P : Prims) (G : Point) (std : Bytes 32 → Bytes 80) (s o : NoteValue) :
    (∀ a, .ret a ∈ arbAction P G std s o →
      Spec.FakeAction P (s.inner.toNat, o.inner.toNat) a ∧
      ∃ sighash : Bytes 32, a.rk.verify P sighash.toList a.authorization = true) ∧
    (.panic ∈ arbAction P G std s o → Spec.Exceptional P) ∧
    ((∃ note, Spec.Generable P G o.inner.toNat note) → ∃ a, .ret a ∈ arbAction P G std s o) := by
  have hk := (C99_keys .spendAuth).2.1
  have hany := Gen.yields_anything (α := Bytes 32)
  have e : ∀ x, x ∈ arbAction P G std s o ↔ ∃ nf, (∃ t : Fq, nf = extractP (t • G)) ∧
      ∃ sk : SigningKey .spendAuth, x ∈ (do
        let note ← arbNote P G o
        let rngSeed ← Gen.anything (Bytes 32)
        let fakeSighash ← Gen.anything (Bytes 32)
        let c ← Gen.run (fakeCommitments P note s o)
        pure ⟨nf, sk.vk, c.1, zeroCiphertext, c.2, sk.sign P (std rngSeed) fakeSighash.toList⟩ :
          Gen (Action (Signature .spendAuth))) := by
    intro x
    unfold arbAction
    rw [Gen.mem_bind_yields (yields_arbNullifier G)]
    simp only [Gen.mem_bind_yields hk, true_and]
  refine ⟨?_, ?_, ?_⟩
  · intro a ha
    rw [e] at ha
    obtain ⟨nf, -, sk, h⟩ := ha
    rw [Gen.ret_mem_bind] at h
    obtain ⟨note, h1, h⟩ := h
    simp only [Gen.mem_bind_yields hany, true_and] at h
    obtain ⟨seed, sighash, h⟩ := h
    rw [Gen.ret_mem_bind] at h
    obtain ⟨c, h2, h⟩ := h
    rw [Gen.mem_pure, Outcome.ret.injEq] at h
    rw [h]
    exact ⟨fakeAction_mk h1 (Gen.mem_run.1 h2).symm nf _ _, sighash, verify_sign P sk _ _⟩
  · intro h
    rw [e] at h
    obtain ⟨nf, -, sk, h⟩ := h
    rw [Gen.panic_mem_bind] at h
    rcases h with h | ⟨note, h1, h⟩
    · exact Or.inl ((C99_note P G o).2 h)
    · simp only [Gen.mem_bind_yields hany, true_and] at h
      obtain ⟨seed, sighash, h⟩ := h
      refine exceptional_of_note (G := G) (o := o) (s := s) (f := fun _ c => pure (⟨nf, sk.vk, c.1,
        zeroCiphertext, c.2, sk.sign P (std seed) sighash.toList⟩ : Action (Signature .spendAuth)))
        (fun n c => by simp) ?_
      rw [Gen.panic_mem_bind]
      exact Or.inr ⟨note, h1, h⟩
  · rintro ⟨note, h0, h2, h3, cm, h4⟩
    have h1 : note.value = o := noteValue_ext h0
    refine ⟨⟨extractP ((0 : Fq) • G), (⟨0⟩ : SigningKey .spendAuth).vk, extractP cm, zeroCiphertext,
      ⟨(((s.inner.toNat : ℤ) - (o.inner.toNat : ℤ) : ℤ) : Fq) • Constants.valueCommitV⟩,
      (⟨0⟩ : SigningKey .spendAuth).sign P (std default) (default : Bytes 32).toList⟩, ?_⟩
    rw [e]
    refine ⟨_, ⟨0, rfl⟩, ⟨0⟩, ?_⟩
    rw [Gen.ret_mem_bind]
    refine ⟨note, ((C99_note P G o).1 note).2 ⟨h1, h2, h3⟩, ?_⟩
    simp only [Gen.mem_bind_yields hany, true_and]
    refine ⟨default, default, ?_⟩
    rw [Gen.ret_mem_bind]
    exact ⟨_, Gen.mem_run.2 (fakeCommitments_ret.2 ⟨cm, h4, rfl⟩).symm, by simp⟩

/-! ### Bundles -/

/-- The values that one of the value strategies yields. -/
def InRange (n : ℕ) (enabled : Bool) (v : NoteValue) : Prop :=
  n * (v.inner.toNat + 1) ≤ 2 ^ 64 - 1 ∧ (enabled = false → v.inner.toNat = 0)

theorem yields_valueGen {n : ℕ} (h0 : 0 < n) (h1 : n < 2 ^ 64) (e : Bool) :
    ∃ g, valueGen n e = .ret g ∧ Spec.Yields g (InRange n e) := by
  cases e with
  | true =>
    have hd : 0 < maxNoteValue / n := Nat.div_pos (by unfold maxNoteValue; omega) h0
    have hl : maxNoteValue / n < 2 ^ 64 :=
      lt_of_le_of_lt (Nat.div_le_self _ _) (by unfold maxNoteValue; omega)
    refine ⟨arbNoteValueBounded (maxNoteValue / n), ?_, ?_⟩
    · unfold valueGen maxDiv
      rw [if_pos rfl, if_neg (by omega)]; rfl
    · have h := C99_values.2.2.2.2.2.2.1 _ hl
      rw [if_pos hd] at h
      intro o
      rw [h]
      have : ∀ v : NoteValue, v.inner.toNat < maxNoteValue / n ↔ InRange n true v := by
        intro v
        unfold InRange
        rw [← Nat.succ_le_iff, Nat.le_div_iff_mul_le h0, mul_comm]
        simp [maxNoteValue]
      simp only [this]
  | false =>
    refine ⟨Gen.just NoteValue.zero, rfl, fun o => ?_⟩
    rw [Gen.mem_just]
    constructor
    · rintro rfl
      exact ⟨_, ⟨by simp [NoteValue.zero]; omega, fun _ => rfl⟩, rfl⟩
    · rintro ⟨v, ⟨-, h⟩, rfl⟩
      have := h rfl
      rw [noteValue_ext (v := v) (w := NoteValue.zero) (by unfold Spec.intValue; rw [this]; rfl)]

theorem arbActionN_spec {A : Type} (action : NoteValue → NoteValue → Gen (Action A)) {n : ℕ}
    (h0 : 0 < n) (h1 : n < 2 ^ 64) (flags : Flags) :
    ∃ g, arbActionN action n flags = .ret g ∧
      (∀ x, .ret x ∈ g ↔ ∃ s o : NoteValue, InRange n flags.spendsEnabled s ∧
        InRange n flags.outputsEnabled o ∧ .ret x.2 ∈ action s o ∧
        x.1 = ⟨(s.inner.toNat : ℤ) - o.inner.toNat⟩) ∧
      (.panic ∈ g → ∃ s o, .panic ∈ action s o) := by
  obtain ⟨gs, hs, ys⟩ := yields_valueGen h0 h1 flags.spendsEnabled
  obtain ⟨go, ho, yo⟩ := yields_valueGen h0 h1 flags.outputsEnabled
  have e : ∀ x, x ∈ (do
      let spendValue ← gs
      let outputValueGen ← Gen.run (valueGen n flags.outputsEnabled)
      let outputValue ← outputValueGen
      let a ← action spendValue outputValue
      Gen.run do
        let v ← Option.unwrapO (NoteValue.sub spendValue outputValue)
        pure (v, a) : Gen (ValueSum × Action A)) ↔ ∃ s, InRange n flags.spendsEnabled s ∧ ∃ o,
          InRange n flags.outputsEnabled o ∧ x ∈ (do
            let a ← action s o
            pure ((⟨(s.inner.toNat : ℤ) - o.inner.toNat⟩ : ValueSum), a)) := by
    intro x
    have hr : Spec.Yields (Gen.run (valueGen n flags.outputsEnabled)) fun g => g = go := by
      intro o; rw [Gen.mem_run, ho]; simp
    simp only [Gen.mem_bind_yields ys, Gen.mem_bind_yields hr, exists_eq_left,
      Gen.mem_bind_yields yo, NoteValue.sub_eq, Option.unwrapO, Outcome.ret_bind]
    rfl
  have hg : ∃ g, arbActionN action n flags = .ret g ∧ ∀ x, x ∈ g ↔ ∃ s,
      InRange n flags.spendsEnabled s ∧ ∃ o, InRange n flags.outputsEnabled o ∧ x ∈ (do
            let a ← action s o
            pure ((⟨(s.inner.toNat : ℤ) - o.inner.toNat⟩ : ValueSum), a)) := by
    refine ⟨_, ?_, e⟩
    unfold arbActionN
    rw [hs]; rfl
  obtain ⟨g, hg, e⟩ := hg
  refine ⟨g, hg, ?_, ?_⟩
  · intro x
    rw [e]
    constructor
    · rintro ⟨s, hs, o, ho, h⟩
      rw [Gen.ret_mem_bind] at h
      obtain ⟨a, h2, h3⟩ := h
      rw [Gen.mem_pure, Outcome.ret.injEq] at h3
      rw [h3]
      exact ⟨s, o, hs, ho, h2, rfl⟩
    · rintro ⟨s, o, hs, ho, h2, h3⟩
      refine ⟨s, hs, o, ho, ?_⟩
      rw [Gen.ret_mem_bind]
      refine ⟨x.2, h2, ?_⟩
      rw [Gen.mem_pure, ← h3]
  · intro h
    rw [e] at h
    obtain ⟨s, -, o, -, h⟩ := h
    rw [Gen.panic_mem_bind] at h
    rcases h with h | ⟨a, -, h⟩
    · exact ⟨s, o, h⟩
    · simp at h

/-- One generated action with its pair of values. -/
structure Drawn {A : Type} (P : Prims) (n : ℕ) (flags : Flags) (v : ℕ × ℕ) (x : ValueSum × Action A) :
    Prop where
  spend : n * (v.1 + 1) ≤ 2 ^ 64 - 1
  output : n * (v.2 + 1) ≤ 2 ^ 64 - 1
  spend0 : flags.spendsEnabled = false → v.1 = 0
  output0 : flags.outputsEnabled = false → v.2 = 0
  fake : Spec.FakeAction P v x.2
  value : x.1.inner = (v.1 : ℤ) - v.2

theorem exists_forall₂ {α β : Type} {R : α → β → Prop} (l : List β) (h : ∀ x ∈ l, ∃ v, R v x) :
    ∃ vs, List.Forall₂ R vs l := by
  induction l with
  | nil => exact ⟨[], .nil⟩
  | cons x l ih =>
    obtain ⟨vs, h1⟩ := ih fun y hy => h y (by simp [hy])
    obtain ⟨v, h2⟩ := h x (by simp)
    exact ⟨v :: vs, .cons h2 h1⟩

theorem exists_forall₂' {α β : Type} {R : α → β → Prop} (l : List α) (h : ∀ x ∈ l, ∃ v, R x v) :
    ∃ vs, List.Forall₂ R l vs := by
  obtain ⟨vs, h⟩ := exists_forall₂ (R := fun v x => R x v) l h
  exact ⟨vs, h.flip⟩

theorem forall₂_left {α β : Type} {R : α → β → Prop} {p : α → Prop} {l : List α} {m : List β}
    (h : List.Forall₂ R l m) (hp : ∀ a b, R a b → p a) : ∀ a ∈ l, p a := by
  induction h with
  | nil => simp
  | cons h _ ih => simp only [List.mem_cons, forall_eq_or_imp]; exact ⟨hp _ _ h, ih⟩

theorem sum_sub (vs : List (ℕ × ℕ)) : (vs.map fun v => (v.1 : ℤ) - v.2).sum =
    (vs.map fun v => (v.1 : ℤ)).sum - (vs.map fun v => (v.2 : ℤ)).sum := by
  induction vs with
  | nil => simp
  | cons v vs ih => simp only [List.map_cons, List.sum_cons, ih]; ring

theorem sum_bounds {c : ℕ} (vs : List (ℕ × ℕ)) (h : ∀ v ∈ vs, v.1 ≤ c ∧ v.2 ≤ c) :
    -((vs.length * c : ℕ) : ℤ) ≤ (vs.map fun v => (v.1 : ℤ) - v.2).sum ∧
      (vs.map fun v => (v.1 : ℤ) - v.2).sum ≤ ((vs.length * c : ℕ) : ℤ) := by
  induction vs with
  | nil => simp
  | cons v vs ih =>
    obtain ⟨h1, h2⟩ := ih fun x hx => h x (by simp [hx])
    obtain ⟨h3, h4⟩ := h v (by simp)
    simp only [List.map_cons, List.sum_cons, List.length_cons]
    push_cast at *
    constructor <;> nlinarith

theorem drawn_bundle {T A : Type} {P : Prims} {n : ℕ} {flags : Flags} {vs : List (ℕ × ℕ)}
    {acts : List (ValueSum × Action A)} (h0 : 0 < n) (hl : acts.length = n)
    (h : List.Forall₂ (Drawn P n flags) vs acts) (anchor : Fp) (auth : T) :
    ∃ b, bundleOf acts flags anchor auth = .ret b ∧ b.actions = acts.map Prod.snd ∧
      b.flags = flags ∧ b.anchor = anchor ∧ b.authorization = auth ∧ Spec.FakeBundle P n vs b := by
  have hlen := h.length_eq
  have hv : Spec.FakeValues n flags vs := ⟨by omega,
    forall₂_left h fun a b hd => ⟨hd.spend, hd.output⟩,
    fun hf => forall₂_left h fun a b hd => hd.spend0 hf,
    fun hf => forall₂_left h fun a b hd => hd.output0 hf⟩
  have hbal : (acts.map Prod.fst).map ValueSum.inner = vs.map fun v => (v.1 : ℤ) - v.2 := by
    clear hlen hv hl
    induction h with
    | nil => rfl
    | cons h _ ih => simp only [List.map_cons, ih, h.value]
  have hfa : List.Forall₂ (Spec.FakeAction P) vs (acts.map Prod.snd) := by
    rw [List.forall₂_map_right_iff]
    exact h.imp fun a b hd => hd.fake
  have hne : acts.map Prod.snd ≠ [] := by
    intro h
    rw [List.map_eq_nil_iff] at h
    rw [h] at hl; simp at hl; omega
  have hsum := (C01_sum_exact (acts.map Prod.fst)).1 (by
    intro k hk
    rw [List.map_take, hbal, ← List.map_take]
    have hb := sum_bounds (c := (2 ^ 64 - 1) / n) (vs.take k) (fun v hv' => by
      obtain ⟨h1, h2⟩ := hv.bounded v (List.mem_of_mem_take hv')
      rw [Nat.le_div_iff_mul_le h0, Nat.le_div_iff_mul_le h0]
      constructor <;> nlinarith)
    have h3 : (vs.take k).length * ((2 ^ 64 - 1) / n) ≤ 2 ^ 64 - 1 := by
      calc (vs.take k).length * ((2 ^ 64 - 1) / n) ≤ n * ((2 ^ 64 - 1) / n) := by
            refine Nat.mul_le_mul_right _ ?_
            rw [List.length_take]; omega
        _ ≤ 2 ^ 64 - 1 := Nat.mul_div_le _ _
    have h4 : (((vs.take k).length * ((2 ^ 64 - 1) / n) : ℕ) : ℤ) ≤ 2 ^ 64 - 1 := by
      have := Int.ofNat_le.2 h3
      norm_num at this ⊢
      omega
    unfold ValueInRange
    constructor <;> omega)
  refine ⟨⟨acts.map Prod.snd, hne, flags, ⟨((acts.map Prod.fst).map ValueSum.inner).sum⟩, anchor, auth⟩,
    ?_, rfl, rfl, rfl, rfl, hv, hfa, ?_⟩
  · unfold bundleOf sumUnwrap
    rw [dif_pos hne, hsum]; rfl
  · show ((acts.map Prod.fst).map ValueSum.inner).sum = _
    rw [hbal, sum_sub]

/-- The list of actions drawn for a bundle. -/
theorem drawn_actions {A : Type} {P : Prims} {G : Point} {Q : Action A → Prop}
    {action : NoteValue → NoteValue → Gen (Action A)} {n : ℕ} (h0 : 0 < n) (h1 : n < 2 ^ 64)
    (flags : Flags)
    (hr : ∀ s o a, .ret a ∈ action s o → Spec.FakeAction P (s.inner.toNat, o.inner.toNat) a ∧ Q a)
    (hp : ∀ s o, .panic ∈ action s o → Spec.Exceptional P)
    (hc : ∀ s o, (∃ note, Spec.Generable P G o.inner.toNat note) → ∃ a, .ret a ∈ action s o) :
    ∃ g, arbActionN action n flags = .ret g ∧
      (∀ acts, .ret acts ∈ Gen.vec g n → acts.length = n ∧ (∃ vs, List.Forall₂ (Drawn P n flags) vs acts) ∧
        ∀ x ∈ acts, Q x.2) ∧
      (.panic ∈ Gen.vec g n → Spec.Exceptional P) ∧
      ∀ vs, Spec.FakeValues n flags vs → (∀ v ∈ vs, ∃ note, Spec.Generable P G v.2 note) →
        ∃ acts, .ret acts ∈ Gen.vec g n ∧ acts.length = n ∧ List.Forall₂ (Drawn P n flags) vs acts := by
  obtain ⟨g, h2, h3, h4⟩ := arbActionN_spec action h0 h1 flags
  refine ⟨g, h2, ?_, ?_, ?_⟩
  · intro acts ha
    rw [Gen.ret_mem_vec] at ha
    refine ⟨ha.1, exists_forall₂ _ fun x hx => ?_, fun x hx => ?_⟩
    · obtain ⟨s, o, hs, ho, hx', hv⟩ := (h3 x).1 (ha.2 x hx)
      exact ⟨(s.inner.toNat, o.inner.toNat), hs.1, ho.1, hs.2, ho.2, (hr s o _ hx').1, by rw [hv]⟩
    · obtain ⟨s, o, -, -, hx', -⟩ := (h3 x).1 (ha.2 x hx)
      exact (hr s o _ hx').2
  · intro h
    obtain ⟨s, o, h⟩ := h4 (Gen.panic_mem_vec h)
    exact hp s o h
  · intro vs hv hgen
    obtain ⟨acts, ha⟩ := exists_forall₂' (R := fun v x => Drawn P n flags v x ∧ .ret x ∈ g) vs (by
      intro v hvm
      obtain ⟨hb1, hb2⟩ := hv.bounded v hvm
      have l1 : v.1 < 2 ^ 64 := by
        have := Nat.le_mul_of_pos_left (v.1 + 1) h0
        omega
      have l2 : v.2 < 2 ^ 64 := by
        have := Nat.le_mul_of_pos_left (v.2 + 1) h0
        omega
      have e1 : (UInt64.ofNat v.1).toNat = v.1 := by
        rw [UInt64.toNat_ofNat']; exact Nat.mod_eq_of_lt l1
      have e2 : (UInt64.ofNat v.2).toNat = v.2 := by
        rw [UInt64.toNat_ofNat']; exact Nat.mod_eq_of_lt l2
      obtain ⟨a, ha⟩ := hc ⟨UInt64.ofNat v.1⟩ ⟨UInt64.ofNat v.2⟩ (by
        simp only [e2]; exact hgen v hvm)
      have hf := (hr _ _ a ha).1
      simp only [e1, e2] at hf
      refine ⟨(⟨(v.1 : ℤ) - v.2⟩, a), ⟨hb1, hb2, fun hf => hv.spends hf v hvm,
        fun hf => hv.outputs hf v hvm, hf, rfl⟩, (h3 _).2 ⟨_, _, ⟨?_, ?_⟩, ⟨?_, ?_⟩, ha, ?_⟩⟩
      · simp only [e1]; exact hb1
      · simp only [e1]; exact fun hf => hv.spends hf v hvm
      · simp only [e2]; exact hb2
      · simp only [e2]; exact fun hf => hv.outputs hf v hvm
      · simp only [e1, e2])
    have hl : acts.length = n := by rw [← ha.length_eq, hv.length]
    refine ⟨acts, Gen.ret_mem_vec.2 ⟨hl, ?_⟩, hl, ha.imp fun _ _ h => h.1⟩
    exact forall₂_left ha.flip fun _ _ h => h.2

theorem yields_arbFlags : Spec.Yields arbFlags fun _ => True := by
  intro o
  unfold arbFlags
  simp only [Gen.mem_bind_yields Gen.yields_anything, true_and, Gen.mem_pure]
  constructor
  · rintro ⟨a, b, h⟩; exact ⟨_, h⟩
  · rintro ⟨⟨a, b⟩, h⟩; exact ⟨a, b, h⟩

theorem zero_actions {A β : Type} (action : NoteValue → NoteValue → Gen (Action A)) (flags : Flags)
    {f : List (ValueSum × Action A) → Gen β} (hf : Spec.AlwaysPanics (f [])) :
    Spec.AlwaysPanics (do
      let g ← Gen.run (arbActionN action 0 flags)
      let acts ← Gen.vec g 0
      f acts) := by
  intro o
  rw [Gen.mem_bind]
  simp only [Gen.mem_run]
  cases hn : arbActionN action 0 flags with
  | panic => simp
  | ret g =>
    simp only [reduceCtorEq, false_and, false_or, Outcome.ret.injEq, exists_eq_left, Gen.vec]
    rw [Gen.mem_bind]
    simp only [Gen.mem_pure, reduceCtorEq, false_and, false_or, Outcome.ret.injEq, exists_eq_left]
    exact hf o

theorem alwaysPanics_bind {α β : Type} {s : Gen α} {p : α → Prop} (hs : Spec.Yields s p)
    (hp : ∃ a, p a) {f : α → Gen β} (hf : ∀ a, Spec.AlwaysPanics (f a)) :
    Spec.AlwaysPanics (s >>= f) := by
  intro o
  rw [Gen.mem_bind_yields hs]
  constructor
  · rintro ⟨a, -, h⟩; exact (hf a o).1 h
  · intro h
    obtain ⟨a, ha⟩ := hp
    exact ⟨a, ha, (hf a o).2 h⟩

end Orchard
