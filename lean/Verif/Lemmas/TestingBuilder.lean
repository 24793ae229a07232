import Verif.Lemmas.TestingBundle
import Verif.Props.EndToEnd

/-!
# Lemmas about the inputs of generated bundles
-/

namespace Orchard

open RedPallas Testing

theorem frontierNode_eq (P : Prims) (leaves : List Fp) : ∀ h i, h ≤ 32 →
    frontierNode P leaves h i = .ret (Spec.node P (Spec.padLeaves leaves) h i) := by
  intro h
  induction h with
  | zero => intro i _; rfl
  | succ h ih =>
    intro i hh
    have h8 : (UInt8.ofNat h).toNat = h := by rw [UInt8.toNat_ofNat']; omega
    rw [frontierNode, ih _ (by omega), ih _ (by omega), Outcome.ret_bind, Outcome.ret_bind,
      merkleCombine_eq, h8]
    rfl

theorem frontierRoot_eq (P : Prims) (leaves : List Fp) :
    frontierRoot P leaves = .ret (Spec.treeRoot P leaves) :=
  frontierNode_eq P leaves 32 0 le_rfl

theorem frontierWitness_eq (P : Prims) (leaves : List Fp) (hl : leaves.length ≤ 2 ^ 32) :
    ∃ path, frontierWitness P leaves = .ret path ∧ Spec.IsPathIn P leaves (leaves.length - 1) path := by
  have hm := Outcome.mapM_of_ret (f := fun l => frontierNode P leaves l
      (if (leaves.length - 1) / 2 ^ l % 2 = 0 then (leaves.length - 1) / 2 ^ l + 1
        else (leaves.length - 1) / 2 ^ l - 1))
    (g := fun l => Spec.node P (Spec.padLeaves leaves) l (Spec.sibling ((leaves.length - 1) / 2 ^ l)))
    (l := List.range 32) (fun l hl => by
      rw [List.mem_range] at hl
      exact frontierNode_eq P leaves l _ (by omega))
  have hlen : ((List.range 32).map fun l => Spec.node P (Spec.padLeaves leaves) l
      (Spec.sibling ((leaves.length - 1) / 2 ^ l))).length = Constants.MERKLE_DEPTH := by
    rw [List.length_map, List.length_range]; rfl
  refine ⟨⟨UInt32.ofNat (leaves.length - 1), _, hlen⟩, ?_, ?_, rfl⟩
  · unfold frontierWitness
    refine (congrArg (· >>= _) hm).trans ?_
    rw [Outcome.ret_bind, dif_pos hlen]; rfl
  · show (UInt32.ofNat (leaves.length - 1)).toNat = _
    rw [UInt32.toNat_ofNat']
    exact Nat.mod_eq_of_lt (by omega)

theorem pathIn_root {P : Prims} {leaves : List Fp} {pos : ℕ} {path : MerklePath}
    (h : Spec.IsPathIn P leaves pos path) :
    path.root P (Spec.padLeaves leaves pos) = .ret (Spec.treeRoot P leaves) := by
  have := C45_path_authenticates P (Spec.padLeaves leaves) path (by
    intro l hl
    simp only [h.2, List.getElem_map, List.getElem_range, h.1])
  rw [h.1] at this
  exact this

theorem appendNotes_spec (P : Prims) : ∀ (notes : List Note) (leaves : List Fp)
    (acc : List (Note × MerklePath)) (cmxs : List Fp),
    List.Forall₂ (fun n c => ∃ cm, Spec.commitmentOf P n = some cm ∧ c = extractP cm) notes cmxs →
    leaves.length + notes.length ≤ 2 ^ 32 →
    ∃ new, appendNotes P leaves acc notes = .ret (leaves ++ cmxs, acc ++ new) ∧
      new.map Prod.fst = notes ∧ ∀ i p, new[i]? = some p →
        Spec.IsPathIn P (leaves ++ cmxs.take (i + 1)) (leaves.length + i) p.2 := by
  intro notes
  induction notes with
  | nil =>
    intro leaves acc cmxs h _
    cases h
    exact ⟨[], by simp [appendNotes], rfl, by simp⟩
  | cons n notes ih =>
    intro leaves acc cmxs h hl
    cases h with
    | cons h1 h2 =>
      rename_i c cmxs
      obtain ⟨cm, hcm, rfl⟩ := h1
      rw [List.length_cons] at hl
      obtain ⟨path, e1, e2⟩ := frontierWitness_eq P (leaves ++ [extractP cm])
        (by rw [List.length_append, List.length_singleton]; omega)
      obtain ⟨new, e3, e4, e5⟩ := ih (leaves ++ [extractP cm]) (acc ++ [(n, path)]) cmxs h2
        (by rw [List.length_append, List.length_singleton]; omega)
      refine ⟨(n, path) :: new, ?_, by simp [e4], ?_⟩
      · rw [appendNotes, cmx_eq_ret hcm, Outcome.ret_bind]
        simp only [e1, Outcome.ret_bind, e3, List.append_assoc, List.singleton_append]
      · intro i p hp
        cases i with
        | zero =>
          simp only [List.getElem?_cons_zero, Option.some.injEq] at hp
          rw [← hp]
          rw [List.length_append, List.length_singleton, Nat.add_sub_cancel] at e2
          simpa using e2
        | succ i =>
          rw [List.getElem?_cons_succ] at hp
          have := e5 i p hp
          rw [List.length_append, List.length_singleton, List.append_assoc, List.singleton_append,
            show leaves.length + 1 + i = leaves.length + (i + 1) by omega] at this
          simpa using this

theorem appendNotes_ret (P : Prims) : ∀ (notes : List Note) (leaves : List Fp)
    (acc : List (Note × MerklePath)) (r), appendNotes P leaves acc notes = .ret r →
    ∃ cmxs, List.Forall₂ (fun n c => ∃ cm, Spec.commitmentOf P n = some cm ∧ c = extractP cm)
      notes cmxs := by
  intro notes
  induction notes with
  | nil => intro _ _ _ _; exact ⟨[], .nil⟩
  | cons n notes ih =>
    intro leaves acc r h
    rw [appendNotes, Outcome.bind_eq_ret] at h
    obtain ⟨c, h1, h⟩ := h
    simp only [Outcome.bind_eq_ret] at h
    obtain ⟨path, -, h⟩ := h
    obtain ⟨cmxs, h2⟩ := ih _ _ _ h
    unfold Note.cmx at h1
    rw [Outcome.bind_eq_ret] at h1
    obtain ⟨cm, h3, h4⟩ := h1
    rw [Outcome.pure_eq, Outcome.ret.injEq] at h4
    exact ⟨c :: cmxs, .cons ⟨cm, commitment_eq_ret.1 h3, h4.symm⟩ h2⟩

/-- The inputs made from the drawn notes and outputs. -/
theorem makeInputs {P : Prims} {sk : SpendingKey} {seed : Bytes 32} {notes : List Note}
    {outputs : List (Address × NoteValue)} (hl : notes.length ≤ 2 ^ 32) (o : Outcome ArbitraryBundleInputs)
    (ho : o = (do
      let x ← appendNotes P [] [] notes
      let anchor ← frontierRoot P x.1
      pure ⟨seed, sk, anchor, x.2, outputs⟩)) :
    (∀ x, o = .ret x → Spec.InputsOf P sk seed notes outputs x) ∧
    ((∀ n ∈ notes, ∃ cm, Spec.commitmentOf P n = some cm) → ∃ x, o = .ret x) ∧
    (o = .panic → ∃ n ∈ notes, Spec.commitmentOf P n = none) := by
  have key : ∀ cmxs, List.Forall₂ (fun n c => ∃ cm, Spec.commitmentOf P n = some cm ∧ c = extractP cm)
      notes cmxs → ∃ x, o = .ret x ∧ Spec.InputsOf P sk seed notes outputs x := by
    intro cmxs h
    obtain ⟨new, e1, e2, e3⟩ := appendNotes_spec P notes [] [] cmxs h (by simpa using hl)
    simp only [List.nil_append] at e1
    refine ⟨⟨seed, sk, Spec.treeRoot P cmxs, new, outputs⟩, ?_, rfl, rfl, rfl, e2, cmxs, h, rfl, ?_⟩
    · rw [ho, e1, Outcome.ret_bind]
      simp only [frontierRoot_eq, Outcome.ret_bind]
      rfl
    · intro i p hp
      have := e3 i p hp
      simpa using this
  have hall : (∀ n ∈ notes, ∃ cm, Spec.commitmentOf P n = some cm) → ∃ x, o = .ret x := by
    intro h
    obtain ⟨cmxs, hc⟩ := exists_forall₂' (R := fun n c => ∃ cm, Spec.commitmentOf P n = some cm ∧
      c = extractP cm) notes (fun n hn => by
        obtain ⟨cm, hcm⟩ := h n hn
        exact ⟨extractP cm, cm, hcm, rfl⟩)
    obtain ⟨x, hx, -⟩ := key cmxs hc
    exact ⟨x, hx⟩
  refine ⟨?_, hall, ?_⟩
  · intro x hx
    have hx' := hx
    rw [ho, Outcome.bind_eq_ret] at hx
    obtain ⟨r, hr, -⟩ := hx
    obtain ⟨cmxs, hc⟩ := appendNotes_ret P notes [] [] r hr
    obtain ⟨x', h1, h2⟩ := key cmxs hc
    rw [hx', Outcome.ret.injEq] at h1
    rw [h1]; exact h2
  · intro hp
    by_contra hn
    obtain ⟨x, hx⟩ := hall (fun n hm => by
      cases hc : Spec.commitmentOf P n with
      | none => exact absurd ⟨n, hm, hc⟩ hn
      | some cm => exact ⟨cm, rfl⟩)
    rw [hx] at hp; simp at hp

/-! ### Adding spends and outputs -/

theorem addSpends_spec {P : Prims} {fvk : FullViewingKey}
    (hv : Spec.ValidFvk P fvk.ak.point fvk.nk fvk.rivk) : ∀ (l : List (Note × MerklePath)) (b : Builder),
    b.bundleType = BundleType.DEFAULT → (∀ p ∈ l, ∃ cm, Spec.commitmentOf P p.1 = some cm) →
    (∀ p ∈ l, 0 < p.1.value.inner.toNat) →
    ((∀ p ∈ l, (∃ scope, Spec.OwnedInScope P fvk scope p.1.recipient) ∧
        ∃ cm, Spec.commitmentOf P p.1 = some cm ∧
          Spec.PathRoot P p.2.position.toNat p.2.authPath (extractP cm) b.anchor) ∧
      ∃ ss, addSpends P fvk b l = .ret ⟨b.spends ++ ss, b.outputs, b.bundleType, b.anchor⟩ ∧
        ss.map (fun s => (s.note, s.merklePath)) = l ∧
        ∀ s ∈ ss, Spec.Requestable P s ∧ s.fvk = fvk) ∨
    ((¬ ∀ p ∈ l, (∃ scope, Spec.OwnedInScope P fvk scope p.1.recipient) ∧
        ∃ cm, Spec.commitmentOf P p.1 = some cm ∧
          Spec.PathRoot P p.2.position.toNat p.2.authPath (extractP cm) b.anchor) ∧
      addSpends P fvk b l = .panic) := by
  intro l
  induction l with
  | nil => intro b _ _ _; exact Or.inl ⟨by simp, [], by simp [addSpends]⟩
  | cons x l ih =>
    intro b hty hc hp
    obtain ⟨r, b', e1, -, -, -, e2, -, e3⟩ := C06_add_spend P b fvk x.1 x.2 hv (hc x (by simp))
    have hval : ¬ Spec.intValue x.1.value = 0 := by
      have := hp x (by simp)
      unfold Spec.intValue
      omega
    have hfl : b.bundleType.flags.spendsEnabled = true := by rw [hty]; rfl
    simp only [hval, false_or, hfl, true_and] at e2
    have e0 : addSpends P fvk b (x :: l) = (do
        unwrapResult r
        addSpends P fvk b' l) := by
      rw [addSpends, e1, Outcome.ret_bind]
    by_cases hr : r = .ok ()
    · obtain ⟨scope, h1, -, h2⟩ := e3 hr
      have hg := e2.1 hr
      have e0' : addSpends P fvk b (x :: l) = addSpends P fvk b' l := by
        rw [e0, hr]; rfl
      have ih' := ih b' (by rw [h2]; exact hty) (fun p hm => hc p (by simp [hm]))
        (fun p hm => hp p (by simp [hm]))
      rw [e0']
      rw [h2] at ih'
      rw [h2]
      simp only at ih'
      rcases ih' with ⟨h3, ss, h4, h5, h6⟩ | ⟨h3, h4⟩
      · refine Or.inl ⟨?_, ⟨none, fvk, scope, x.1, x.2⟩ :: ss, ?_, by simp [h5], ?_⟩
        · simp only [List.mem_cons, forall_eq_or_imp]
          exact ⟨hg, h3⟩
        · rw [h4]; simp
        · intro s hs
          rcases List.mem_cons.1 hs with rfl | hs
          · exact ⟨⟨rfl, hv, h1, hc x (by simp)⟩, rfl⟩
          · exact h6 s hs
      · refine Or.inr ⟨fun h => h3 fun p hm => h p (by simp [hm]), h4⟩
    · refine Or.inr ⟨fun h => hr (e2.2 (h x (by simp))), ?_⟩
      rw [e0]
      cases r with
      | ok u => exact absurd rfl hr
      | error e => rfl

theorem toOvk_ret {P : Prims} {fvk : FullViewingKey}
    (hv : Spec.ValidFvk P fvk.ak.point fvk.nk fvk.rivk) (scope : Scope) :
    ∃ ovk, fvk.toOvk P scope = .ret ovk := by
  cases scope with
  | external => exact ⟨_, rfl⟩
  | internal =>
    obtain ⟨-, hs, -⟩ := validFvk_iff.1 hv
    unfold FullViewingKey.toOvk
    rw [deriveInternal_eq hs]
    exact ⟨_, rfl⟩

theorem addOutputs_spec {P : Prims} {fvk : FullViewingKey}
    (hv : Spec.ValidFvk P fvk.ak.point fvk.nk fvk.rivk) : ∀ (l : List (Address × NoteValue)) (b : Builder),
    b.bundleType = BundleType.DEFAULT →
    ((∀ p ∈ l, ∃ scope, Spec.OwnedInScope P fvk scope p.1) ∧
      ∃ os : List OutputInfo,
        addOutputs P fvk b l = .ret ⟨b.spends, b.outputs ++ os, b.bundleType, b.anchor⟩ ∧
        os.map (fun o => (o.recipient, o.value)) = l) ∨
    ((¬ ∀ p ∈ l, ∃ scope, Spec.OwnedInScope P fvk scope p.1) ∧ addOutputs P fvk b l = .panic) := by
  intro l
  induction l with
  | nil => intro b _; exact Or.inl ⟨by simp, [], by simp [addOutputs]⟩
  | cons x l ih =>
    intro b hty
    obtain ⟨ext, int, r, e1, e2, e3, h1, h2, h3⟩ := C34_scope_for_address P fvk hv x.1
    have hown : r ≠ none ↔ ∃ scope, Spec.OwnedInScope P fvk scope x.1 := by
      rw [Ne, h3, ownedInScope_iff hv e2, ownedInScope_iff hv e1]
      constructor
      · intro h
        by_contra hn
        exact h ⟨fun h => hn ⟨_, h⟩, fun h => hn ⟨_, h⟩⟩
      · rintro ⟨scope, h⟩ ⟨h4, h5⟩
        cases scope
        · exact h5 h
        · exact h4 h
    cases r with
    | none =>
      refine Or.inr ⟨fun h => hown.2 (h x (by simp)) rfl, ?_⟩
      rw [addOutputs, e3, Outcome.ret_bind]; rfl
    | some scope =>
      obtain ⟨ovk, ho⟩ := toOvk_ret hv scope
      have hfl : b.bundleType.flags.outputsEnabled = true := by rw [hty]; rfl
      obtain ⟨o, -, g1, g2, -, g3⟩ := (C06_add_output b (some ovk) x.1 x.2 none).2 hfl
      have e0 : addOutputs P fvk b (x :: l) =
          addOutputs P fvk ⟨b.spends, b.outputs ++ [o], b.bundleType, b.anchor⟩ l := by
        rw [addOutputs, e3, Outcome.ret_bind]
        simp only [Option.unwrapO, Outcome.ret_bind, ho, g3]
        rfl
      rw [e0]
      rcases ih ⟨b.spends, b.outputs ++ [o], b.bundleType, b.anchor⟩ hty with ⟨h4, os, h5, h6⟩ | ⟨h4, h5⟩
      · refine Or.inl ⟨?_, o :: os, ?_, by simp [h6, g1, g2]⟩
        · simp only [List.mem_cons, forall_eq_or_imp]
          exact ⟨hown.1 (by simp), h4⟩
        · rw [h5]; simp
      · exact Or.inr ⟨fun h => h4 fun p hm => h p (by simp [hm]), h5⟩

/-! ### Drawing the inputs -/

theorem yields_positive {n : ℕ} (h0 : 0 < n) (h1 : n < 30) :
    Spec.Yields (Gen.run (maxDiv n) >>= fun m => arbPositiveNoteValue m)
      fun v => 0 < v.inner.toNat ∧ n * (v.inner.toNat + 1) ≤ 2 ^ 64 - 1 := by
  have hm : maxDiv n = .ret (maxNoteValue / n) := by
    unfold maxDiv; rw [if_neg (by omega)]
  have hb : 1 < maxNoteValue / n := by
    rw [Nat.lt_div_iff_mul_lt h0]; unfold maxNoteValue; omega
  have hl : maxNoteValue / n < 2 ^ 64 :=
    lt_of_le_of_lt (Nat.div_le_self _ _) (by unfold maxNoteValue; omega)
  have h := C99_values.2.2.2.2.2.2.2 _ hl
  rw [if_pos hb] at h
  intro o
  have hr : Spec.Yields (Gen.run (maxDiv n)) fun m => m = maxNoteValue / n := by
    intro o; rw [Gen.mem_run, hm]; simp
  rw [Gen.mem_bind_yields hr]
  simp only [exists_eq_left]
  rw [h]
  have : ∀ v : NoteValue, v.inner.toNat < maxNoteValue / n ↔ n * (v.inner.toNat + 1) ≤ 2 ^ 64 - 1 := by
    intro v
    rw [← Nat.succ_le_iff, Nat.le_div_iff_mul_le h0, mul_comm]
    rfl
  simp only [this]

theorem mem_inputNote {P : Prims} {G : Point} {n : ℕ} (h0 : 0 < n) (h1 : n < 30) {o : Outcome Note} :
    o ∈ (do
      let value ← arbPositiveNoteValue (← Gen.run (maxDiv n))
      arbNote P G value : Gen Note) ↔ ∃ v : NoteValue,
        (0 < v.inner.toNat ∧ n * (v.inner.toNat + 1) ≤ 2 ^ 64 - 1) ∧ o ∈ arbNote P G v := by
  have hy := yields_positive h0 h1
  have hr : Spec.Yields (Gen.run (maxDiv n)) fun m => m = maxNoteValue / n := by
    intro o; rw [Gen.mem_run]; unfold maxDiv; rw [if_neg (by omega)]; simp
  have hp : ∀ o, o ∈ arbPositiveNoteValue (maxNoteValue / n) ↔
      o ∈ (Gen.run (maxDiv n) >>= fun m => arbPositiveNoteValue m) := by
    intro o; rw [Gen.mem_bind_yields hr]; simp
  have hy' : Spec.Yields (arbPositiveNoteValue (maxNoteValue / n))
      fun v => 0 < v.inner.toNat ∧ n * (v.inner.toNat + 1) ≤ 2 ^ 64 - 1 := by
    intro o; rw [hp, hy]
  rw [Gen.mem_bind_yields hr]
  simp only [exists_eq_left]
  rw [Gen.mem_bind_yields hy']

theorem mem_inputOutput {P : Prims} {n : ℕ} (h0 : 0 < n) (h1 : n < 30)
    {o : Outcome (Address × NoteValue)} :
    o ∈ (do
      let a ← arbAddress P
      let v ← arbPositiveNoteValue (← Gen.run (maxDiv n))
      pure (a, v) : Gen (Address × NoteValue)) ↔
      (.panic ∈ arbAddress P ∧ o = .panic) ∨ ∃ p, o = .ret p ∧ .ret p.1 ∈ arbAddress P ∧
        (0 < p.2.inner.toNat ∧ n * (p.2.inner.toNat + 1) ≤ 2 ^ 64 - 1) := by
  have hr : Spec.Yields (Gen.run (maxDiv n)) fun m => m = maxNoteValue / n := by
    intro o; rw [Gen.mem_run]; unfold maxDiv; rw [if_neg (by omega)]; simp
  have hy' : Spec.Yields (arbPositiveNoteValue (maxNoteValue / n))
      fun v => 0 < v.inner.toNat ∧ n * (v.inner.toNat + 1) ≤ 2 ^ 64 - 1 := by
    intro o
    rw [← yields_positive h0 h1, Gen.mem_bind_yields hr]; simp
  rw [Gen.mem_bind]
  simp only [Gen.mem_bind_yields hr, exists_eq_left, Gen.mem_bind_yields hy', Gen.mem_pure]
  constructor
  · rintro (h | ⟨a, h2, v, h3, rfl⟩)
    · exact Or.inl h
    · exact Or.inr ⟨(a, v), rfl, h2, h3⟩
  · rintro (h | ⟨p, rfl, h2, h3⟩)
    · exact Or.inl h
    · exact Or.inr ⟨p.1, h2, p.2, h3, rfl⟩

theorem mem_arbBundleInputs {P : Prims} {G : Point} {sk : SpendingKey} {o : Outcome ArbitraryBundleInputs} :
    o ∈ arbBundleInputs P G sk ↔ ∃ n, (1 ≤ n ∧ n < 30) ∧ ∃ m, (1 ≤ m ∧ m < 30) ∧ o ∈ (do
      let notes ← Gen.vec (do
        let value ← arbPositiveNoteValue (← Gen.run (maxDiv n))
        arbNote P G value) n
      let outputAmounts ← Gen.vec (do
        let a ← arbAddress P
        let v ← arbPositiveNoteValue (← Gen.run (maxDiv m))
        pure (a, v)) m
      let rngSeed ← Gen.anything (Bytes 32)
      Gen.run do
        let x ← appendNotes P [] [] notes
        let anchor ← frontierRoot P x.1
        pure ⟨rngSeed, sk, anchor, x.2, outputAmounts⟩ : Gen ArbitraryBundleInputs) := by
  unfold arbBundleInputs
  simp only [Gen.mem_bind_yields (Gen.yields_range (show 1 < 30 by decide))]

theorem mem_notes {P : Prims} {G : Point} {n : ℕ} (h : 1 ≤ n ∧ n < 30) {notes : List Note} :
    .ret notes ∈ Gen.vec (do
        let value ← arbPositiveNoteValue (← Gen.run (maxDiv n))
        arbNote P G value : Gen Note) n ↔ notes.length = n ∧
      (∀ x ∈ notes, Spec.SomeAddress P x.recipient ∧ ∃ s : Fq, x.rho = extractP (s • G)) ∧
      Spec.ValuesOk (notes.map Note.value) := by
  rw [Gen.ret_mem_vec]
  simp only [mem_inputNote (P := P) (G := G) h.1 h.2, (C99_note P G _).1]
  unfold Spec.ValuesOk
  constructor
  · rintro ⟨rfl, h2⟩
    refine ⟨rfl, ?_, by simpa using h.1, by simpa using h.2, ?_⟩
    · intro x hx
      obtain ⟨v, -, -, h3⟩ := h2 x hx
      exact h3
    · intro v hv
      obtain ⟨x, hx, rfl⟩ := List.mem_map.1 hv
      obtain ⟨v, h3, h4, -⟩ := h2 x hx
      rw [h4, List.length_map]; exact h3
  · rintro ⟨rfl, h2, -, -, h3⟩
    refine ⟨rfl, fun x hx => ⟨x.value, ?_, rfl, h2 x hx⟩⟩
    have := h3 _ (List.mem_map_of_mem hx)
    rw [List.length_map] at this
    exact this

theorem mem_outputs {P : Prims} {n : ℕ} (h : 1 ≤ n ∧ n < 30) {outputs : List (Address × NoteValue)} :
    .ret outputs ∈ Gen.vec (do
        let a ← arbAddress P
        let v ← arbPositiveNoteValue (← Gen.run (maxDiv n))
        pure (a, v) : Gen (Address × NoteValue)) n ↔ outputs.length = n ∧
      (∀ x ∈ outputs, Spec.SomeAddress P x.1) ∧ Spec.ValuesOk (outputs.map Prod.snd) := by
  rw [Gen.ret_mem_vec]
  simp only [mem_inputOutput (P := P) h.1 h.2, (C99_address P).1, reduceCtorEq, and_false, false_or,
    Outcome.ret.injEq, exists_eq_left']
  unfold Spec.ValuesOk
  constructor
  · rintro ⟨rfl, h2⟩
    refine ⟨rfl, fun x hx => (h2 x hx).1, by simpa using h.1, by simpa using h.2, ?_⟩
    intro v hv
    obtain ⟨x, hx, rfl⟩ := List.mem_map.1 hv
    rw [List.length_map]; exact (h2 x hx).2
  · rintro ⟨rfl, h2, -, -, h3⟩
    refine ⟨rfl, fun x hx => ⟨h2 x hx, ?_⟩⟩
    have := h3 _ (List.mem_map_of_mem hx)
    rw [List.length_map] at this
    exact this

theorem total_le {vs : List NoteValue} (h : Spec.ValuesOk vs) : Spec.totalOf vs ≤ 2 ^ 64 - 1 := by
  obtain ⟨h0, -, h2⟩ := h
  have key : ∀ l : List NoteValue, (∀ v ∈ l, vs.length * (v.inner.toNat + 1) ≤ 2 ^ 64 - 1) →
      (vs.length : ℤ) * Spec.totalOf l ≤ l.length * (2 ^ 64 - 1) := by
    intro l
    induction l with
    | nil => intro _; simp [Spec.totalOf]
    | cons v l ih =>
      intro h
      have h3 := h v (by simp)
      have h4 := ih fun x hx => h x (by simp [hx])
      simp only [Spec.totalOf, List.map_cons, List.sum_cons, List.length_cons, Spec.intValue] at h4 ⊢
      have h5 : (vs.length : ℤ) * ((v.inner.toNat : ℤ) + 1) ≤ 2 ^ 64 - 1 := by
        have := Int.ofNat_le.2 h3
        push_cast at this
        norm_num at this ⊢
        exact this
      push_cast
      nlinarith
  have h3 := key vs fun v hv => (h2 v hv).2
  have h4 : (0 : ℤ) < vs.length := by exact_mod_cast h0
  exact le_of_mul_le_mul_left h3 h4

theorem second_leaf {P : Prims} {notes : List Note} {cmxs : List Fp}
    (hf : List.Forall₂ (fun n c => ∃ cm, Spec.commitmentOf P n = some cm ∧ c = extractP cm) notes cmxs)
    (h2 : 2 ≤ notes.length) :
    Spec.node P (Spec.padLeaves (cmxs.take 1)) 0 1 ≠ Spec.node P (Spec.padLeaves cmxs) 0 1 := by
  cases hf with
  | nil => simp at h2
  | cons _ hf =>
    cases hf with
    | nil => simp at h2
    | cons h _ =>
      obtain ⟨cm, -, rfl⟩ := h
      exact fun he => extractP_ne_two cm he.symm

/-- `into_bundle` after the builder was filled. -/
noncomputable def finishInto {V : Type} (P : Prims)
    (prover : List Circuit → List (List Fp) → Except ProofError (List UInt8)) (srng : SignRng)
    (sk : SpendingKey) (built : Option (UnauthorizedBundle V × BundleMetadata)) :
    Run Empty (AuthorizedBundle V) := do
  let u ← Run.ofOutcome (Option.unwrapO built)
  let proven ← unwrapRun (u.1.createProof prover)
  let prepared := proven.prepare P srng (Bytes.replicate 32 0)
  let ask ← Run.ofOutcome (SpendAuthorizingKey.ofSk P sk)
  let signed := prepared.1.sign P prepared.2 ask
  let r ← Run.ofOutcome signed.1.finalize
  Run.ofOutcome (unwrapResult r)

section

variable {V : Type} {P : Prims} {tryFrom : I64 → Option V}
  {prover : List Circuit → List (List Fp) → Except ProofError (List UInt8)} {draws : BuildDraws}
  {srng : SignRng} {x : ArbitraryBundleInputs}

theorem sk_spec {sk : SpendingKey} (h : Spec.ValidSk P sk.bytes) :
    FullViewingKey.ofSk P sk = .ret (Spec.fvkOf P sk.bytes) ∧
    ∃ ask : SpendAuthorizingKey, SpendAuthorizingKey.ofSk P sk = .ret ask ∧
      Spec.ak P sk.bytes = ask.s • Constants.spendAuthG := by
  have h1 : FullViewingKey.ofSk P sk = .ret (Spec.fvkOf P sk.bytes) := by
    rw [C29_full_viewing_key, if_neg h.1]; rfl
  refine ⟨h1, ?_⟩
  obtain ⟨ask, h2, -⟩ := askOfSk_spec (P := P) (sk := sk) h.1
  refine ⟨ask, h2, ?_⟩
  unfold FullViewingKey.ofSk at h1
  rw [h2] at h1
  simp only [Outcome.ret_bind, Outcome.pure_eq, Outcome.ret.injEq] at h1
  have := congrArg (fun k : FullViewingKey => k.ak.point) h1
  exact this.symm

theorem intoBundle_front (hsk : Spec.ValidSk P x.sk.bytes)
    (hc : ∀ p ∈ x.notes, ∃ cm, Spec.commitmentOf P p.1 = some cm)
    (hp : ∀ p ∈ x.notes, 0 < p.1.value.inner.toNat) :
    (((∀ p ∈ x.notes, (∃ scope, Spec.OwnedInScope P (Spec.fvkOf P x.sk.bytes) scope p.1.recipient) ∧
        ∃ cm, Spec.commitmentOf P p.1 = some cm ∧
          Spec.PathRoot P p.2.position.toNat p.2.authPath (extractP cm) x.anchor) ∧
      ∀ p ∈ x.outputAmounts, ∃ scope, Spec.OwnedInScope P (Spec.fvkOf P x.sk.bytes) scope p.1) ∧
      ∃ ss os, ss.map (fun s => (s.note, s.merklePath)) = x.notes ∧
        os.map (fun o => (o.recipient, o.value)) = x.outputAmounts ∧
        (∀ s ∈ ss, Spec.Requestable P s ∧ s.fvk = Spec.fvkOf P x.sk.bytes) ∧
        intoBundle P tryFrom prover draws srng x =
          unwrapRun (bundle P tryFrom draws x.anchor BundleType.DEFAULT ss os) >>=
            finishInto P prover srng x.sk) ∨
    (¬ ((∀ p ∈ x.notes, (∃ scope, Spec.OwnedInScope P (Spec.fvkOf P x.sk.bytes) scope p.1.recipient) ∧
        ∃ cm, Spec.commitmentOf P p.1 = some cm ∧
          Spec.PathRoot P p.2.position.toNat p.2.authPath (extractP cm) x.anchor) ∧
      ∀ p ∈ x.outputAmounts, ∃ scope, Spec.OwnedInScope P (Spec.fvkOf P x.sk.bytes) scope p.1) ∧
      intoBundle P tryFrom prover draws srng x = .panic) := by
  have hv : Spec.ValidFvk P (Spec.fvkOf P x.sk.bytes).ak.point (Spec.fvkOf P x.sk.bytes).nk
    (Spec.fvkOf P x.sk.bytes).rivk := hsk.2
  unfold intoBundle
  rw [(sk_spec hsk).1, Run.ofOutcome_ret, Run.ok_bind]
  rcases addSpends_spec hv x.notes (Builder.new BundleType.DEFAULT x.anchor) rfl hc hp with
    ⟨g1, ss, e1, g2, g3⟩ | ⟨g1, e1⟩
  · simp only [e1, Run.ofOutcome_ret, Run.ok_bind]
    rcases addOutputs_spec hv x.outputAmounts ⟨(Builder.new BundleType.DEFAULT x.anchor).spends ++ ss,
        (Builder.new BundleType.DEFAULT x.anchor).outputs, BundleType.DEFAULT, x.anchor⟩ rfl with
      ⟨k1, os, e2, k2⟩ | ⟨k1, e2⟩
    · refine Or.inl ⟨⟨g1, k1⟩, ss, os, g2, k2, g3, ?_⟩
      refine Eq.trans (congrArg (fun z => Run.ofOutcome z >>= _) e2) ?_
      rfl
    · refine Or.inr ⟨fun h => k1 h.2, ?_⟩
      refine Eq.trans (congrArg (fun z => Run.ofOutcome z >>= _) e2) ?_
      rfl
  · refine Or.inr ⟨fun h => g1 h.1, ?_⟩
    simp only [e1, Run.ofOutcome_panic, Run.panic_bind]

theorem finishInto_ok {sk : SpendingKey} {ask : SpendAuthorizingKey}
    (hask : SpendAuthorizingKey.ofSk P sk = .ret ask)
    {built : Option (UnauthorizedBundle V × BundleMetadata)} {b' : AuthorizedBundle V} :
    finishInto P prover srng sk built = .ok b' ↔ ∃ u b1, built = some u ∧
      u.1.createProof prover = .ok b1 ∧
      b1.applySignatures P srng (Bytes.replicate 32 0) [ask] = .ret (.ok b') := by
  unfold finishInto
  cases built with
  | none => simp [Option.unwrapO]
  | some u =>
    simp only [Option.unwrapO, Run.ofOutcome_ret, Run.ok_bind, hask, Option.some.injEq,
      exists_and_left, exists_eq_left']
    cases hcp : u.1.createProof prover with
    | ok b1 =>
      simp only [unwrapRun, Run.ok_bind, Run.ok.injEq, exists_eq_left']
      change (Run.ofOutcome (b1.applySignatures P srng (Bytes.replicate 32 0) [ask]) >>= fun r =>
        Run.ofOutcome (unwrapResult r)) = _ ↔ _
      rcases b1.applySignatures P srng (Bytes.replicate 32 0) [ask] with (e | a) | _
      · simp [unwrapResult]
      · simp [unwrapResult]
      · simp
    | err e => simp [unwrapRun]
    | panic => simp [unwrapRun]
    | more =>
      simp only [unwrapRun, reduceCtorEq, false_and, exists_false, iff_false]
      exact fun h => by cases h

theorem defaultActions {s o : ℕ} (h : 1 ≤ s) :
    BundleType.DEFAULT.numActions s o = some (max (max s o) 2) := by
  have : 0 < max s o := by omega
  simp [BundleType.DEFAULT, BundleType.numActions, Flags.ENABLED, MIN_ACTIONS, this]

theorem bundle_overflow {ss : List SpendInfo} {os : List OutputInfo} {anchor : Fp}
    (hr : ∀ s ∈ ss, Spec.Requestable P s) (hs : ss.length = 2) (ho : os.length = 2)
    (hb : 2 ^ 63 ≤ Spec.totalSpends ss - Spec.totalOutputs os) :
    ∃ e, bundle P tryFrom draws anchor BundleType.DEFAULT ss os = .err e := by
  rw [bundle_eq]
  obtain ⟨r, h1, -⟩ := allMatchAnchor_eq (P := P) (anchor := anchor) (l := ss) fun s h => (hr s h).2.2.2
  rw [h1, Run.ofOutcome_ret, Run.ok_bind, defaultActions (by omega), hs, ho]
  have f1 : BundleType.DEFAULT.flags.spendsEnabled = true := rfl
  have f2 : BundleType.DEFAULT.flags.outputsEnabled = true := rfl
  rw [f1, f2]
  cases r with
  | false => exact ⟨_, rfl⟩
  | true =>
    simp only [Bool.not_true, Bool.false_and, Bool.false_eq_true, if_false, max_self]
    have hl1 : List.range (2 - ss.length) = [] := by rw [hs]; rfl
    have hl2 : List.range (2 - os.length) = [] := by rw [ho]; rfl
    obtain ⟨m, pre, h3, h4⟩ := construct_of_dummies (P := P) (tryFrom := tryFrom) (rng := draws)
      (anchor := anchor) (flags := BundleType.DEFAULT.flags) (spends := ss) (outputs := os) (n := 2)
      (dS := []) (dO := []) (by omega) (by omega) (by rw [hl1]; exact .nil) (by rw [hl2]; exact .nil)
    refine ⟨.valueSum .overflow, ?_⟩
    refine h4.trans (finish_err.2 ⟨rfl, Or.inr fun i hi => ?_⟩)
    exfalso
    rw [h3.balance (by omega) (by omega)] at hi
    have := i.range.2
    unfold Spec.totalSpends Spec.totalOutputs at hb
    omega

theorem totals {ss : List SpendInfo} {os : List OutputInfo}
    (h1 : ss.map (fun s => (s.note, s.merklePath)) = x.notes)
    (h2 : os.map (fun o => (o.recipient, o.value)) = x.outputAmounts) :
    Spec.totalSpends ss = Spec.totalOf (x.notes.map fun p => p.1.value) ∧
    Spec.totalOutputs os = Spec.totalOf (x.outputAmounts.map Prod.snd) := by
  rw [← h1, ← h2]
  simp only [Spec.totalSpends, Spec.totalOutputs, Spec.totalOf, List.map_map]
  exact ⟨rfl, rfl⟩

theorem inputs_facts {G : Point} {sk : SpendingKey} {seed : Bytes 32} {notes : List Note}
    {outputs : List (Address × NoteValue)} (hd : Spec.DrawnInputs P G notes outputs)
    (hx : Spec.InputsOf P sk seed notes outputs x) :
    (∀ p ∈ x.notes, ∃ cm, Spec.commitmentOf P p.1 = some cm) ∧
    (∀ p ∈ x.notes, 0 < p.1.value.inner.toNat) ∧ 1 ≤ x.notes.length ∧
    Spec.totalOf (x.notes.map fun p => p.1.value) ≤ 2 ^ 64 - 1 ∧
    Spec.totalOf (x.outputAmounts.map Prod.snd) ≤ 2 ^ 64 - 1 := by
  obtain ⟨-, -, h3, h4, cmxs, hf, -, -⟩ := hx
  have hm : ∀ p ∈ x.notes, p.1 ∈ notes := fun p hp => h4 ▸ List.mem_map_of_mem hp
  have e : x.notes.map (fun p => p.1.value) = notes.map Note.value := by
    rw [← h4, List.map_map]; rfl
  refine ⟨fun p hp => ?_, fun p hp => ?_, ?_, ?_, ?_⟩
  · exact forall₂_left (p := fun n => ∃ cm, Spec.commitmentOf P n = some cm) hf
      (fun a b h => ⟨h.choose, h.choose_spec.1⟩) _ (hm p hp)
  · exact (hd.noteValues.2.2 _ (List.mem_map_of_mem (hm p hp))).1
  · have := hd.noteValues.1
    rw [← e, List.length_map] at this; exact this
  · rw [e]; exact total_le hd.noteValues
  · rw [h3]; exact total_le hd.outputValues

theorem rk_ne_zero {sk : Bytes 32} {ss : List SpendInfo} {os : List OutputInfo} {anchor : Fp}
    {ty : BundleType} {b : UnauthorizedBundle V} {m : BundleMetadata}
    (hb : bundle P tryFrom draws anchor ty ss os = .ok (some (b, m)))
    (hf : ∀ s ∈ ss, s.fvk = Spec.fvkOf P sk) (hz : Spec.NoZeroRk P draws sk) :
    ∀ a ∈ b.actions, a.rk.point ≠ 0 := by
  obtain ⟨rows, hp⟩ := C08_each_once hb
  intro a ha
  obtain ⟨k, hk⟩ := List.mem_iff_getElem?.1 ha
  have hfo := hp.explains.1
  obtain ⟨hk1, g1⟩ := List.getElem?_eq_some_iff.1 hk
  have hk2 : k < rows.length := by rw [hfo.length_eq]; exact hk1
  have hr0 := hfo.get hk2 hk1
  simp only [List.get_eq_getElem, g1] at hr0
  rw [hr0.rk, (hp.randomness k _ (List.getElem?_eq_getElem hk2)).2.1]
  obtain ⟨dS, q1, -, q3⟩ := hp.spends
  have hmem : rows[k].spend ∈ ss ++ dS :=
    q1.mem_iff.1 (List.mem_map_of_mem (List.getElem_mem hk2))
  rcases List.mem_append.1 hmem with hm | hm
  · rw [hf _ hm]; exact (hz k).1
  · obtain ⟨j, hj⟩ := List.mem_iff_getElem?.1 hm
    obtain ⟨-, -, -, -, -, -, -, -, sk', -, hs2, ask, -, -, hs3, -⟩ := q3 j _ hj
    have : rows[k].spend.fvk.ak.point = Spec.ak P sk'.bytes := by
      rw [C29_full_viewing_key] at hs3
      split_ifs at hs3
      rw [Outcome.ret.injEq] at hs3
      rw [← hs3]
    rw [this]
    exact (hz k).2 j _ hs2

end

end Orchard
