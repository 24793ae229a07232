import Verif.Props.Builder

/-!
# Properties C07-C15 and C56: value balance and bundle construction
-/

namespace Orchard

open RedPallas

variable {V : Type}

/-! ### C07: value balance -/

theorem valueBalance_eq (tryFrom : I64 → Option V) (b : Builder) :
    b.valueBalance tryFrom = match foldSum
        ((b.spends.map fun s => (⟨Spec.intValue s.note.value⟩ : ValueSum)) ++
          b.outputs.map fun o => ⟨-Spec.intValue o.value⟩) with
      | none => .ret (.error .overflow)
      | some v => .ret (convertBalance tryFrom v) := by
  have hz : NoteValue.zero.inner.toNat = 0 := rfl
  unfold Builder.valueBalance
  rw [Outcome.mapM_of_ret (g := fun s : SpendInfo => (⟨Spec.intValue s.note.value⟩ : ValueSum)),
    Outcome.ret_bind,
    Outcome.mapM_of_ret (g := fun o : OutputInfo => (⟨-Spec.intValue o.value⟩ : ValueSum)),
    Outcome.ret_bind]
  · rfl
  · intro o _
    rw [NoteValue.sub_eq, hz]; simp [Spec.intValue]
  · intro s _
    rw [NoteValue.sub_eq, hz]; simp [Spec.intValue]

/-- The signed values of a builder's spends and outputs, in the order in which they are added up. -/
def Spec.signedValues (b : Builder) : List ℤ :=
  (b.spends.map fun s => Spec.intValue s.note.value) ++ b.outputs.map fun o => -Spec.intValue o.value

theorem signedValues_sum (b : Builder) :
    (Spec.signedValues b).sum = Spec.totalSpends b.spends - Spec.totalOutputs b.outputs := by
  unfold Spec.signedValues Spec.totalSpends Spec.totalOutputs
  rw [List.sum_append, sub_eq_add_neg]
  congr 1
  induction b.outputs with
  | nil => rfl
  | cons o l ih => simp only [List.map_cons, List.sum_cons, ih]; ring

/-- **C07.** `value_balance` does not panic; it gives the value `v` exactly when no running partial
sum leaves `±(2^64-1)` and `v` is the conversion of total spends minus total outputs, as an `i64`, to
the caller's type; and it fails in all other cases. -/
theorem C07_value_balance (tryFrom : I64 → Option V) (b : Builder) :
    ∃ r, b.valueBalance tryFrom = .ret r ∧
      (∀ v, r = .ok v ↔ Spec.RunningSumsOk (Spec.signedValues b) ∧
        ∃ i : I64, i.val = Spec.totalSpends b.spends - Spec.totalOutputs b.outputs ∧
          tryFrom i = some v) ∧
      (r = .error .overflow ↔ ¬ Spec.RunningSumsOk (Spec.signedValues b) ∨
        ∀ i : I64, i.val = Spec.totalSpends b.spends - Spec.totalOutputs b.outputs →
          tryFrom i = none) := by
  rw [valueBalance_eq]
  have hm : ((b.spends.map fun s => (⟨Spec.intValue s.note.value⟩ : ValueSum)) ++
      b.outputs.map fun o => (⟨-Spec.intValue o.value⟩ : ValueSum)).map ValueSum.inner =
      Spec.signedValues b := by
    simp [Spec.signedValues, Function.comp_def]
  cases hf : foldSum ((b.spends.map fun s => (⟨Spec.intValue s.note.value⟩ : ValueSum)) ++
      b.outputs.map fun o => (⟨-Spec.intValue o.value⟩ : ValueSum)) with
  | none =>
    rw [foldSum_eq_none, hm, ← runningSumsOk_iff] at hf
    exact ⟨_, rfl, fun v => by simp [hf], by simp [hf]⟩
  | some s =>
    rw [foldSum_eq_some, hm, ← runningSumsOk_iff, signedValues_sum] at hf
    refine ⟨_, rfl, fun v => ?_, ?_⟩
    · rw [convertBalance_ok, hf.2]; simp [hf.1]
    · rw [convertBalance_error, hf.2]; simp [hf.1]

example : (⟨[], [Examples.output0 3, Examples.output0 4], .DEFAULT, 0⟩ : Builder).valueBalance some =
    .ret (.ok ⟨-7, by decide⟩) := by
  obtain ⟨r, h, h1, -⟩ := C07_value_balance some
    (⟨[], [Examples.output0 3, Examples.output0 4], .DEFAULT, 0⟩ : Builder)
  rw [h, (h1 _).2 ⟨?_, ⟨-7, by decide⟩, rfl, rfl⟩]
  rw [runningSumsOk_iff]
  have : Spec.signedValues (⟨[], [Examples.output0 3, Examples.output0 4], .DEFAULT, 0⟩ : Builder) =
    [-3, -4] := rfl
  rw [this, partialsOk_cons, partialsOk_cons]
  refine ⟨by norm_num, by norm_num, ?_⟩
  intro k hk h1
  simp only [List.length_nil] at hk
  omega

/-! ### C08: every requested spend and output is used once -/

section

variable {P : Prims} {tryFrom : I64 → Option V} {rng : BuildDraws} {anchor : Fp}
    {ty : BundleType} {spends : List SpendInfo} {outputs : List OutputInfo}
    {b : UnauthorizedBundle V} {m : BundleMetadata}

theorem plan_of_inv {n : ℕ} {dS : List SpendInfo} {dO : List OutputInfo} {pre : List ActionInfo}
    {rows : List Spec.Row} (hc : Checked P anchor ty spends outputs n)
    (hp : Planned P rng spends outputs n dS dO m pre) (he : Spec.Explains P rows b)
    (hs : rows.map Spec.Row.spend = pre.map ActionInfo.spend)
    (ho : rows.map Spec.Row.output = pre.map ActionInfo.output)
    (hr : rows.map Spec.Row.rcv = pre.map (fun a => a.rcv.inner))
    (ha : ∀ i r, rows[i]? = some r → DrawnRow (rng.action i) r) :
    Spec.Plan P rng spends outputs b rows := by
  obtain ⟨g1, g2⟩ := numActions_ge hc.num
  have hlen : b.actions.length = n := by
    have := congrArg List.length hs
    rw [List.length_map, List.length_map, hp.length_pre g1 g2] at this
    rw [← he.1.length_eq, this]
  refine ⟨he, ⟨dS, ?_, ?_, hp.dS_spec⟩, ⟨dO, ?_, ?_, hp.dO_spec⟩, fun i r hi => ?_⟩
  · rw [hs]; exact hp.perm_spends g1 g2
  · rw [hp.length_dS, hlen]
  · rw [ho]; exact hp.perm_outputs g1 g2
  · rw [hp.length_dO, hlen]
  have h1 : (rows.map Spec.Row.rcv)[i]? = some r.rcv := by rw [List.getElem?_map, hi]; rfl
  rw [hr, hp.pre_eq, List.map_map, List.getElem?_map, List.getElem?_zipIdx] at h1
  refine ⟨?_, ha i r hi⟩
  · cases hx : ((shuffle rng.spendShuffle (spends ++ dS).zipIdx).zip
      (shuffle rng.outputShuffle (outputs ++ dO).zipIdx))[i]? with
    | none => rw [hx] at h1; simp at h1
    | some x =>
      rw [hx] at h1
      simp only [Option.map_some, Option.some.injEq, Function.comp, planAt] at h1
      simpa using h1.symm

/-- **C08.** There is a plan behind every built bundle (`Spec.Plan`): every requested spend and every
requested output is used in exactly one action, and all others are dummies of value zero made from
fresh random values.  This holds whatever the shuffles. -/
theorem C08_each_once (h : bundle P tryFrom rng anchor ty spends outputs = .ok (some (b, m))) :
    ∃ rows, Spec.Plan P rng spends outputs b rows := by
  obtain ⟨n, dS, dO, pre, rows, hc, hp, -, -, -, -, he, hs, ho, hr, ha⟩ := bundle_some_inv h
  exact ⟨rows, plan_of_inv hc hp he hs ho hr ha⟩

/-! ### C09: metadata -/

/-- **C09.** `spend_action_index(j)` is the index of the action that consumes the `j`-th requested
spend, `output_action_index(j)` that of the action that creates the `j`-th requested output; they are
distinct for distinct `j`, in range, and `None` for `j` beyond the requests. -/
theorem C09_metadata (h : bundle P tryFrom rng anchor ty spends outputs = .ok (some (b, m))) :
    ∃ rows, Spec.Plan P rng spends outputs b rows ∧
      (∀ j (hj : j < spends.length), ∃ i r, m.spendActionIndex j = some i ∧ i < b.actions.length ∧
        rows[i]? = some r ∧ r.spend = spends[j]) ∧
      (∀ j (hj : j < outputs.length), ∃ i r, m.outputActionIndex j = some i ∧ i < b.actions.length ∧
        rows[i]? = some r ∧ r.output = outputs[j]) ∧
      (∀ j j' i, m.spendActionIndex j = some i → m.spendActionIndex j' = some i → j = j') ∧
      (∀ j j' i, m.outputActionIndex j = some i → m.outputActionIndex j' = some i → j = j') ∧
      (∀ j, spends.length ≤ j → m.spendActionIndex j = none) ∧
      (∀ j, outputs.length ≤ j → m.outputActionIndex j = none) := by
  have hlen := C05_built _ _ _ _ _ _ _ _ _ h
  obtain ⟨n, dS, dO, pre, rows, hc, hp, -, -, -, -, he, hs, ho, hr, ha⟩ := bundle_some_inv h
  obtain ⟨g1, g2⟩ := numActions_ge hc.num
  rw [hc.num, Option.some.injEq] at hlen
  have hlS := hp.length_S g1
  have hlO := hp.length_O g2
  have mS : ((shuffle rng.spendShuffle (spends ++ dS).zipIdx).zip
      (shuffle rng.outputShuffle (outputs ++ dO).zipIdx)).map (fun x => x.1.2) =
      (shuffle rng.spendShuffle (spends ++ dS).zipIdx).map Prod.snd := by
    have : (fun x : (SpendInfo × ℕ) × (OutputInfo × ℕ) => x.1.2) = Prod.snd ∘ Prod.fst := rfl
    rw [this, ← List.map_map, List.map_fst_zip (by rw [hlS, hlO])]
  have mO : ((shuffle rng.spendShuffle (spends ++ dS).zipIdx).zip
      (shuffle rng.outputShuffle (outputs ++ dO).zipIdx)).map (fun x => x.2.2) =
      (shuffle rng.outputShuffle (outputs ++ dO).zipIdx).map Prod.snd := by
    have : (fun x : (SpendInfo × ℕ) × (OutputInfo × ℕ) => x.2.2) = Prod.snd ∘ Prod.snd := rfl
    rw [this, ← List.map_map, List.map_snd_zip (by rw [hlS, hlO])]
  have rS := hp.recS
  rw [mS] at rS
  have rO := hp.recO
  rw [mO] at rO
  have lenS : m.spendIndices.length = spends.length := by simpa using rS.length
  have lenO : m.outputIndices.length = outputs.length := by simpa using rO.length
  have inv {α : Type} {l : List α} {f : Spec.Row → α} {i : ℕ} {x : α} (hl : rows.map f = l)
      (hx : l[i]? = some x) : ∃ r, rows[i]? = some r ∧ f r = x := by
    rw [← hl, List.getElem?_map] at hx
    exact Option.map_eq_some_iff.1 hx
  refine ⟨rows, plan_of_inv hc hp he hs ho hr ha, ?_, ?_, ?_, ?_, ?_, ?_⟩
  · intro j hj
    obtain ⟨i, e1, e2, -⟩ := recorded_position rng.spendShuffle spends dS _ rS j hj
    rw [← hp.map_spend_pre g1 g2] at e2
    obtain ⟨r, e3, e4⟩ := inv hs e2
    refine ⟨i, r, e1, ?_, e3, e4⟩
    rw [← he.1.length_eq]
    exact (List.getElem?_eq_some_iff.1 e3).1
  · intro j hj
    obtain ⟨i, e1, e2, -⟩ := recorded_position rng.outputShuffle outputs dO _ rO j hj
    rw [← hp.map_output_pre g1 g2] at e2
    obtain ⟨r, e3, e4⟩ := inv ho e2
    refine ⟨i, r, e1, ?_, e3, e4⟩
    rw [← he.1.length_eq]
    exact (List.getElem?_eq_some_iff.1 e3).1
  · intro j j' i h1 h2
    have hj : j < spends.length := lenS ▸ (List.getElem?_eq_some_iff.1 h1).1
    have hj' : j' < spends.length := lenS ▸ (List.getElem?_eq_some_iff.1 h2).1
    obtain ⟨k, e1, -, e3⟩ := recorded_position rng.spendShuffle spends dS _ rS j hj
    obtain ⟨k', e1', -, e3'⟩ := recorded_position rng.spendShuffle spends dS _ rS j' hj'
    unfold BundleMetadata.spendActionIndex at h1 h2
    rw [h1, Option.some.injEq] at e1
    rw [h2, Option.some.injEq] at e1'
    rw [← e1] at e3
    rw [← e1', e3, Option.some.injEq] at e3'
    exact e3'
  · intro j j' i h1 h2
    have hj : j < outputs.length := lenO ▸ (List.getElem?_eq_some_iff.1 h1).1
    have hj' : j' < outputs.length := lenO ▸ (List.getElem?_eq_some_iff.1 h2).1
    obtain ⟨k, e1, -, e3⟩ := recorded_position rng.outputShuffle outputs dO _ rO j hj
    obtain ⟨k', e1', -, e3'⟩ := recorded_position rng.outputShuffle outputs dO _ rO j' hj'
    unfold BundleMetadata.outputActionIndex at h1 h2
    rw [h1, Option.some.injEq] at e1
    rw [h2, Option.some.injEq] at e1'
    rw [← e1] at e3
    rw [← e1', e3, Option.some.injEq] at e3'
    exact e3'
  · intro j hj
    unfold BundleMetadata.spendActionIndex
    rw [List.getElem?_eq_none_iff, lenS]; exact hj
  · intro j hj
    unfold BundleMetadata.outputActionIndex
    rw [List.getElem?_eq_none_iff, lenO]; exact hj

/-- **C09** (only dummies). If nothing was requested, the metadata of a built bundle is the empty one, which maps no
position. -/
theorem C09_only_dummies (h : bundle P tryFrom rng anchor ty [] [] = .ok (some (b, m))) :
    m = BundleMetadata.empty ∧
    ∀ j, BundleMetadata.empty.spendActionIndex j = none ∧ BundleMetadata.empty.outputActionIndex j = none := by
  obtain ⟨rows, -, -, -, -, -, h1, h2⟩ := C09_metadata h
  refine ⟨?_, fun j => ⟨rfl, rfl⟩⟩
  have h1 := h1 0 le_rfl
  have h2 := h2 0 le_rfl
  obtain ⟨s, o⟩ := m
  cases s with
  | cons => exact absurd h1 (by simp [BundleMetadata.spendActionIndex])
  | nil =>
    cases o with
    | cons => exact absurd h2 (by simp [BundleMetadata.outputActionIndex])
    | nil => rfl

/-! ### C10: the value balance of the bundle -/

/-- **C10.** The bundle's value balance is the total of the requested spends minus the total of the
requested outputs (an `i64`, converted to the caller's type), and the net values of the actions add
up to it. -/
theorem C10_value_balance (h : bundle P tryFrom rng anchor ty spends outputs = .ok (some (b, m))) :
    ∃ i : I64, i.val = Spec.totalSpends spends - Spec.totalOutputs outputs ∧
      tryFrom i = some b.valueBalance ∧
      ∃ rows, Spec.Plan P rng spends outputs b rows ∧ (rows.map Spec.Row.net).sum = i.val := by
  obtain ⟨n, dS, dO, pre, rows, hc, hp, -, ⟨i, hi, ht⟩, -, -, he, hs, ho, hr, ha⟩ :=
    bundle_some_inv h
  obtain ⟨g1, g2⟩ := numActions_ge hc.num
  refine ⟨i, ?_, ht, rows, plan_of_inv hc hp he hs ho hr ha, ?_⟩
  · rw [hi, hp.balance g1 g2]; rfl
  · rw [rows_net hs ho, hi]

/-! ### C11: overflow -/

theorem take_sum_le {l : List ℤ} (h : ∀ x ∈ l, 0 ≤ x) (k : ℕ) :
    0 ≤ (l.take k).sum ∧ (l.take k).sum ≤ l.sum := by
  constructor
  · exact List.sum_nonneg fun x hx => h x (List.mem_of_mem_take hx)
  · have : l.sum = (l.take k).sum + (l.drop k).sum := by rw [← List.sum_append, List.take_append_drop]
    rw [this]
    have := List.sum_nonneg (l := l.drop k) fun x hx => h x (List.mem_of_mem_drop hx)
    omega

theorem plannedNets_ok {n : ℕ} (hs : spends.length ≤ n) (ho : outputs.length ≤ n)
    (h1 : Spec.totalSpends spends ≤ 2 ^ 64 - 1) (h2 : Spec.totalOutputs outputs ≤ 2 ^ 64 - 1) :
    Spec.RunningSumsOk (Spec.plannedNets rng spends outputs n) := by
  have key : ∀ (k : ℕ) (a b : List ℤ), a.length = b.length →
      ((List.zipWith (· - ·) a b).take k).sum = (a.take k).sum - (b.take k).sum := by
    intro k a
    induction a generalizing k with
    | nil => intro b hb; rw [List.length_eq_zero_iff.1 hb.symm]; simp
    | cons x a ih =>
      intro b hb
      rcases b with _ | ⟨y, b⟩
      · simp at hb
      · cases k with
        | zero => simp
        | succ k =>
          simp only [List.zipWith_cons_cons, List.take_succ_cons, List.sum_cons,
            ih k b (by simpa using hb)]
          ring
  intro k
  unfold Spec.plannedNets
  rw [key]
  · have hS : ∀ x ∈ (shuffle rng.spendShuffle ((spends.map fun s => Spec.intValue s.note.value) ++
        List.replicate (n - spends.length) 0)), 0 ≤ x := by
      intro x hx
      rw [(shuffle_perm _ _).mem_iff, List.mem_append] at hx
      rcases hx with hx | hx
      · obtain ⟨s, -, rfl⟩ := List.mem_map.1 hx
        exact Int.natCast_nonneg _
      · rw [(List.mem_replicate.1 hx).2]
    have hO : ∀ x ∈ (shuffle rng.outputShuffle ((outputs.map fun o => Spec.intValue o.value) ++
        List.replicate (n - outputs.length) 0)), 0 ≤ x := by
      intro x hx
      rw [(shuffle_perm _ _).mem_iff, List.mem_append] at hx
      rcases hx with hx | hx
      · obtain ⟨s, -, rfl⟩ := List.mem_map.1 hx
        exact Int.natCast_nonneg _
      · rw [(List.mem_replicate.1 hx).2]
    obtain ⟨a1, a2⟩ := take_sum_le hS k
    obtain ⟨b1, b2⟩ := take_sum_le hO k
    rw [(shuffle_perm _ _).sum_eq, List.sum_append, List.sum_replicate, smul_zero, add_zero] at a2 b2
    unfold Spec.totalSpends at h1
    unfold Spec.totalOutputs at h2
    constructor <;> omega
  · rw [(shuffle_perm _ _).length_eq, (shuffle_perm _ _).length_eq]
    simp only [List.length_append, List.length_map, List.length_replicate]
    omega

/-- Errors of `bundle`, inverted. -/
theorem bundle_err_inv {e : BuildError}
    (h : bundle P tryFrom rng anchor ty spends outputs = .err e) :
    (e = .spendsDisabled ∧ ty.flags.spendsEnabled = false ∧ spends ≠ []) ∨
    (e = .anchorMismatch ∧ (ty.flags.spendsEnabled = true ∨ spends = []) ∧
      allMatchAnchor P anchor spends = .ret false) ∨
    (e = .outputsDisabled ∧ (ty.flags.spendsEnabled = true ∨ spends = []) ∧
      allMatchAnchor P anchor spends = .ret true ∧
      ty.flags.outputsEnabled = false ∧ outputs ≠ []) ∨
    (e = .valueSum .overflow ∧ ∃ n, Checked P anchor ty spends outputs n ∧
      (¬ Spec.RunningSumsOk (Spec.plannedNets rng spends outputs n) ∨
        ∀ i : I64, i.val = Spec.totalSpends spends - Spec.totalOutputs outputs →
          tryFrom i = none)) := by
  rw [bundle_eq] at h
  by_cases h1 : (!ty.flags.spendsEnabled && decide (0 < spends.length)) = true
  · rw [if_pos h1] at h
    simp only [Run.err.injEq] at h
    rw [flag_true_iff, List.length_pos_iff] at h1
    exact Or.inl ⟨h.symm, h1⟩
  rw [if_neg h1, Run.bind_eq_err] at h
  simp only [Bool.not_eq_true] at h1
  have h1' := flag_false_iff.1 h1
  rw [List.length_eq_zero_iff] at h1'
  rcases h with h | ⟨mt, h2, h⟩
  · exact absurd h Run.ofOutcome_ne_err
  rw [Run.ofOutcome_eq_ok] at h2
  cases mt with
  | false =>
    simp only [Bool.not_false, if_true, Run.err.injEq] at h
    exact Or.inr (Or.inl ⟨h.symm, h1', h2⟩)
  | true =>
    rw [if_neg (by simp)] at h
    by_cases h4 : (!ty.flags.outputsEnabled && decide (0 < outputs.length)) = true
    · rw [if_pos h4] at h
      simp only [Run.err.injEq] at h
      rw [flag_true_iff, List.length_pos_iff] at h4
      exact Or.inr (Or.inr (Or.inl ⟨h.symm, h1', h2, h4⟩))
    rw [if_neg h4] at h
    simp only [Bool.not_eq_true] at h4
    obtain ⟨n, hn⟩ := numActions_of_flags h1 h4
    rw [hn] at h
    simp only at h
    obtain ⟨g1, g2⟩ := numActions_ge hn
    have hc : Checked P anchor ty spends outputs n :=
      ⟨flag_false_iff.1 h1, flag_false_iff.1 h4, allMatchAnchor_true h2, hn⟩
    have h' := h
    unfold construct at h
    rw [Run.bind_eq_err] at h
    rcases h with h | ⟨iS, h5, h⟩
    · unfold indexedPadded at h
      rw [Run.bind_eq_err] at h
      rcases h with h | ⟨_, -, h⟩
      · exact absurd h (Run.mapM_ne_err fun _ _ => spendDummy_ne_err)
      · simp at h
    obtain ⟨dS, h5, -⟩ := (indexedPadded_eq_ok g1).1 h5
    rw [Run.bind_eq_err] at h
    rcases h with h | ⟨iO, h6, h⟩
    · unfold indexedPadded at h
      rw [Run.bind_eq_err] at h
      rcases h with h | ⟨_, -, h⟩
      · exact absurd h (Run.mapM_ne_err fun _ _ => outputDummy_ne_err)
      · simp at h
    obtain ⟨dO, h6, -⟩ := (indexedPadded_eq_ok g2).1 h6
    obtain ⟨m, pre, hp, e'⟩ := construct_of_dummies (tryFrom := tryFrom) (anchor := anchor)
      (flags := ty.flags) g1 g2 h5 h6
    rw [e', finish_err, hp.nets g1 g2, plannedNets_sum g1 g2, ← runningSumsOk_iff] at h'
    exact Or.inr (Or.inr (Or.inr ⟨h'.1, n, hc, h'.2⟩))

/-- **C11.** If the requested spends total at most `2^64 - 1`, the requested outputs total at most
`2^64 - 1`, and the difference fits the caller's type, then building does not fail with a value
overflow, whatever the random values, in particular the shuffles. -/
theorem C11_no_overflow (h1 : Spec.totalSpends spends ≤ 2 ^ 64 - 1)
    (h2 : Spec.totalOutputs outputs ≤ 2 ^ 64 - 1)
    (h3 : ∃ (i : I64) (v : V), i.val = Spec.totalSpends spends - Spec.totalOutputs outputs ∧
      tryFrom i = some v) (e : OverflowError) :
    bundle P tryFrom rng anchor ty spends outputs ≠ .err (.valueSum e) := by
  intro h
  rcases bundle_err_inv h with ⟨h, -⟩ | ⟨h, -⟩ | ⟨h, -⟩ | ⟨-, n, hc, h⟩
  · simp at h
  · simp at h
  · simp at h
  · obtain ⟨g1, g2⟩ := numActions_ge hc.num
    rcases h with h | h
    · exact h (plannedNets_ok g1 g2 h1 h2)
    · obtain ⟨i, v, hi, ht⟩ := h3
      rw [h i hi] at ht; simp at ht

/-! ### C12, C13: no panics; errors -/

/-- **C12.** Building never panics, in particular the assertion on the binding key never fires:
for spends as callers can request them (`Spec.Requestable`, see C06) and drawn keys with `ask ≠ 0`
(for `ask = 0` the key generation panics, see C30).  All the arithmetic of bundle construction
(`i128` subtraction, conversion to a scalar, vector indexing) is included. -/
theorem C12_no_panic (hr : ∀ s ∈ spends, Spec.Requestable P s) (hk : Spec.NoZeroKeys P rng) :
    bundle P tryFrom rng anchor ty spends outputs ≠ .panic := by
  intro h
  rw [bundle_eq] at h
  by_cases h1 : (!ty.flags.spendsEnabled && decide (0 < spends.length)) = true
  · rw [if_pos h1] at h; simp at h
  obtain ⟨r, e1, -⟩ := allMatchAnchor_eq (P := P) (anchor := anchor) (l := spends)
    (fun s hs => (hr s hs).2.2.2)
  rw [if_neg h1, e1, Run.ofOutcome_ret, Run.ok_bind] at h
  cases r with
  | false => simp at h
  | true =>
    rw [if_neg (by simp)] at h
    by_cases h4 : (!ty.flags.outputsEnabled && decide (0 < outputs.length)) = true
    · rw [if_pos h4] at h; simp at h
    rw [if_neg h4] at h
    simp only [Bool.not_eq_true] at h1 h4
    obtain ⟨n, hn⟩ := numActions_of_flags h1 h4
    rw [hn] at h
    simp only at h
    obtain ⟨g1, g2⟩ := numActions_ge hn
    rcases construct_cases (tryFrom := tryFrom) (anchor := anchor) (flags := ty.flags) hk g1 g2 with
      e | ⟨dS, dO, m, pre, hp, e⟩
    · rw [e] at h; simp at h
    · rw [e] at h
      exact finish_ne_panic (hp.buildable g1 g2 fun s hs => requestable_buildable (hr s hs)) h

/-- **C12** (the assertion). In every built bundle the binding signing key belongs to the binding
validating key computed from the value commitments and the balance. -/
theorem C12_binding_key (h : bundle P tryFrom rng anchor ty spends outputs = .ok (some (b, m))) :
    ∃ i : I64, i.val = Spec.totalSpends spends - Spec.totalOutputs outputs ∧
      tryFrom i = some b.valueBalance ∧
      b.authorization.sigs.bsk.s • Constants.valueCommitR =
        (b.actions.map fun a => a.cvNet.inner).sum - ((i.val : ℤ) : Fq) • Constants.valueCommitV := by
  obtain ⟨i, h1, h2, rows, hp, h3⟩ := C10_value_balance h
  refine ⟨i, h1, h2, ?_⟩
  have hs := sum_cvNet hp.explains.1
  rw [List.map_map] at hs
  have : (ValueCommitment.inner ∘ Action.cvNet : Action SigningMetadata → Point) =
    fun a => a.cvNet.inner := rfl
  rw [← this, hs, hp.explains.2.2, h3]
  module

/-- **C13.** The outcome of building, for spends as callers can request them and enough good random
values: `SpendsDisabled`, `AnchorMismatch`, `OutputsDisabled` and the value overflow occur exactly
under their conditions, in this order of precedence; no other error occurs; `Ok(None)` is returned
exactly when all checks pass and the number of actions is zero. -/
theorem C13_outcome (hr : ∀ s ∈ spends, Spec.Requestable P s) (hk : Spec.NoZeroKeys P rng)
    (he : Spec.EnoughDraws P rng) :
    let o := bundle P tryFrom rng anchor ty spends outputs
    let spendsBad := ty.flags.spendsEnabled = false ∧ spends ≠ []
    let anchorBad := ∃ s ∈ spends, ¬ Spec.AnchorOk P anchor s
    let outputsBad := ty.flags.outputsEnabled = false ∧ outputs ≠ []
    let overflow := ∃ n, ty.numActions spends.length outputs.length = some n ∧
      (¬ Spec.RunningSumsOk (Spec.plannedNets rng spends outputs n) ∨
        ∀ i : I64, i.val = Spec.totalSpends spends - Spec.totalOutputs outputs → tryFrom i = none)
    (o = .err .spendsDisabled ↔ spendsBad) ∧
    (o = .err .anchorMismatch ↔ ¬ spendsBad ∧ anchorBad) ∧
    (o = .err .outputsDisabled ↔ ¬ spendsBad ∧ ¬ anchorBad ∧ outputsBad) ∧
    (o = .err (.valueSum .overflow) ↔ ¬ spendsBad ∧ ¬ anchorBad ∧ ¬ outputsBad ∧ overflow) ∧
    (o = .ok none ↔ ¬ spendsBad ∧ ¬ anchorBad ∧ ¬ outputsBad ∧ ¬ overflow ∧
      ty.numActions spends.length outputs.length = some 0) ∧
    ((∃ x, o = .ok (some x)) ↔ ¬ spendsBad ∧ ¬ anchorBad ∧ ¬ outputsBad ∧ ¬ overflow ∧
      ty.numActions spends.length outputs.length ≠ some 0) := by
  intro o spendsBad anchorBad outputsBad overflow
  have ho : o = _ := bundle_eq P tryFrom rng anchor ty spends outputs
  by_cases h1 : spendsBad
  · have : o = .err .spendsDisabled := by
      rw [ho, if_pos (flag_true_iff.2 ⟨h1.1, List.length_pos_iff.2 h1.2⟩)]
    simp [this, h1]
  have f1 : (!ty.flags.spendsEnabled && decide (0 < spends.length)) = false := by
    rw [flag_false_iff, List.length_eq_zero_iff]
    simp only [spendsBad, not_and_or, Bool.not_eq_false, not_not, ne_eq] at h1
    exact h1
  rw [if_neg (by rw [f1]; simp)] at ho
  obtain ⟨r, e1, e2⟩ := allMatchAnchor_eq (P := P) (anchor := anchor) (l := spends)
    (fun s hs => (hr s hs).2.2.2)
  rw [e1, Run.ofOutcome_ret, Run.ok_bind] at ho
  by_cases h2 : anchorBad
  · have hr' : r = false := by
      obtain ⟨s, hs, hn⟩ := h2
      cases r with
      | false => rfl
      | true => exact absurd (e2.1 rfl s hs) hn
    subst hr'
    have : o = .err .anchorMismatch := by rw [ho]; rfl
    simp [this, h1, h2]
  have hr' : r = true := e2.2 fun s hs => by
    by_contra hn
    exact h2 ⟨s, hs, hn⟩
  subst hr'
  rw [if_neg (by simp)] at ho
  by_cases h3 : outputsBad
  · have : o = .err .outputsDisabled := by
      rw [ho, if_pos (flag_true_iff.2 ⟨h3.1, List.length_pos_iff.2 h3.2⟩)]
    simp [this, h1, h2, h3]
  have f3 : (!ty.flags.outputsEnabled && decide (0 < outputs.length)) = false := by
    rw [flag_false_iff, List.length_eq_zero_iff]
    simp only [outputsBad, not_and_or, Bool.not_eq_false, not_not, ne_eq] at h3
    exact h3
  rw [if_neg (by rw [f3]; simp)] at ho
  obtain ⟨n, hn⟩ := numActions_of_flags f1 f3
  obtain ⟨g1, g2⟩ := numActions_ge hn
  rw [hn] at ho
  simp only at ho
  obtain ⟨dS, dO, m, pre, hp, e⟩ := construct_total (tryFrom := tryFrom) (anchor := anchor)
    (flags := ty.flags) hk he g1 g2
  rw [e] at ho
  have hov : overflow ↔ (¬ PartialsOk 0 (pre.map ActionInfo.net) ∨
      ∀ i : I64, i.val = (pre.map ActionInfo.net).sum → tryFrom i = none) := by
    rw [hp.nets g1 g2, plannedNets_sum g1 g2, ← runningSumsOk_iff]
    constructor
    · rintro ⟨n', hn', h⟩
      rw [hn, Option.some.injEq] at hn'
      rw [hn']; exact h
    · intro h; exact ⟨n, hn, h⟩
  by_cases h4 : overflow
  · have : o = .err (.valueSum .overflow) := by
      rw [ho, finish_err]; exact ⟨rfl, hov.1 h4⟩
    simp [this, h1, h2, h3, h4]
  have hnp : o ≠ .panic := by
    rw [ho]
    exact finish_ne_panic (hp.buildable g1 g2 fun s hs => requestable_buildable (hr s hs))
  have hnm : o ≠ .more := by rw [ho]; exact finish_ne_more he
  have hne : ∀ e, o ≠ .err e := by
    intro e h
    rw [ho, finish_err] at h
    exact h4 (hov.2 h.2)
  have hlen := hp.length_pre g1 g2
  cases hoo : o with
  | err e => exact absurd hoo (hne e)
  | panic => exact absurd hoo hnp
  | more => exact absurd hoo hnm
  | ok x =>
    rw [hoo] at ho
    obtain ⟨-, i, v, -, -, h5⟩ := finish_ok ho.symm
    rcases h5 with ⟨h5, h6⟩ | ⟨b', rows, h6, -, -, -, hx, hsp, -⟩
    · rw [h5] at hlen
      simp only [List.length_nil] at hlen
      simp [h1, h2, h3, h4, h6, ← hlen, hn]
    · have : n ≠ 0 := by
        rw [← hlen]
        intro h0
        have := congrArg List.length hsp
        rw [List.length_map, List.length_map, h0, hx.1.length_eq] at this
        exact b'.nonempty (List.length_eq_zero_iff.1 this)
      simp [h1, h2, h3, h4, h6, hn, this]

/-- **C13** (no other errors). Without any assumption, these are the only errors; in particular
`BundleTypeNotSatisfiable` is never returned. -/
theorem C13_only_errors (e : BuildError)
    (h : bundle P tryFrom rng anchor ty spends outputs = .err e) :
    e = .spendsDisabled ∨ e = .anchorMismatch ∨ e = .outputsDisabled ∨ e = .valueSum .overflow := by
  rcases bundle_err_inv h with ⟨h, -⟩ | ⟨h, -⟩ | ⟨h, -⟩ | ⟨h, -⟩ <;> simp [h]

/-! ### C14: flags and anchor -/

theorem _root_.List.Perm.all_of_append {α : Type} {l a c : List α} (h : l.Perm (a ++ c)) (ha : a = [])
    {p : α → Prop} (hc : ∀ x ∈ c, p x) : ∀ x ∈ l, p x := by
  intro x hx
  rw [h.mem_iff, ha, List.nil_append] at hx
  exact hc x hx

/-- **C14.** The bundle has the builder's flags and anchor; if spends (outputs) are disabled, all
spends (outputs) of its plan are dummies of value zero; every non-zero spend has a path to the
bundle's anchor. -/
theorem C14_flags_anchor (h : bundle P tryFrom rng anchor ty spends outputs = .ok (some (b, m))) :
    b.flags = ty.flags ∧ b.anchor = anchor ∧
    ∃ rows, Spec.Plan P rng spends outputs b rows ∧
      (b.flags.spendsEnabled = false →
        ∀ r ∈ rows, ∃ i, Spec.DummySpend P (rng.spendDummy i) r.spend) ∧
      (b.flags.outputsEnabled = false →
        ∀ r ∈ rows, ∃ i, Spec.DummyOutput P (rng.outputDummy i) r.output) ∧
      ∀ r ∈ rows, Spec.intValue r.spend.note.value ≠ 0 → Spec.PathToAnchor P b.anchor r.spend := by
  obtain ⟨n, dS, dO, pre, rows, hc, hp, -, -, hfl, han, he, hs, ho, hr, ha⟩ := bundle_some_inv h
  have hplan := plan_of_inv hc hp he hs ho hr ha
  refine ⟨hfl, han, rows, hplan, ?_, ?_, ?_⟩
  · intro hd r hrr
    obtain ⟨dS', p1, -, p2⟩ := hplan.spends
    have h0 : spends = [] := by
      rcases hc.spends_flag with h | h
      · rw [hfl, h] at hd; simp at hd
      · exact List.length_eq_zero_iff.1 h
    refine p1.all_of_append h0 (p := fun s => ∃ i, Spec.DummySpend P (rng.spendDummy i) s) ?_ _
      (List.mem_map_of_mem hrr)
    intro x hx
    obtain ⟨i, hi⟩ := List.getElem?_of_mem hx
    exact ⟨i, p2 i x hi⟩
  · intro hd r hrr
    obtain ⟨dO', p1, -, p2⟩ := hplan.outputs
    have h0 : outputs = [] := by
      rcases hc.outputs_flag with h | h
      · rw [hfl, h] at hd; simp at hd
      · exact List.length_eq_zero_iff.1 h
    refine p1.all_of_append h0 (p := fun s => ∃ i, Spec.DummyOutput P (rng.outputDummy i) s) ?_ _
      (List.mem_map_of_mem hrr)
    intro x hx
    obtain ⟨i, hi⟩ := List.getElem?_of_mem hx
    exact ⟨i, p2 i x hi⟩
  · intro r hrr hnz
    obtain ⟨dS', p1, -, p2⟩ := hplan.spends
    have hm : r.spend ∈ spends ++ dS' := p1.mem_iff.1 (List.mem_map_of_mem hrr)
    rw [han]
    rcases List.mem_append.1 hm with hm | hm
    · rcases hc.anchors _ hm with h | h
      · exact absurd h hnz
      · exact h
    · obtain ⟨i, hi⟩ := List.getElem?_of_mem hm
      exact absurd (p2 i _ hi).1 hnz

/-- **C14** (coinbase). In a coinbase bundle spends are disabled, outputs enabled, and every spend is
a dummy of value zero. -/
theorem C14_coinbase
    (h : bundle P tryFrom rng anchor .coinbase spends outputs = .ok (some (b, m))) :
    b.flags = ⟨false, true⟩ ∧ spends = [] ∧ b.actions.length = outputs.length ∧
    ∃ rows, Spec.Plan P rng spends outputs b rows ∧
      ∀ r ∈ rows, ∃ i, Spec.DummySpend P (rng.spendDummy i) r.spend := by
  obtain ⟨h1, -, rows, h2, h3, -⟩ := C14_flags_anchor h
  have hl := C05_built _ _ _ _ _ _ _ _ _ h
  have h0 : spends = [] := by
    obtain ⟨n, -, -, -, -, hc, -⟩ := bundle_some_inv h
    rcases hc.spends_flag with h | h
    · simp [BundleType.flags, Flags.SPENDS_DISABLED] at h
    · exact List.length_eq_zero_iff.1 h
  refine ⟨h1, h0, ?_, rows, h2, h3 (by rw [h1]; rfl)⟩
  subst h0
  rw [List.length_nil, (C05_coinbase 0 outputs.length).2 rfl, Option.some.injEq] at hl
  exact hl.symm

/-! ### C15: assembling an action -/

/-- **C15.** The action and circuit witness built from a pre-action: the nullifier is that of the spent
note; `rho` of the created note is this nullifier; `rk = ak + [alpha] G`; the created note has the
requested recipient and value and a seed drawn for it; `cmx` is its extracted commitment; the value
commitment opens to spend minus output value with the recorded trapdoor; the ciphertexts encrypt the
created note and the memo; the recorded signing data are `ak` and `alpha`; and the circuit holds
exactly the opening of all of these. -/
theorem C15_action {E : Type} (P : Prims) (a : ActionInfo) (rng : ActionDraws)
    (act : Action SigningMetadata) (c : Circuit) (h : (a.build P rng : Run E _) = .ok (act, c)) :
    ∃ (note : Note) (cmOld cmNew : Point),
      Spec.commitmentOf P a.spend.note = some cmOld ∧
      act.nf = Spec.deriveNullifier P a.spend.fvk.nk a.spend.note.rho
        (Spec.psi P a.spend.note.rseed a.spend.note.rho) cmOld ∧
      act.rk.point = a.spend.fvk.ak.point + rng.alpha • Constants.spendAuthG ∧
      note.rho = act.nf ∧ note.recipient = a.output.recipient ∧ note.value = a.output.value ∧
      note.rseed ∈ rng.seedDraws ∧
      Spec.commitmentOf P note = some cmNew ∧ act.cmx = extractP cmNew ∧
      act.cvNet.inner = ((Spec.intValue a.spend.note.value - Spec.intValue a.output.value : ℤ) : Fq) •
        Constants.valueCommitV + a.rcv.inner • Constants.valueCommitR ∧
      encryptNote P a.output.ovk note a.output.memo act.cvNet act.cmx rng.rndOck rng.rndOp =
        .ret act.encryptedNote ∧
      act.authorization.parts = ⟨a.spend.fvk.ak, rng.alpha⟩ ∧
      Spec.IsWitness P ⟨a.spend, a.output, a.rcv.inner, rng.alpha, note, rng.rndOck, rng.rndOp⟩ c := by
  obtain ⟨note, h0, h1, h2⟩ := build_eq_ok h
  obtain ⟨cm, hcm, hnf⟩ := h1.nullifier
  obtain ⟨cm', hcm', hx⟩ := h1.cmx
  exact ⟨note, cm, cm', hcm, hnf, h1.rk, h1.rho, h1.recipient, h1.value, h0, hcm', hx, h1.cvNet,
    h1.ciphertext, h1.parts, h2⟩

end

/-- Under `P0`, actions can be built from any requestable spend and any output. -/
example : ∃ (s : SpendInfo) (act : Action SigningMetadata) (c : Circuit), s.note.value.inner = 5 ∧
    ((⟨s, Examples.output0 3, ⟨2⟩⟩ : ActionInfo).build Examples.P0
      ((Examples.rng0 Examples.path0).action 0) : Run BuildError _) = .ok (act, c) := by
  obtain ⟨s, anchor, h1, h2, -⟩ := Examples.spend_P0 5
  have he := (Examples.rng_ok (rng := Examples.rng0 Examples.path0) (fun _ => rfl) (fun _ => rfl)
    (fun _ => rfl) (fun _ => rfl)).2
  have n1 := build_ne_panic (E := BuildError) (a := ⟨s, Examples.output0 3, ⟨2⟩⟩)
    (rng := (Examples.rng0 Examples.path0).action 0) (requestable_buildable h2)
  have n2 := build_ne_more (E := BuildError) (a := ⟨s, Examples.output0 3, ⟨2⟩⟩) (he.2.2 0)
  cases hb : ((⟨s, Examples.output0 3, ⟨2⟩⟩ : ActionInfo).build Examples.P0
      ((Examples.rng0 Examples.path0).action 0) : Run BuildError _) with
  | ok x => exact ⟨s, x.1, x.2, by rw [h1], hb⟩
  | err e => exact absurd hb build_ne_err
  | panic => exact absurd hb n1
  | more => exact absurd hb n2

/-! ### Built bundles exist, for every shuffle -/

/-- Under `P0`: a spend of value 5 and two outputs of value 1 and 2 are built into a bundle of two
actions, whatever the shuffles. (A case for C08-C10, C12, C13, C14, C76.) -/
theorem Examples.built_P0_all : ∃ s anchor, s.note.value.inner = 5 ∧
    Spec.Requestable Examples.P0 s ∧ ∀ g g' : ℕ → ℕ, ∃ b m,
    bundle Examples.P0 some
      { Examples.rng0 Examples.path0 with spendShuffle := g, outputShuffle := g' } anchor .DEFAULT [s]
      [Examples.output0 1, Examples.output0 2] = .ok (some (b, m)) ∧ b.actions.length = 2 := by
  obtain ⟨s, anchor, h1, h2, h3⟩ := Examples.spend_P0 5
  refine ⟨s, anchor, by rw [h1], h2, fun g g' => ?_⟩
  obtain ⟨hk, he⟩ := Examples.rng_ok
    (rng := { Examples.rng0 Examples.path0 with spendShuffle := g, outputShuffle := g' })
    (fun _ => rfl) (fun _ => rfl) (fun _ => rfl) (fun _ => rfl)
  have hv : Spec.totalSpends [s] = 5 := by
    simp only [Spec.totalSpends, List.map_cons, List.map_nil, h1]; decide
  have ho : Spec.totalOutputs [Examples.output0 1, Examples.output0 2] = 3 := by decide
  have key := (C13_outcome (tryFrom := some) (anchor := anchor) (ty := .DEFAULT) (spends := [s])
    (outputs := [Examples.output0 1, Examples.output0 2])
    (by intro s' hs'; rw [List.mem_singleton.1 hs']; exact h2) hk he).2.2.2.2.2.2
    ⟨by simp [BundleType.DEFAULT, BundleType.flags, Flags.ENABLED], ?_,
      by simp [BundleType.DEFAULT, BundleType.flags, Flags.ENABLED], ?_, by simp [BundleType.numActions,
        BundleType.DEFAULT, Flags.ENABLED, MIN_ACTIONS]⟩
  · obtain ⟨⟨b, m⟩, hb⟩ := key
    refine ⟨b, m, hb, ?_⟩
    have := C05_built _ _ _ _ _ _ _ _ _ hb
    simpa [BundleType.numActions, BundleType.DEFAULT, Flags.ENABLED, MIN_ACTIONS] using this.symm
  · rintro ⟨s', hs', hn⟩
    rw [List.mem_singleton.1 hs'] at hn
    exact hn (Or.inr h3)
  · rintro ⟨n, hn, h | h⟩
    · obtain ⟨g1, g2⟩ := numActions_ge hn
      exact h (plannedNets_ok g1 g2 (by rw [hv]; norm_num) (by rw [ho]; norm_num))
    · have := h ⟨2, by decide⟩ (by rw [hv, ho]; norm_num)
      simp at this

/-- The same, for one pair of shuffles. -/
theorem Examples.built_P0 (g g' : ℕ → ℕ) : ∃ s anchor b m, s.note.value.inner = 5 ∧
    Spec.Requestable Examples.P0 s ∧
    bundle Examples.P0 some
      { Examples.rng0 Examples.path0 with spendShuffle := g, outputShuffle := g' } anchor .DEFAULT [s]
      [Examples.output0 1, Examples.output0 2] = .ok (some (b, m)) ∧ b.actions.length = 2 := by
  obtain ⟨s, anchor, h1, h2, h⟩ := Examples.built_P0_all
  obtain ⟨b, m, h3, h4⟩ := h g g'
  exact ⟨s, anchor, b, m, h1, h2, h3, h4⟩

/-! ### C11: building can fail although `value_balance` succeeds, and vice versa -/

/-- The largest note value. -/
def Examples.maxValue : UInt64 := 18446744073709551615

theorem maxValue_int : Spec.intValue ⟨Examples.maxValue⟩ = 2 ^ 64 - 1 := by decide

/-- **C11** (finding). For a spend of value `2^64-1` and outputs of values `2^64-2`, 3 and 3:
`value_balance` reports `-5`, and building succeeds when nothing is shuffled, but fails with a value
overflow when the spends are shuffled such that the real spend comes last. -/
theorem C11_depends_on_shuffle : ∃ (s : SpendInfo) (outputs : List OutputInfo) (anchor : Fp)
    (rng rng' : BuildDraws), rng' = { rng with spendShuffle := rng'.spendShuffle } ∧
    (⟨[s], outputs, .DEFAULT, anchor⟩ : Builder).valueBalance some = .ret (.ok ⟨-5, by decide⟩) ∧
    (∃ x, (⟨[s], outputs, .DEFAULT, anchor⟩ : Builder).build Examples.P0 some rng = .ok (some x)) ∧
    (⟨[s], outputs, .DEFAULT, anchor⟩ : Builder).build Examples.P0 some rng' =
      .err (.valueSum .overflow) := by
  obtain ⟨s, anchor, h1, h2, h3⟩ := Examples.spend_P0 Examples.maxValue
  have hs : Spec.intValue s.note.value = 2 ^ 64 - 1 := by rw [h1]; exact maxValue_int
  let outs : List OutputInfo := [Examples.output0 18446744073709551614, Examples.output0 3,
    Examples.output0 3]
  have ho : outs.map (fun o => Spec.intValue o.value) = [2 ^ 64 - 2, 3, 3] := by decide
  have hv : Spec.totalSpends [s] = 2 ^ 64 - 1 := by simp [Spec.totalSpends, hs]
  have hvo : Spec.totalOutputs outs = 2 ^ 64 + 4 := by unfold Spec.totalOutputs; rw [ho]; norm_num
  have hreq : ∀ s' ∈ [s], Spec.Requestable Examples.P0 s' := by
    intro s' hs'; rw [List.mem_singleton.1 hs']; exact h2
  have hnil : PartialsOk 0 [] := by intro k hk h1; simp at hk; omega
  have hanc : ¬ ∃ s' ∈ [s], ¬ Spec.AnchorOk Examples.P0 anchor s' := by
    rintro ⟨s', hs', hn⟩
    rw [List.mem_singleton.1 hs'] at hn
    exact hn (Or.inr h3)
  have hnum : BundleType.DEFAULT.numActions [s].length outs.length = some 3 := by
    simp [outs, BundleType.numActions, BundleType.DEFAULT, Flags.ENABLED, MIN_ACTIONS]
  refine ⟨s, outs, anchor, Examples.rng0 Examples.path0,
    { Examples.rng0 Examples.path0 with spendShuffle := fun i => if i = 2 then 0 else i }, rfl, ?_, ?_, ?_⟩
  · obtain ⟨r, e, e1, -⟩ := C07_value_balance some (⟨[s], outs, .DEFAULT, anchor⟩ : Builder)
    rw [e, (e1 _).2 ⟨?_, ⟨-5, by decide⟩, by rw [hv, hvo]; norm_num, rfl⟩]
    have : Spec.signedValues (⟨[s], outs, .DEFAULT, anchor⟩ : Builder) =
        [2 ^ 64 - 1, -(2 ^ 64 - 2), -3, -3] := by
      simp only [Spec.signedValues, List.map_cons, List.map_nil, hs]; decide
    rw [this, runningSumsOk_iff]
    simp only [partialsOk_cons]
    norm_num
    intro k hk h1; simp at hk; omega
  · obtain ⟨hk, he⟩ := Examples.rng_ok (rng := Examples.rng0 Examples.path0)
      (fun _ => rfl) (fun _ => rfl) (fun _ => rfl) (fun _ => rfl)
    refine (C13_outcome (tryFrom := some) (anchor := anchor) (ty := .DEFAULT) hreq hk he).2.2.2.2.2.2
      ⟨by simp [BundleType.DEFAULT, BundleType.flags, Flags.ENABLED], hanc,
        by simp [BundleType.DEFAULT, BundleType.flags, Flags.ENABLED], ?_, by rw [hnum]; simp⟩
    rintro ⟨n, hn, h | h⟩
    · rw [hnum, Option.some.injEq] at hn
      subst hn
      apply h
      have : Spec.plannedNets (Examples.rng0 Examples.path0) [s] outs 3 = [1, -3, -3] := by
        unfold Spec.plannedNets
        rw [ho]
        simp only [List.map_cons, List.map_nil, hs, List.length_cons, List.length_nil]; decide
      rw [this, runningSumsOk_iff]
      simp only [partialsOk_cons]
      norm_num
      intro k hk h1; simp at hk; omega
    · have := h ⟨-5, by decide⟩ (by rw [hv, hvo]; norm_num)
      simp at this
  · obtain ⟨hk, he⟩ := Examples.rng_ok (rng := { Examples.rng0 Examples.path0 with
        spendShuffle := fun i => if i = 2 then 0 else i })
      (fun _ => rfl) (fun _ => rfl) (fun _ => rfl) (fun _ => rfl)
    refine (C13_outcome (tryFrom := some) (anchor := anchor) (ty := .DEFAULT) hreq hk he).2.2.2.1.2
      ⟨by simp [BundleType.DEFAULT, BundleType.flags, Flags.ENABLED], hanc,
        by simp [BundleType.DEFAULT, BundleType.flags, Flags.ENABLED], 3, hnum, Or.inl ?_⟩
    have : Spec.plannedNets { Examples.rng0 Examples.path0 with
        spendShuffle := fun i => if i = 2 then 0 else i } [s] outs 3 =
        [-(2 ^ 64 - 2), -3, 2 ^ 64 - 4] := by
      unfold Spec.plannedNets
      rw [ho]
      simp only [List.map_cons, List.map_nil, hs, List.length_cons, List.length_nil]; decide
    rw [this, runningSumsOk_iff]
    simp only [partialsOk_cons]
    norm_num

/-- **C11** (finding, other direction). For two spends and two outputs of value `2^64-1` each,
`value_balance` fails with an overflow, but building succeeds. -/
theorem C11_value_balance_not_necessary : ∃ (s : SpendInfo) (outputs : List OutputInfo) (anchor : Fp),
    (⟨[s, s], outputs, .DEFAULT, anchor⟩ : Builder).valueBalance some = .ret (.error .overflow) ∧
    ∀ g g' : ℕ → ℕ, ∃ x, (⟨[s, s], outputs, .DEFAULT, anchor⟩ : Builder).build Examples.P0 some
      { Examples.rng0 Examples.path0 with spendShuffle := g, outputShuffle := g' } = .ok (some x) := by
  obtain ⟨s, anchor, h1, h2, h3⟩ := Examples.spend_P0 Examples.maxValue
  have hs : Spec.intValue s.note.value = 2 ^ 64 - 1 := by rw [h1]; exact maxValue_int
  let outs : List OutputInfo := [Examples.output0 Examples.maxValue, Examples.output0 Examples.maxValue]
  have ho : outs.map (fun o => Spec.intValue o.value) = [2 ^ 64 - 1, 2 ^ 64 - 1] := by decide
  have hv : Spec.totalSpends [s, s] = 2 ^ 65 - 2 := by simp [Spec.totalSpends, hs]
  have hvo : Spec.totalOutputs outs = 2 ^ 65 - 2 := by unfold Spec.totalOutputs; rw [ho]; norm_num
  have hreq : ∀ s' ∈ [s, s], Spec.Requestable Examples.P0 s' := by
    intro s' hs'
    simp only [List.mem_cons, List.not_mem_nil, or_false, or_self] at hs'
    rw [hs']; exact h2
  have hanc : ¬ ∃ s' ∈ [s, s], ¬ Spec.AnchorOk Examples.P0 anchor s' := by
    rintro ⟨s', hs', hn⟩
    simp only [List.mem_cons, List.not_mem_nil, or_false, or_self] at hs'
    rw [hs'] at hn
    exact hn (Or.inr h3)
  have hnum : BundleType.DEFAULT.numActions [s, s].length outs.length = some 2 := by
    simp [outs, BundleType.numActions, BundleType.DEFAULT, Flags.ENABLED, MIN_ACTIONS]
  refine ⟨s, outs, anchor, ?_, ?_⟩
  · obtain ⟨r, e, -, e2⟩ := C07_value_balance some (⟨[s, s], outs, .DEFAULT, anchor⟩ : Builder)
    rw [e, e2.2 (Or.inl ?_)]
    have : Spec.signedValues (⟨[s, s], outs, .DEFAULT, anchor⟩ : Builder) =
        [2 ^ 64 - 1, 2 ^ 64 - 1, -(2 ^ 64 - 1), -(2 ^ 64 - 1)] := by
      simp only [Spec.signedValues, List.map_cons, List.map_nil, hs]; decide
    rw [this, runningSumsOk_iff]
    simp only [partialsOk_cons]
    norm_num
  · intro g g'
    obtain ⟨hk, he⟩ := Examples.rng_ok (rng := { Examples.rng0 Examples.path0 with
        spendShuffle := g, outputShuffle := g' })
      (fun _ => rfl) (fun _ => rfl) (fun _ => rfl) (fun _ => rfl)
    refine (C13_outcome (tryFrom := some) (anchor := anchor) (ty := .DEFAULT) hreq hk he).2.2.2.2.2.2
      ⟨by simp [BundleType.DEFAULT, BundleType.flags, Flags.ENABLED], hanc,
        by simp [BundleType.DEFAULT, BundleType.flags, Flags.ENABLED], ?_, by rw [hnum]; simp⟩
    rintro ⟨n, hn, h | h⟩
    · rw [hnum, Option.some.injEq] at hn
      subst hn
      apply h
      have two : ∀ (g : ℕ → ℕ) (x : ℤ), shuffle g [x, x] = [x, x] := by
        intro g x
        exact List.perm_replicate.1 (show (shuffle g [x, x]).Perm (List.replicate 2 x) from
          shuffle_perm g [x, x])
      have : Spec.plannedNets { Examples.rng0 Examples.path0 with
          spendShuffle := g, outputShuffle := g' } [s, s] outs 2 = [0, 0] := by
        unfold Spec.plannedNets
        rw [ho]
        simp only [List.map_cons, List.map_nil, hs, List.length_cons, List.length_nil, outs,
          Nat.sub_self, List.replicate_zero, List.append_nil, two]
        norm_num
      rw [this, runningSumsOk_iff]
      simp only [partialsOk_cons]
      norm_num
      intro k hk h1; simp at hk; omega
    · have := h ⟨0, by decide⟩ (by rw [hv, hvo]; norm_num)
      simp at this

/-! ### Building after any history of calls -/

/-- **C12, C13** (from the caller's side). After any history of calls on a new builder, building does
not panic and cannot fail with `SpendsDisabled`, `AnchorMismatch` or `OutputsDisabled`: only a value
overflow is possible. -/
theorem C12_after_any_history (P : Prims) (ty : BundleType) (anchor : Fp) (cs : List Builder.Call)
    (hcs : ∀ c ∈ cs, Spec.CallOk P c) (tryFrom : I64 → Option V) (rng : BuildDraws)
    (hk : Spec.NoZeroKeys P rng) :
    ∃ rs b, (Builder.new ty anchor).calls P cs = .ret (rs, b) ∧
      b.build P tryFrom rng ≠ .panic ∧
      ∀ e, b.build P tryFrom rng = .err e → e = .valueSum .overflow := by
  obtain ⟨rs, b, h1, -, h2, h3, -, -, h4, h5⟩ := C06_history P ty anchor cs hcs
  refine ⟨rs, b, h1, C12_no_panic (fun s hs => (h4 s hs).1) hk, fun e he => ?_⟩
  rcases bundle_err_inv he with ⟨-, h, h'⟩ | ⟨-, -, h⟩ | ⟨-, -, -, h, h'⟩ | ⟨h, -⟩
  · obtain ⟨s, hs⟩ := List.exists_mem_of_ne_nil _ h'
    rw [h2, (h4 s hs).2.2] at h; simp at h
  · obtain ⟨r, e1, e2⟩ := allMatchAnchor_eq (P := P) (anchor := b.anchor) (l := b.spends)
      (fun s hs => (h4 s hs).1.2.2.2)
    rw [h, Outcome.ret.injEq] at e1
    rw [← e1] at e2
    have := e2.2 fun s hs => by rw [h3]; exact (h4 s hs).2.1
    simp at this
  · obtain ⟨o, ho⟩ := List.exists_mem_of_ne_nil _ h'
    rw [h2, h5 o ho] at h; simp at h
  · exact h

/-! ### C56: constructing circuits -/

/-- **C56.** `Circuit::from_action_context` returns a circuit iff `rho` of the output note is the
nullifier of the spent note under the given viewing key; the circuit then holds exactly the given
parts (`Spec.IsWitness`). -/
theorem C56_from_action_context (P : Prims) (spend : SpendInfo) (note : Note) (alpha : Fq)
    (rcv : ValueCommitTrapdoor) (hv : Spec.ValidFvk P spend.fvk.ak.point spend.fvk.nk spend.fvk.rivk)
    (cm : Point) (hcm : Spec.commitmentOf P spend.note = some cm) :
    ∃ r, Circuit.fromActionContext P spend note alpha rcv = .ret r ∧
      (r.isSome ↔ note.rho = Spec.deriveNullifier P spend.fvk.nk spend.note.rho
        (Spec.psi P spend.note.rseed spend.note.rho) cm) ∧
      ∀ c, r = some c → ∀ (o : OutputInfo) (x : Bytes 32) (y : Bytes 64),
        Spec.IsWitness P ⟨spend, o, rcv.inner, alpha, note, x, y⟩ c := by
  have hun : ∃ c, Circuit.fromActionContextUnchecked P spend note alpha rcv = .ret c := by
    unfold Circuit.fromActionContextUnchecked
    simp only [commitment_eq_ret.2 hcm, rivkFor_valid hv, Outcome.ret_bind, Outcome.pure_eq]
    exact ⟨_, rfl⟩
  obtain ⟨c, hc⟩ := hun
  unfold Circuit.fromActionContext
  rw [(C40_formula P spend.note spend.fvk).1 cm hcm, Outcome.ret_bind]
  by_cases h : Spec.deriveNullifier P spend.fvk.nk spend.note.rho
        (Spec.psi P spend.note.rseed spend.note.rho) cm = note.rho
  · rw [if_pos h, hc]
    refine ⟨some c, rfl, by simp [h], ?_⟩
    intro c' hc' o x y
    rw [Option.some.injEq] at hc'
    subst hc'
    exact circuit_eq_ret hc o x y
  · rw [if_neg h]
    exact ⟨none, rfl, by simp [Ne.symm h], by simp⟩

example : ∃ (s : SpendInfo) (note : Note) (c : Circuit),
    Circuit.fromActionContext Examples.P0 s note 1 ⟨2⟩ = .ret (some c) := by
  obtain ⟨s, anchor, h1, h2, -⟩ := Examples.spend_P0 5
  obtain ⟨cm, hcm⟩ := h2.2.2.2
  obtain ⟨r, e, e1, -⟩ := C56_from_action_context Examples.P0 s ⟨s.note.recipient, ⟨1⟩, _, default⟩ 1 ⟨2⟩
    h2.2.1 cm hcm
  obtain ⟨c, hc⟩ := Option.isSome_iff_exists.1 (e1.2 rfl)
  exact ⟨s, _, c, by rw [e, hc]⟩

end Orchard
