import Verif.Lemmas.Builder

/-!
# Lemmas about `bundle`
-/

namespace Orchard

open RedPallas

variable {V : Type}

/-- The part of `bundle` after the plan has been made (`builder.rs:636-678`). -/
noncomputable def finish (P : Prims) (tryFrom : I64 → Option V) (rng : BuildDraws) (anchor : Fp)
    (flags : Flags) (x : BundleMetadata × List ActionInfo) :
    Run BuildError (Option (UnauthorizedBundle V × BundleMetadata)) := do
  let bundleMeta := x.1
  let preActions := x.2
  let vb ← planBalance tryFrom preActions
  let bsk : SigningKey .binding :=
    ⟨(ValueCommitTrapdoor.sum (preActions.map ActionInfo.rcv)).inner⟩
  let built ← preActions.zipIdx.mapM fun a => a.1.build P (rng.action a.2)
  let actions := built.map Prod.fst
  let circuits := built.map Prod.snd
  let balanceCommitment ← Run.ofOutcome
    (Option.unwrapO (ValueCommitment.derive vb.1 ValueCommitTrapdoor.zero))
  let bvk : VerificationKey .binding :=
    ⟨((ValueCommitment.sum (actions.map Action.cvNet)).sub balanceCommitment).inner⟩
  Run.ofOutcome (assertO (decide (bsk.vk = bvk)))
  if h : actions ≠ [] then
    pure (some
      ({ actions := actions, nonempty := h, flags := flags, valueBalance := vb.2,
         anchor := anchor,
         authorization := { proof := { circuits := circuits }, sigs := { bsk := bsk } } },
       bundleMeta))
  else pure none

/-- The part of `bundle` after the checks (`builder.rs:590-678`). -/
noncomputable def construct (P : Prims) (tryFrom : I64 → Option V) (rng : BuildDraws) (anchor : Fp)
    (flags : Flags) (spends : List SpendInfo) (outputs : List OutputInfo) (numActions : ℕ) :
    Run BuildError (Option (UnauthorizedBundle V × BundleMetadata)) := do
  let indexedSpends ←
    indexedPadded (fun i => SpendInfo.dummy P (rng.spendDummy i)) spends numActions
  let indexedOutputs ←
    indexedPadded (fun i => OutputInfo.dummy P (rng.outputDummy i)) outputs numActions
  let x ← Run.ofOutcome (recordActions (shuffle rng.spendShuffle indexedSpends)
    (shuffle rng.outputShuffle indexedOutputs) spends.length outputs.length rng.rcv)
  finish P tryFrom rng anchor flags x

theorem bundle_eq (P : Prims) (tryFrom : I64 → Option V) (rng : BuildDraws) (anchor : Fp)
    (ty : BundleType) (spends : List SpendInfo) (outputs : List OutputInfo) :
    bundle P tryFrom rng anchor ty spends outputs =
      if !ty.flags.spendsEnabled && decide (0 < spends.length) then .err .spendsDisabled
      else Run.ofOutcome (allMatchAnchor P anchor spends) >>= fun matching =>
        if !matching then .err .anchorMismatch
        else if !ty.flags.outputsEnabled && decide (0 < outputs.length) then .err .outputsDisabled
        else match ty.numActions spends.length outputs.length with
          | none => .err .bundleTypeNotSatisfiable
          | some n => construct P tryFrom rng anchor ty.flags spends outputs n := rfl

/-- With the flag checks passed, the number of actions is defined. -/
theorem numActions_of_flags {ty : BundleType} {s o : ℕ}
    (h1 : (!ty.flags.spendsEnabled && decide (0 < s)) = false)
    (h2 : (!ty.flags.outputsEnabled && decide (0 < o)) = false) :
    ∃ n, ty.numActions s o = some n := by
  cases ty with
  | transactional flags req =>
    simp only [BundleType.flags] at h1 h2
    simp only [BundleType.numActions, h1, h2, Bool.false_eq_true, if_false]
    exact ⟨_, rfl⟩
  | coinbase =>
    simp only [BundleType.flags, Flags.SPENDS_DISABLED, Bool.not_false, Bool.true_and,
      decide_eq_false_iff_not] at h1
    simp only [BundleType.numActions, h1, if_false]
    exact ⟨_, rfl⟩

/-- The plan: how spends and outputs were padded, shuffled, paired and recorded. -/
structure Planned (P : Prims) (rng : BuildDraws) (spends : List SpendInfo) (outputs : List OutputInfo)
    (n : ℕ) (dS : List SpendInfo) (dO : List OutputInfo) (m : BundleMetadata) (pre : List ActionInfo) :
    Prop where
  dummySpends : List.Forall₂ (fun i d => (SpendInfo.dummy P (rng.spendDummy i) :
    Run BuildError SpendInfo) = .ok d) (List.range (n - spends.length)) dS
  dummyOutputs : List.Forall₂ (fun i d => (OutputInfo.dummy P (rng.outputDummy i) :
    Run BuildError OutputInfo) = .ok d) (List.range (n - outputs.length)) dO
  pre_eq : pre = (((shuffle rng.spendShuffle (spends ++ dS).zipIdx).zip
    (shuffle rng.outputShuffle (outputs ++ dO).zipIdx)).zipIdx).map (planAt rng.rcv)
  recS : Recorded spends.length
    (((shuffle rng.spendShuffle (spends ++ dS).zipIdx).zip
      (shuffle rng.outputShuffle (outputs ++ dO).zipIdx)).map fun x => x.1.2) 0
    (List.replicate spends.length 0) m.spendIndices
  recO : Recorded outputs.length
    (((shuffle rng.spendShuffle (spends ++ dS).zipIdx).zip
      (shuffle rng.outputShuffle (outputs ++ dO).zipIdx)).map fun x => x.2.2) 0
    (List.replicate outputs.length 0) m.outputIndices

theorem recordActions_eq (S : List (SpendInfo × ℕ)) (O : List (OutputInfo × ℕ)) (s o : ℕ)
    (rcv : ℕ → Fq) :
    ∃ m, recordActions S O s o rcv = .ret (m, ((S.zip O).zipIdx).map (planAt rcv)) ∧
      Recorded s ((S.zip O).map fun x => x.1.2) 0 (List.replicate s 0) m.spendIndices ∧
      Recorded o ((S.zip O).map fun x => x.2.2) 0 (List.replicate o 0) m.outputIndices := by
  obtain ⟨m, h1, h2, h3⟩ := recordActions_fold (S := s) (O := o) rcv (S.zip O) 0
    (BundleMetadata.new s o, []) (by simp [BundleMetadata.new]) (by simp [BundleMetadata.new])
  exact ⟨m, by simpa [recordActions] using h1, h2, h3⟩

/-- `construct` with dummies that can be drawn is `finish` applied to the plan. -/
theorem construct_of_dummies {P : Prims} {tryFrom : I64 → Option V} {rng : BuildDraws} {anchor : Fp}
    {flags : Flags} {spends : List SpendInfo} {outputs : List OutputInfo} {n : ℕ}
    {dS : List SpendInfo} {dO : List OutputInfo}
    (hs : spends.length ≤ n) (ho : outputs.length ≤ n)
    (h1 : List.Forall₂ (fun i d => (SpendInfo.dummy P (rng.spendDummy i) :
      Run BuildError SpendInfo) = .ok d) (List.range (n - spends.length)) dS)
    (h2 : List.Forall₂ (fun i d => (OutputInfo.dummy P (rng.outputDummy i) :
      Run BuildError OutputInfo) = .ok d) (List.range (n - outputs.length)) dO) :
    ∃ m pre, Planned P rng spends outputs n dS dO m pre ∧
      construct P tryFrom rng anchor flags spends outputs n =
        finish P tryFrom rng anchor flags (m, pre) := by
  obtain ⟨m, e1, e2, e3⟩ := recordActions_eq (shuffle rng.spendShuffle (spends ++ dS).zipIdx)
    (shuffle rng.outputShuffle (outputs ++ dO).zipIdx) spends.length outputs.length rng.rcv
  refine ⟨m, _, ⟨h1, h2, rfl, e2, e3⟩, ?_⟩
  unfold construct
  rw [(indexedPadded_eq_ok hs).2 ⟨dS, h1, rfl⟩, Run.ok_bind,
    (indexedPadded_eq_ok ho).2 ⟨dO, h2, rfl⟩, Run.ok_bind, e1]
  rfl

theorem construct_ok {P : Prims} {tryFrom : I64 → Option V} {rng : BuildDraws} {anchor : Fp}
    {flags : Flags} {spends : List SpendInfo} {outputs : List OutputInfo} {n : ℕ}
    {r : Option (UnauthorizedBundle V × BundleMetadata)}
    (hs : spends.length ≤ n) (ho : outputs.length ≤ n)
    (h : construct P tryFrom rng anchor flags spends outputs n = .ok r) :
    ∃ dS dO m pre, Planned P rng spends outputs n dS dO m pre ∧
      finish P tryFrom rng anchor flags (m, pre) = .ok r := by
  have h' := h
  unfold construct at h
  rw [Run.bind_eq_ok] at h
  obtain ⟨iS, h1, h⟩ := h
  obtain ⟨dS, h1, -⟩ := (indexedPadded_eq_ok hs).1 h1
  rw [Run.bind_eq_ok] at h
  obtain ⟨iO, h2, h⟩ := h
  obtain ⟨dO, h2, -⟩ := (indexedPadded_eq_ok ho).1 h2
  obtain ⟨m, pre, hp, e⟩ := construct_of_dummies (tryFrom := tryFrom) (anchor := anchor)
    (flags := flags) hs ho h1 h2
  exact ⟨dS, dO, m, pre, hp, e ▸ h'⟩

/-- The lists of dummies, when they can be drawn: success, or the draws are used up. -/
theorem mapM_run_cases {E α β : Type} {f : α → Run E β} {l : List α}
    (he : ∀ a ∈ l, ∀ e, f a ≠ .err e) (hp : ∀ a ∈ l, f a ≠ .panic) :
    (∃ bs, l.mapM f = .ok bs) ∨ l.mapM f = .more := by
  cases h : l.mapM f with
  | ok bs => exact Or.inl ⟨bs, rfl⟩
  | err e => exact absurd h (Run.mapM_ne_err (fun a ha => he a ha e))
  | panic => exact absurd h (Run.mapM_ne_panic hp)
  | more => exact Or.inr rfl

namespace Planned

variable {P : Prims} {rng : BuildDraws} {spends : List SpendInfo} {outputs : List OutputInfo}
  {n : ℕ} {dS : List SpendInfo} {dO : List OutputInfo} {m : BundleMetadata} {pre : List ActionInfo}

theorem length_dS (h : Planned P rng spends outputs n dS dO m pre) :
    dS.length = n - spends.length := by
  have := h.dummySpends.length_eq
  rw [List.length_range] at this; exact this.symm

theorem length_dO (h : Planned P rng spends outputs n dS dO m pre) :
    dO.length = n - outputs.length := by
  have := h.dummyOutputs.length_eq
  rw [List.length_range] at this; exact this.symm

theorem length_S (h : Planned P rng spends outputs n dS dO m pre) (hs : spends.length ≤ n) :
    (shuffle rng.spendShuffle (spends ++ dS).zipIdx).length = n := by
  rw [(shuffle_perm _ _).length_eq, List.length_zipIdx, List.length_append, h.length_dS]; omega

theorem length_O (h : Planned P rng spends outputs n dS dO m pre) (ho : outputs.length ≤ n) :
    (shuffle rng.outputShuffle (outputs ++ dO).zipIdx).length = n := by
  rw [(shuffle_perm _ _).length_eq, List.length_zipIdx, List.length_append, h.length_dO]; omega

theorem map_spend_pre (h : Planned P rng spends outputs n dS dO m pre) (hs : spends.length ≤ n)
    (ho : outputs.length ≤ n) :
    pre.map ActionInfo.spend = (shuffle rng.spendShuffle (spends ++ dS).zipIdx).map Prod.fst := by
  rw [h.pre_eq, List.map_map]
  have : (ActionInfo.spend ∘ planAt rng.rcv) = (fun x => x.1.1) ∘ Prod.fst := rfl
  rw [this, ← List.map_map, List.zipIdx_map_fst]
  have : (fun x : (SpendInfo × ℕ) × (OutputInfo × ℕ) => x.1.1) = Prod.fst ∘ Prod.fst := rfl
  rw [this, ← List.map_map, List.map_fst_zip]
  rw [h.length_S hs, h.length_O ho]

theorem map_output_pre (h : Planned P rng spends outputs n dS dO m pre) (hs : spends.length ≤ n)
    (ho : outputs.length ≤ n) :
    pre.map ActionInfo.output = (shuffle rng.outputShuffle (outputs ++ dO).zipIdx).map Prod.fst := by
  rw [h.pre_eq, List.map_map]
  have : (ActionInfo.output ∘ planAt rng.rcv) = (fun x => x.2.1) ∘ Prod.fst := rfl
  rw [this, ← List.map_map, List.zipIdx_map_fst]
  have : (fun x : (SpendInfo × ℕ) × (OutputInfo × ℕ) => x.2.1) = Prod.fst ∘ Prod.snd := rfl
  rw [this, ← List.map_map, List.map_snd_zip]
  rw [h.length_S hs, h.length_O ho]

theorem length_pre (h : Planned P rng spends outputs n dS dO m pre) (hs : spends.length ≤ n)
    (ho : outputs.length ≤ n) : pre.length = n := by
  have := congrArg List.length (h.map_spend_pre hs ho)
  rwa [List.length_map, List.length_map, h.length_S hs] at this

theorem perm_spends (h : Planned P rng spends outputs n dS dO m pre) (hs : spends.length ≤ n)
    (ho : outputs.length ≤ n) : (pre.map ActionInfo.spend).Perm (spends ++ dS) := by
  rw [h.map_spend_pre hs ho]
  have := (shuffle_perm rng.spendShuffle (spends ++ dS).zipIdx).map Prod.fst
  rwa [List.zipIdx_map_fst] at this

theorem perm_outputs (h : Planned P rng spends outputs n dS dO m pre) (hs : spends.length ≤ n)
    (ho : outputs.length ≤ n) : (pre.map ActionInfo.output).Perm (outputs ++ dO) := by
  rw [h.map_output_pre hs ho]
  have := (shuffle_perm rng.outputShuffle (outputs ++ dO).zipIdx).map Prod.fst
  rwa [List.zipIdx_map_fst] at this

end Planned

theorem map_snd_zipIdx_nodup {α : Type} (l : List α) : (l.zipIdx.map Prod.snd).Nodup := by
  rw [List.zipIdx_map_snd]; exact List.nodup_range'

/-- Position of requested element `j` after shuffling: it is recorded, and that is where it is. -/
theorem recorded_position {α : Type} (g : ℕ → ℕ) (req ds : List α) (vec : List ℕ)
    (hr : Recorded req.length ((shuffle g (req ++ ds).zipIdx).map Prod.snd) 0
      (List.replicate req.length 0) vec) (j : ℕ) (hj : j < req.length) :
    ∃ i, vec[j]? = some i ∧ ((shuffle g (req ++ ds).zipIdx).map Prod.fst)[i]? = some req[j] ∧
      ((shuffle g (req ++ ds).zipIdx).map Prod.snd)[i]? = some j := by
  have hmem : (req[j], j) ∈ shuffle g (req ++ ds).zipIdx := by
    rw [(shuffle_perm _ _).mem_iff, List.mem_zipIdx_iff_getElem?]
    simp [List.getElem?_append_left hj, hj]
  obtain ⟨i, hi, he⟩ := List.getElem_of_mem hmem
  refine ⟨i, ?_, ?_, ?_⟩
  · have hn : ((shuffle g (req ++ ds).zipIdx).map Prod.snd).Nodup :=
      (((shuffle_perm g (req ++ ds).zipIdx).map Prod.snd).nodup_iff).2 (map_snd_zipIdx_nodup _)
    have := hr.at_ hn i (by simpa using hi) (by simp [he, hj])
    simpa [he] using this
  · simp [List.getElem?_eq_getElem hi, he]
  · simp [List.getElem?_eq_getElem hi, he]

/-! ### The second half of `bundle` -/

/-- Net value of a planned action. -/
def ActionInfo.net (a : ActionInfo) : ℤ :=
  Spec.intValue a.spend.note.value - Spec.intValue a.output.value

theorem planBalance_eq (tryFrom : I64 → Option V) (l : List ActionInfo) :
    planBalance tryFrom l = match foldSum (l.map fun a => ⟨a.net⟩) with
      | none => .err (.valueSum .overflow)
      | some s => match convertBalance tryFrom s with
        | .error e => .err (.valueSum e)
        | .ok v => .ok (s, v) := by
  unfold planBalance
  rw [Outcome.mapM_of_ret (g := fun a => ⟨a.net⟩) (fun a _ => valueSum_eq a)]
  rfl

theorem map_net (l : List ActionInfo) :
    (l.map fun a => (⟨a.net⟩ : ValueSum)).map ValueSum.inner = l.map ActionInfo.net := by
  rw [List.map_map]; rfl

theorem planBalance_ok {tryFrom : I64 → Option V} {l : List ActionInfo} {s : ValueSum} {v : V} :
    planBalance tryFrom l = .ok (s, v) ↔ PartialsOk 0 (l.map ActionInfo.net) ∧
      s.inner = (l.map ActionInfo.net).sum ∧ ∃ i : I64, i.val = s.inner ∧ tryFrom i = some v := by
  rw [planBalance_eq]
  cases hf : foldSum (l.map fun a => (⟨a.net⟩ : ValueSum)) with
  | none =>
    rw [foldSum_eq_none, map_net] at hf
    simp only [reduceCtorEq, false_iff]
    exact fun h => hf h.1
  | some s' =>
    rw [foldSum_eq_some, map_net] at hf
    simp only
    cases hc : convertBalance tryFrom s' with
    | error e =>
      cases e
      rw [convertBalance_error] at hc
      simp only [reduceCtorEq, false_iff]
      rintro ⟨-, h2, i, h3, h4⟩
      rw [hc i (by rw [h3, h2, hf.2])] at h4; simp at h4
    | ok v' =>
      obtain ⟨i, hi, ht⟩ := convertBalance_ok.1 hc
      simp only [Run.ok.injEq, Prod.mk.injEq]
      constructor
      · rintro ⟨rfl, rfl⟩
        exact ⟨hf.1, hf.2, i, hi, ht⟩
      · rintro ⟨-, h2, j, h3, h4⟩
        have hs : s' = s := by
          cases s; cases s'; simp only at h2 hf
          rw [ValueSum.mk.injEq, hf.2, h2]
        refine ⟨hs, ?_⟩
        have : i = j := by ext; rw [hi, h3, hs]
        rw [← this, ht, Option.some.injEq] at h4
        exact h4

theorem planBalance_err {tryFrom : I64 → Option V} {l : List ActionInfo} {e : BuildError} :
    planBalance tryFrom l = .err e ↔ e = .valueSum .overflow ∧
      (¬ PartialsOk 0 (l.map ActionInfo.net) ∨
        ∀ i : I64, i.val = (l.map ActionInfo.net).sum → tryFrom i = none) := by
  rw [planBalance_eq]
  cases hf : foldSum (l.map fun a => (⟨a.net⟩ : ValueSum)) with
  | none =>
    rw [foldSum_eq_none, map_net] at hf
    simp only [Run.err.injEq]
    exact ⟨fun h => ⟨h.symm, Or.inl hf⟩, fun h => h.1.symm⟩
  | some s' =>
    rw [foldSum_eq_some, map_net] at hf
    simp only
    cases hc : convertBalance tryFrom s' with
    | error e' =>
      cases e'
      rw [convertBalance_error] at hc
      simp only [Run.err.injEq]
      exact ⟨fun h => ⟨h.symm, Or.inr fun i hi => hc i (by rw [hi, hf.2])⟩, fun h => h.1.symm⟩
    | ok v' =>
      obtain ⟨i, hi, ht⟩ := convertBalance_ok.1 hc
      simp only [reduceCtorEq, false_iff, not_and, not_or, not_not]
      intro _
      refine ⟨hf.1, fun h => ?_⟩
      rw [h i (by rw [hi, hf.2])] at ht; simp at ht

theorem planBalance_ne_panic {tryFrom : I64 → Option V} {l : List ActionInfo} :
    planBalance tryFrom l ≠ .panic ∧ planBalance tryFrom l ≠ .more := by
  rw [planBalance_eq]
  cases foldSum (l.map fun a => (⟨a.net⟩ : ValueSum)) with
  | none => simp
  | some s' =>
    simp only
    cases convertBalance tryFrom s' <;> simp

/-- The row has the random values drawn for an action. -/
def DrawnRow (d : ActionDraws) (r : Spec.Row) : Prop :=
  r.alpha = d.alpha ∧ r.note.rseed ∈ d.seedDraws ∧ r.rndOck = d.rndOck ∧ r.rndOp = d.rndOp

/-- The rows behind built actions. -/
theorem built_rows {P : Prims} {rng : BuildDraws} :
    ∀ {pre : List ActionInfo} {k : ℕ} {built : List (Action SigningMetadata × Circuit)},
      List.Forall₂ (fun (a : ActionInfo × ℕ) b =>
        (a.1.build P (rng.action a.2) : Run BuildError _) = .ok b) (pre.zipIdx k) built →
      ∃ rows : List Spec.Row, rows.map Spec.Row.spend = pre.map ActionInfo.spend ∧
        rows.map Spec.Row.output = pre.map ActionInfo.output ∧
        rows.map Spec.Row.rcv = pre.map (fun a => a.rcv.inner) ∧
        (∀ i r, rows[i]? = some r → DrawnRow (rng.action (k + i)) r) ∧
        List.Forall₂ (Spec.Realises P) rows (built.map Prod.fst) ∧
        List.Forall₂ (Spec.IsWitness P) rows (built.map Prod.snd) := by
  intro pre
  induction pre with
  | nil =>
    intro k built h
    rw [List.zipIdx_nil] at h
    cases h
    exact ⟨[], rfl, rfl, rfl, by simp, .nil, .nil⟩
  | cons a pre ih =>
    intro k built h
    rw [List.zipIdx_cons] at h
    cases h with
    | cons h1 h2 =>
      obtain ⟨note, e0, e1, e2⟩ := build_eq_ok h1
      obtain ⟨rows, r1, r2, r3, r4, r5, r6⟩ := ih h2
      refine ⟨⟨a.spend, a.output, a.rcv.inner, _, note, _, _⟩ :: rows, by simp [*], by simp [*], by simp [*],
        fun i r hi => ?_, .cons e1 r5, .cons e2 r6⟩
      cases i with
      | zero =>
        simp only [List.getElem?_cons_zero, Option.some.injEq] at hi
        subst hi
        exact ⟨rfl, e0, rfl, rfl⟩
      | succ i =>
        rw [List.getElem?_cons_succ] at hi
        have := r4 i r hi
        rwa [show k + (i + 1) = k + 1 + i by omega]

theorem sum_cvNet {P : Prims} {rows : List Spec.Row} {actions : List (Action SigningMetadata)}
    (h : List.Forall₂ (Spec.Realises P) rows actions) :
    ((actions.map Action.cvNet).map ValueCommitment.inner).sum =
      (((rows.map Spec.Row.net).sum : ℤ) : Fq) • Constants.valueCommitV +
        (rows.map Spec.Row.rcv).sum • Constants.valueCommitR := by
  induction h with
  | nil =>
    simp only [List.map_nil, List.sum_nil, Int.cast_zero]
    rw [Orchard.zero_smul, Orchard.zero_smul, add_zero]
  | cons h1 h2 ih =>
    simp only [List.map_cons, List.sum_cons, Int.cast_add]
    rw [ih, h1.cvNet]
    module

theorem partialsOk_sum {l : List ℤ} (h : PartialsOk 0 l) :
    -(2 ^ 64 - 1) ≤ l.sum ∧ l.sum ≤ 2 ^ 64 - 1 := by
  by_cases h0 : l = []
  · subst h0; simp
  · have := h l.length le_rfl (by
      rcases l with _ | ⟨a, l⟩
      · exact absurd rfl h0
      · simp)
    simpa using this

/-- The consistency assertion holds. -/
theorem assertion_holds {P : Prims} {rows : List Spec.Row} {actions : List (Action SigningMetadata)}
    {pre : List ActionInfo} {s : ValueSum}
    (h : List.Forall₂ (Spec.Realises P) rows actions)
    (hspend : rows.map Spec.Row.spend = pre.map ActionInfo.spend)
    (hout : rows.map Spec.Row.output = pre.map ActionInfo.output)
    (hr : rows.map Spec.Row.rcv = pre.map (fun a => a.rcv.inner))
    (hs : s.inner = (pre.map ActionInfo.net).sum) (hp : PartialsOk 0 (pre.map ActionInfo.net)) :
    ∃ c, ValueCommitment.derive s ValueCommitTrapdoor.zero = some c ∧
      (⟨(ValueCommitTrapdoor.sum (pre.map ActionInfo.rcv)).inner⟩ : SigningKey .binding).vk =
        ⟨((ValueCommitment.sum (actions.map Action.cvNet)).sub c).inner⟩ := by
  have hb := partialsOk_sum hp
  rw [← hs] at hb
  refine ⟨_, ValueCommitment.derive_eq hb _, ?_⟩
  have hnet : rows.map Spec.Row.net = pre.map ActionInfo.net := by
    clear h hs hp hb hr
    induction rows generalizing pre with
    | nil =>
      rcases pre with _ | ⟨a, pre⟩
      · rfl
      · simp at hspend
    | cons r rows ih =>
      rcases pre with _ | ⟨a, pre⟩
      · simp at hspend
      · simp only [List.map_cons, List.cons.injEq] at hspend hout ⊢
        refine ⟨?_, ih hspend.2 hout.2⟩
        unfold Spec.Row.net ActionInfo.net
        rw [hspend.1, hout.1]
  unfold SigningKey.vk ValueCommitment.sub
  rw [VerificationKey.mk.injEq, ValueCommitment.sum_inner, ValueCommitTrapdoor.sum_inner,
    sum_cvNet h, hnet, ← hs, hr, List.map_map]
  simp only [basepoint, ValueCommitTrapdoor.zero]
  have : (ValueCommitTrapdoor.inner ∘ ActionInfo.rcv) = fun a : ActionInfo => a.rcv.inner := rfl
  rw [this]
  module

theorem finish_ok {P : Prims} {tryFrom : I64 → Option V} {rng : BuildDraws} {anchor : Fp}
    {flags : Flags} {m : BundleMetadata} {pre : List ActionInfo}
    {r : Option (UnauthorizedBundle V × BundleMetadata)}
    (h : finish P tryFrom rng anchor flags (m, pre) = .ok r) :
    PartialsOk 0 (pre.map ActionInfo.net) ∧
    ∃ (i : I64) (v : V), i.val = (pre.map ActionInfo.net).sum ∧ tryFrom i = some v ∧
      ((pre = [] ∧ r = none) ∨ ∃ b rows, r = some (b, m) ∧ b.flags = flags ∧ b.anchor = anchor ∧
        b.valueBalance = v ∧ Spec.Explains P rows b ∧
        rows.map Spec.Row.spend = pre.map ActionInfo.spend ∧
        rows.map Spec.Row.output = pre.map ActionInfo.output ∧
        rows.map Spec.Row.rcv = pre.map (fun a => a.rcv.inner) ∧
        ∀ i r, rows[i]? = some r → DrawnRow (rng.action i) r) := by
  unfold finish at h
  simp only at h
  rw [Run.bind_eq_ok] at h
  obtain ⟨⟨s, v⟩, h1, h⟩ := h
  obtain ⟨hp, hs, i, hi, ht⟩ := planBalance_ok.1 h1
  refine ⟨hp, i, v, by rw [hi, hs], ht, ?_⟩
  rw [Run.bind_eq_ok] at h
  obtain ⟨built, h2, h⟩ := h
  rw [Run.mapM_eq_ok] at h2
  obtain ⟨rows, r1, r2, r3, r4, r5, r6⟩ := built_rows h2
  obtain ⟨c, hc, hv⟩ := assertion_holds r5 r1 r2 r3 hs hp
  simp only [hc, Option.unwrapO_some, Run.ofOutcome_ret, Run.ok_bind, hv, decide_true,
    assertO_true] at h
  by_cases hne : built.map Prod.fst ≠ []
  · rw [dif_pos hne] at h
    simp only [Run.pure_eq, Run.ok.injEq] at h
    right
    refine ⟨_, rows, h.symm, rfl, rfl, rfl, ⟨r5, r6, ?_⟩, r1, r2, r3, by simpa using r4⟩
    simp only
    rw [ValueCommitTrapdoor.sum_inner, r3, List.map_map]; rfl
  · rw [dif_neg hne] at h
    simp only [Run.pure_eq, Run.ok.injEq] at h
    left
    refine ⟨?_, h.symm⟩
    simp only [ne_eq, not_not, List.map_eq_nil_iff] at hne
    have := h2.length_eq
    rw [hne, List.length_zipIdx] at this
    exact List.length_eq_zero_iff.1 this

theorem finish_err {P : Prims} {tryFrom : I64 → Option V} {rng : BuildDraws} {anchor : Fp}
    {flags : Flags} {m : BundleMetadata} {pre : List ActionInfo} {e : BuildError} :
    finish P tryFrom rng anchor flags (m, pre) = .err e ↔ e = .valueSum .overflow ∧
      (¬ PartialsOk 0 (pre.map ActionInfo.net) ∨
        ∀ i : I64, i.val = (pre.map ActionInfo.net).sum → tryFrom i = none) := by
  rw [← planBalance_err]
  constructor
  · intro h
    unfold finish at h
    simp only at h
    rw [Run.bind_eq_err] at h
    rcases h with h | ⟨x, -, h⟩
    · exact h
    rw [Run.bind_eq_err] at h
    rcases h with h | ⟨built, -, h⟩
    · exact absurd h (Run.mapM_ne_err (fun a _ => build_ne_err))
    rw [Run.bind_eq_err] at h
    rcases h with h | ⟨built, -, h⟩
    · exact absurd h Run.ofOutcome_ne_err
    rw [Run.bind_eq_err] at h
    rcases h with h | ⟨built, -, h⟩
    · exact absurd h Run.ofOutcome_ne_err
    split_ifs at h
  · intro h
    unfold finish
    simp only [h, Run.err_bind]

theorem finish_ne_panic {P : Prims} {tryFrom : I64 → Option V} {rng : BuildDraws} {anchor : Fp}
    {flags : Flags} {m : BundleMetadata} {pre : List ActionInfo}
    (hb : ∀ a ∈ pre, Buildable P a.spend) :
    finish P tryFrom rng anchor flags (m, pre) ≠ .panic := by
  intro h
  unfold finish at h
  simp only at h
  rw [Run.bind_eq_panic] at h
  rcases h with h | ⟨⟨s, v⟩, h1, h⟩
  · exact planBalance_ne_panic.1 h
  obtain ⟨hp, hs, i, hi, ht⟩ := planBalance_ok.1 h1
  rw [Run.bind_eq_panic] at h
  rcases h with h | ⟨built, h2, h⟩
  · refine Run.mapM_ne_panic (fun a ha => build_ne_panic (hb a.1 ?_)) h
    have : a.1 ∈ pre.zipIdx.map Prod.fst := List.mem_map_of_mem ha
    rwa [List.zipIdx_map_fst] at this
  rw [Run.mapM_eq_ok] at h2
  obtain ⟨rows, r1, r2, r3, r4, r5, r6⟩ := built_rows h2
  obtain ⟨c, hc, hv⟩ := assertion_holds r5 r1 r2 r3 hs hp
  simp only [hc, Option.unwrapO_some, Run.ofOutcome_ret, Run.ok_bind, hv, decide_true,
    assertO_true] at h
  split_ifs at h

/-! ### Inverting `bundle` -/

theorem flag_false_iff {a : Bool} {n : ℕ} :
    (!a && decide (0 < n)) = false ↔ (a = true ∨ n = 0) := by
  cases a <;> simp

theorem flag_true_iff {a : Bool} {n : ℕ} :
    (!a && decide (0 < n)) = true ↔ (a = false ∧ 0 < n) := by
  cases a <;> simp

/-- The checks passed. -/
structure Checked (P : Prims) (anchor : Fp) (ty : BundleType) (spends : List SpendInfo)
    (outputs : List OutputInfo) (n : ℕ) : Prop where
  spends_flag : ty.flags.spendsEnabled = true ∨ spends.length = 0
  outputs_flag : ty.flags.outputsEnabled = true ∨ outputs.length = 0
  anchors : ∀ s ∈ spends, Spec.AnchorOk P anchor s
  num : ty.numActions spends.length outputs.length = some n

theorem bundle_ok_inv {P : Prims} {tryFrom : I64 → Option V} {rng : BuildDraws} {anchor : Fp}
    {ty : BundleType} {spends : List SpendInfo} {outputs : List OutputInfo}
    {r : Option (UnauthorizedBundle V × BundleMetadata)}
    (h : bundle P tryFrom rng anchor ty spends outputs = .ok r) :
    ∃ n, Checked P anchor ty spends outputs n ∧
      construct P tryFrom rng anchor ty.flags spends outputs n = .ok r := by
  rw [bundle_eq] at h
  by_cases h1 : (!ty.flags.spendsEnabled && decide (0 < spends.length)) = true
  · rw [if_pos h1] at h; simp at h
  rw [if_neg h1, Run.bind_eq_ok] at h
  obtain ⟨mt, h2, h⟩ := h
  rw [Run.ofOutcome_eq_ok] at h2
  cases mt with
  | false => simp at h
  | true => ?_
  rw [if_neg (by simp)] at h
  by_cases h4 : (!ty.flags.outputsEnabled && decide (0 < outputs.length)) = true
  · rw [if_pos h4] at h; simp at h
  rw [if_neg h4] at h
  simp only [Bool.not_eq_true] at h1 h4
  obtain ⟨n, hn⟩ := numActions_of_flags h1 h4
  rw [hn] at h
  exact ⟨n, ⟨flag_false_iff.1 h1, flag_false_iff.1 h4, allMatchAnchor_true h2, hn⟩, h⟩

/-- Everything known about a successful build. -/
theorem bundle_some_inv {P : Prims} {tryFrom : I64 → Option V} {rng : BuildDraws} {anchor : Fp}
    {ty : BundleType} {spends : List SpendInfo} {outputs : List OutputInfo}
    {b : UnauthorizedBundle V} {m : BundleMetadata}
    (h : bundle P tryFrom rng anchor ty spends outputs = .ok (some (b, m))) :
    ∃ n dS dO pre rows, Checked P anchor ty spends outputs n ∧
      Planned P rng spends outputs n dS dO m pre ∧ PartialsOk 0 (pre.map ActionInfo.net) ∧
      (∃ i : I64, i.val = (pre.map ActionInfo.net).sum ∧ tryFrom i = some b.valueBalance) ∧
      b.flags = ty.flags ∧ b.anchor = anchor ∧ Spec.Explains P rows b ∧
      rows.map Spec.Row.spend = pre.map ActionInfo.spend ∧
      rows.map Spec.Row.output = pre.map ActionInfo.output ∧
      rows.map Spec.Row.rcv = pre.map (fun a => a.rcv.inner) ∧
      ∀ i r, rows[i]? = some r → DrawnRow (rng.action i) r := by
  obtain ⟨n, hc, h⟩ := bundle_ok_inv h
  obtain ⟨g1, g2⟩ := numActions_ge hc.num
  obtain ⟨dS, dO, m', pre, hp, h⟩ := construct_ok g1 g2 h
  obtain ⟨h1, i, v, hi, ht, h⟩ := finish_ok h
  rcases h with ⟨-, h⟩ | ⟨b', rows, e, f1, f2, f3, f4, f5, f6, f7, f8⟩
  · simp at h
  · simp only [Option.some.injEq, Prod.mk.injEq] at e
    obtain ⟨rfl, rfl⟩ := e
    exact ⟨n, dS, dO, pre, rows, hc, hp, h1, ⟨i, hi, f3 ▸ ht⟩, f1, f2, f4, f5, f6, f7, f8⟩

theorem rows_net {rows : List Spec.Row} {pre : List ActionInfo}
    (hspend : rows.map Spec.Row.spend = pre.map ActionInfo.spend)
    (hout : rows.map Spec.Row.output = pre.map ActionInfo.output) :
    rows.map Spec.Row.net = pre.map ActionInfo.net := by
  induction rows generalizing pre with
  | nil =>
    rcases pre with _ | ⟨a, pre⟩
    · rfl
    · simp at hspend
  | cons r rows ih =>
    rcases pre with _ | ⟨a, pre⟩
    · simp at hspend
    · simp only [List.map_cons, List.cons.injEq] at hspend hout ⊢
      refine ⟨?_, ih hspend.2 hout.2⟩
      unfold Spec.Row.net ActionInfo.net
      rw [hspend.1, hout.1]

theorem sum_net (pre : List ActionInfo) :
    (pre.map ActionInfo.net).sum =
      ((pre.map ActionInfo.spend).map fun s => Spec.intValue s.note.value).sum -
        ((pre.map ActionInfo.output).map fun o => Spec.intValue o.value).sum := by
  induction pre with
  | nil => rfl
  | cons a l ih =>
    simp only [List.map_cons, List.sum_cons, ih, ActionInfo.net]; ring

namespace Planned

variable {P : Prims} {rng : BuildDraws} {spends : List SpendInfo} {outputs : List OutputInfo}
  {n : ℕ} {dS : List SpendInfo} {dO : List OutputInfo} {m : BundleMetadata} {pre : List ActionInfo}

theorem dS_spec (h : Planned P rng spends outputs n dS dO m pre) (i : ℕ) (d : SpendInfo)
    (hd : dS[i]? = some d) : Spec.DummySpend P (rng.spendDummy i) d := by
  obtain ⟨hi, hd⟩ := List.getElem?_eq_some_iff.1 hd
  have := h.dummySpends.get (i := i) (by rw [← h.dummySpends.length_eq] at hi; exact hi) hi
  simp only [List.get_eq_getElem, List.getElem_range] at this
  rw [hd] at this
  exact spendDummy_spec this

theorem dO_spec (h : Planned P rng spends outputs n dS dO m pre) (i : ℕ) (d : OutputInfo)
    (hd : dO[i]? = some d) : Spec.DummyOutput P (rng.outputDummy i) d := by
  obtain ⟨hi, hd⟩ := List.getElem?_eq_some_iff.1 hd
  have := h.dummyOutputs.get (i := i) (by rw [← h.dummyOutputs.length_eq] at hi; exact hi) hi
  simp only [List.get_eq_getElem, List.getElem_range] at this
  rw [hd] at this
  exact outputDummy_spec this

theorem sum_dS (h : Planned P rng spends outputs n dS dO m pre) :
    (dS.map fun s => Spec.intValue s.note.value).sum = 0 := by
  apply List.sum_eq_zero
  intro x hx
  obtain ⟨s, hs, rfl⟩ := List.mem_map.1 hx
  obtain ⟨i, hi, rfl⟩ := List.getElem_of_mem hs
  exact (h.dS_spec i _ (List.getElem?_eq_getElem hi)).1

theorem sum_dO (h : Planned P rng spends outputs n dS dO m pre) :
    (dO.map fun o => Spec.intValue o.value).sum = 0 := by
  apply List.sum_eq_zero
  intro x hx
  obtain ⟨s, hs, rfl⟩ := List.mem_map.1 hx
  obtain ⟨i, hi, rfl⟩ := List.getElem_of_mem hs
  exact (h.dO_spec i _ (List.getElem?_eq_getElem hi)).1

theorem sum_spends (h : Planned P rng spends outputs n dS dO m pre) (hs : spends.length ≤ n)
    (ho : outputs.length ≤ n) :
    ((pre.map ActionInfo.spend).map fun s => Spec.intValue s.note.value).sum =
      (spends.map fun s => Spec.intValue s.note.value).sum := by
  rw [((h.perm_spends hs ho).map _).sum_eq, List.map_append, List.sum_append, h.sum_dS, add_zero]

theorem sum_outputs (h : Planned P rng spends outputs n dS dO m pre) (hs : spends.length ≤ n)
    (ho : outputs.length ≤ n) :
    ((pre.map ActionInfo.output).map fun o => Spec.intValue o.value).sum =
      (outputs.map fun o => Spec.intValue o.value).sum := by
  rw [((h.perm_outputs hs ho).map _).sum_eq, List.map_append, List.sum_append, h.sum_dO, add_zero]

/-- The planned balance is the requested one. -/
theorem balance (h : Planned P rng spends outputs n dS dO m pre) (hs : spends.length ≤ n)
    (ho : outputs.length ≤ n) :
    (pre.map ActionInfo.net).sum = (spends.map fun s => Spec.intValue s.note.value).sum -
      (outputs.map fun o => Spec.intValue o.value).sum := by
  rw [sum_net, h.sum_spends hs ho, h.sum_outputs hs ho]

theorem buildable (h : Planned P rng spends outputs n dS dO m pre) (hs : spends.length ≤ n)
    (ho : outputs.length ≤ n) (hr : ∀ s ∈ spends, Buildable P s) : ∀ a ∈ pre, Buildable P a.spend := by
  intro a ha
  have : a.spend ∈ spends ++ dS := (h.perm_spends hs ho).mem_iff.1 (List.mem_map_of_mem ha)
  rcases List.mem_append.1 this with h1 | h1
  · exact hr _ h1
  · obtain ⟨i, hi, e⟩ := List.getElem_of_mem h1
    rw [← e]
    exact dummy_buildable (h.dS_spec i _ (List.getElem?_eq_getElem hi))

end Planned

end Orchard
