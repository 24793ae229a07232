import Verif.Lemmas.Bundle

/-!
# The planned values and the end of the rejection loops
-/

namespace Orchard

open RedPallas

variable {V : Type}

theorem runningSumsOk_iff {l : List ℤ} : Spec.RunningSumsOk l ↔ PartialsOk 0 l := by
  constructor
  · intro h k _ _
    simpa using h k
  · intro h k
    by_cases h0 : k = 0
    · subst h0; simp
    · by_cases h1 : k ≤ l.length
      · simpa using h k h1 (by omega)
      · rw [List.take_of_length_le (by omega)]
        exact partialsOk_sum h

theorem map_swapIfInBounds {α β : Type} (f : α → β) (v : Array α) (i j : ℕ) :
    (v.swapIfInBounds i j).map f = (v.map f).swapIfInBounds i j := by
  apply Array.ext
  · simp
  · intro k h1 h2
    rw [Array.getElem_map, Array.getElem_swapIfInBounds, Array.getElem_swapIfInBounds]
    simp only [Array.size_map]
    split_ifs <;> simp

theorem shuffle_map {α β : Type} (f : α → β) (g : ℕ → ℕ) (l : List α) :
    (shuffle g l).map f = shuffle g (l.map f) := by
  unfold shuffle
  rw [List.length_map]
  generalize (List.range' 1 (l.length - 1)).reverse = is
  have key : ∀ (is : List ℕ) (v : Array α),
      (is.foldl (fun (v : Array α) i => v.swapIfInBounds i (g i % (i + 1))) v).map f =
        is.foldl (fun (v : Array β) i => v.swapIfInBounds i (g i % (i + 1))) (v.map f) := by
    intro is
    induction is with
    | nil => intro v; rfl
    | cons i is ih =>
      intro v
      rw [List.foldl_cons, List.foldl_cons, ih, map_swapIfInBounds]
  have := congrArg Array.toList (key is l.toArray)
  rw [Array.toList_map] at this
  rw [this]; simp

/-- The net values of the plan. -/
theorem Planned.nets {P : Prims} {rng : BuildDraws} {spends : List SpendInfo}
    {outputs : List OutputInfo} {n : ℕ} {dS : List SpendInfo} {dO : List OutputInfo}
    {m : BundleMetadata} {pre : List ActionInfo} (h : Planned P rng spends outputs n dS dO m pre)
    (hs : spends.length ≤ n) (ho : outputs.length ≤ n) :
    pre.map ActionInfo.net = Spec.plannedNets rng spends outputs n := by
  have e0 : pre.map ActionInfo.net = List.zipWith (· - ·)
      ((pre.map ActionInfo.spend).map fun s => Spec.intValue s.note.value)
      ((pre.map ActionInfo.output).map fun o => Spec.intValue o.value) := by
    clear h
    induction pre with
    | nil => rfl
    | cons a l ih => simp only [List.map_cons, List.zipWith_cons_cons, ← ih]; rfl
  have eS : (dS.map fun s => Spec.intValue s.note.value) = List.replicate (n - spends.length) 0 := by
    rw [List.eq_replicate_iff]
    refine ⟨by rw [List.length_map, h.length_dS], ?_⟩
    intro x hx
    obtain ⟨s, hs, rfl⟩ := List.mem_map.1 hx
    obtain ⟨i, hi, rfl⟩ := List.getElem_of_mem hs
    exact (h.dS_spec i _ (List.getElem?_eq_getElem hi)).1
  have eO : (dO.map fun o => Spec.intValue o.value) = List.replicate (n - outputs.length) 0 := by
    rw [List.eq_replicate_iff]
    refine ⟨by rw [List.length_map, h.length_dO], ?_⟩
    intro x hx
    obtain ⟨s, hs, rfl⟩ := List.mem_map.1 hx
    obtain ⟨i, hi, rfl⟩ := List.getElem_of_mem hs
    exact (h.dO_spec i _ (List.getElem?_eq_getElem hi)).1
  rw [e0, h.map_spend_pre hs ho, h.map_output_pre hs ho]
  simp only [shuffle_map, List.zipIdx_map_fst, List.map_append, eS, eO]
  rfl

theorem plannedNets_sum {rng : BuildDraws} {spends : List SpendInfo} {outputs : List OutputInfo}
    {n : ℕ} (hs : spends.length ≤ n) (ho : outputs.length ≤ n) :
    (Spec.plannedNets rng spends outputs n).sum =
      Spec.totalSpends spends - Spec.totalOutputs outputs := by
  have key : ∀ (a b : List ℤ), a.length = b.length →
      (List.zipWith (· - ·) a b).sum = a.sum - b.sum := by
    intro a
    induction a with
    | nil => intro b hb; rw [List.length_eq_zero_iff.1 hb.symm]; rfl
    | cons x a ih =>
      intro b hb
      rcases b with _ | ⟨y, b⟩
      · simp at hb
      · simp only [List.zipWith_cons_cons, List.sum_cons, ih b (by simpa using hb)]; ring
  unfold Spec.plannedNets
  rw [key, (shuffle_perm _ _).sum_eq, (shuffle_perm _ _).sum_eq]
  · simp [Spec.totalSpends, Spec.totalOutputs]
  · rw [(shuffle_perm _ _).length_eq, (shuffle_perm _ _).length_eq]
    simp only [List.length_append, List.length_map, List.length_replicate]
    omega

/-! ### Rejection loops end -/

namespace Run

theorem bind_eq_more {E α β : Type} {x : Run E α} {f : α → Run E β} :
    (x >>= f) = more ↔ x = more ∨ ∃ a, x = ok a ∧ f a = more := by
  cases x <;> simp

theorem ofOutcome_ne_more {E α : Type} {x : Outcome α} : (ofOutcome x : Run E α) ≠ more := by
  cases x <;> simp

theorem mapM_ne_more {E α β : Type} {f : α → Run E β} {l : List α}
    (h : ∀ a ∈ l, f a ≠ more) : l.mapM f ≠ more := by
  induction l with
  | nil => simp
  | cons a l ih =>
    rw [List.mapM_cons, Ne, bind_eq_more]
    rintro (h1 | ⟨b, -, h1⟩)
    · exact h a (by simp) h1
    · rw [bind_eq_more] at h1
      rcases h1 with h1 | ⟨_, -, h1⟩
      · exact ih (fun a ha => h a (by simp [ha])) h1
      · simp at h1

end Run

theorem new_ne_none {P : Prims} {a : Address} {v : NoteValue} {rho : Fp} {draws : List (Bytes 32)}
    (h : ∃ s ∈ draws, Spec.GoodSeed P a.d a.pkd v.inner.toNat rho s) :
    Note.new P a v rho draws ≠ none := by
  classical
  have key : ∀ draws : List (Bytes 32), (∃ s ∈ draws, Spec.GoodSeed P a.d a.pkd v.inner.toNat rho s) →
      ∃ pre s rest, draws = pre ++ s :: rest ∧ Spec.GoodSeed P a.d a.pkd v.inner.toNat rho s ∧
        ∀ b ∈ pre, ¬ Spec.GoodSeed P a.d a.pkd v.inner.toNat rho b := by
    intro draws
    induction draws with
    | nil => simp
    | cons b t ih =>
      rintro ⟨s, hs, hg⟩
      by_cases hb : Spec.GoodSeed P a.d a.pkd v.inner.toNat rho b
      · exact ⟨[], b, t, rfl, hb, by simp⟩
      · rcases List.mem_cons.1 hs with rfl | hs
        · exact absurd hg hb
        · obtain ⟨pre, s', rest, e, h1, h2⟩ := ih ⟨s, hs, hg⟩
          refine ⟨b :: pre, s', rest, by rw [e]; rfl, h1, ?_⟩
          intro x hx
          rcases List.mem_cons.1 hx with rfl | hx
          · exact hb
          · exact h2 x hx
  obtain ⟨pre, s, rest, e, h1, h2⟩ := key draws h
  rw [(new_eq_some P a v rho ⟨a, v, rho, s⟩ draws rest).2 ⟨pre, s, e, rfl, h1, h2⟩]
  simp

theorem build_ne_more {E : Type} {P : Prims} {a : ActionInfo} {rng : ActionDraws}
    (h : ∀ (a : Address) (v : NoteValue) (rho : Fp), ∃ s ∈ rng.seedDraws,
      Spec.GoodSeed P a.d a.pkd v.inner.toNat rho s) :
    (a.build P rng : Run E _) ≠ .more := by
  unfold ActionInfo.build
  intro hm
  rw [Run.bind_eq_more] at hm
  rcases hm with hm | ⟨_, -, hm⟩
  · exact Run.ofOutcome_ne_more hm
  rw [Run.bind_eq_more] at hm
  rcases hm with hm | ⟨_, -, hm⟩
  · exact Run.ofOutcome_ne_more hm
  rw [Run.bind_eq_more] at hm
  rcases hm with hm | ⟨nf, -, hm⟩
  · exact Run.ofOutcome_ne_more hm
  simp only at hm
  rw [Run.bind_eq_more] at hm
  rcases hm with hm | ⟨_, -, hm⟩
  · cases hn : Note.new P a.output.recipient a.output.value nf rng.seedDraws with
    | none => exact new_ne_none (h _ _ _) hn
    | some x => rw [hn] at hm; simp at hm
  rw [Run.bind_eq_more] at hm
  rcases hm with hm | ⟨_, -, hm⟩
  · exact Run.ofOutcome_ne_more hm
  rw [Run.bind_eq_more] at hm
  rcases hm with hm | ⟨_, -, hm⟩
  · exact Run.ofOutcome_ne_more hm
  rw [Run.bind_eq_more] at hm
  rcases hm with hm | ⟨_, -, hm⟩
  · exact Run.ofOutcome_ne_more hm
  rw [Run.bind_eq_more] at hm
  rcases hm with hm | ⟨_, -, hm⟩
  · exact Run.ofOutcome_ne_more hm
  simp at hm

theorem finish_ne_more {P : Prims} {tryFrom : I64 → Option V} {rng : BuildDraws} {anchor : Fp}
    {flags : Flags} {x : BundleMetadata × List ActionInfo} (h : Spec.EnoughDraws P rng) :
    finish P tryFrom rng anchor flags x ≠ .more := by
  intro hm
  unfold finish at hm
  simp only at hm
  rw [Run.bind_eq_more] at hm
  rcases hm with hm | ⟨_, -, hm⟩
  · exact planBalance_ne_panic.2 hm
  rw [Run.bind_eq_more] at hm
  rcases hm with hm | ⟨_, -, hm⟩
  · exact Run.mapM_ne_more (fun a _ => build_ne_more (h.2.2 a.2)) hm
  rw [Run.bind_eq_more] at hm
  rcases hm with hm | ⟨_, -, hm⟩
  · exact Run.ofOutcome_ne_more hm
  rw [Run.bind_eq_more] at hm
  rcases hm with hm | ⟨_, -, hm⟩
  · exact Run.ofOutcome_ne_more hm
  split_ifs at hm

/-- With enough good draws, `construct` is `finish` of some plan. -/
theorem construct_total {P : Prims} {tryFrom : I64 → Option V} {rng : BuildDraws} {anchor : Fp}
    {flags : Flags} {spends : List SpendInfo} {outputs : List OutputInfo} {n : ℕ}
    (hk : Spec.NoZeroKeys P rng) (he : Spec.EnoughDraws P rng)
    (hs : spends.length ≤ n) (ho : outputs.length ≤ n) :
    ∃ dS dO m pre, Planned P rng spends outputs n dS dO m pre ∧
      construct P tryFrom rng anchor flags spends outputs n =
        finish P tryFrom rng anchor flags (m, pre) := by
  obtain ⟨dS, h1⟩ | h1 := mapM_run_cases
    (f := fun i => (SpendInfo.dummy P (rng.spendDummy i) : Run BuildError SpendInfo))
    (l := List.range (n - spends.length)) (fun _ _ _ => spendDummy_ne_err)
    (fun i _ => spendDummy_ne_panic (hk.1 i))
  swap
  · exact absurd h1 (Run.mapM_ne_more fun i _ => he.1 i)
  obtain ⟨dO, h2⟩ | h2 := mapM_run_cases
    (f := fun i => (OutputInfo.dummy P (rng.outputDummy i) : Run BuildError OutputInfo))
    (l := List.range (n - outputs.length)) (fun _ _ _ => outputDummy_ne_err)
    (fun i _ => outputDummy_ne_panic (hk.2 i))
  swap
  · exact absurd h2 (Run.mapM_ne_more fun i _ => he.2.1 i)
  rw [Run.mapM_eq_ok] at h1 h2
  obtain ⟨m, pre, hp, e⟩ := construct_of_dummies hs ho h1 h2
  exact ⟨dS, dO, m, pre, hp, e⟩

/-- Without assuming enough draws: `construct` runs out of draws, or is `finish` of some plan. -/
theorem construct_cases {P : Prims} {tryFrom : I64 → Option V} {rng : BuildDraws} {anchor : Fp}
    {flags : Flags} {spends : List SpendInfo} {outputs : List OutputInfo} {n : ℕ}
    (hk : Spec.NoZeroKeys P rng) (hs : spends.length ≤ n) (ho : outputs.length ≤ n) :
    construct P tryFrom rng anchor flags spends outputs n = .more ∨
    ∃ dS dO m pre, Planned P rng spends outputs n dS dO m pre ∧
      construct P tryFrom rng anchor flags spends outputs n =
        finish P tryFrom rng anchor flags (m, pre) := by
  obtain ⟨dS, h1⟩ | h1 := mapM_run_cases
    (f := fun i => (SpendInfo.dummy P (rng.spendDummy i) : Run BuildError SpendInfo))
    (l := List.range (n - spends.length)) (fun _ _ _ => spendDummy_ne_err)
    (fun i _ => spendDummy_ne_panic (hk.1 i))
  swap
  · left
    unfold construct indexedPadded
    rw [h1]; rfl
  obtain ⟨dO, h2⟩ | h2 := mapM_run_cases
    (f := fun i => (OutputInfo.dummy P (rng.outputDummy i) : Run BuildError OutputInfo))
    (l := List.range (n - outputs.length)) (fun _ _ _ => outputDummy_ne_err)
    (fun i _ => outputDummy_ne_panic (hk.2 i))
  swap
  · left
    unfold construct indexedPadded
    rw [h1, h2]; rfl
  rw [Run.mapM_eq_ok] at h1 h2
  obtain ⟨m, pre, hp, e⟩ := construct_of_dummies hs ho h1 h2
  exact Or.inr ⟨dS, dO, m, pre, hp, e⟩

end Orchard
