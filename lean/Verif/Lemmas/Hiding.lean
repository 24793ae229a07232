import Verif.Spec.Hiding
import Verif.Props.Build

/-! # Lemmas on the blinding values of a build -/

namespace Orchard

open RedPallas

/-- A point plus a multiple of a non-identity base: every value is taken exactly once. -/
theorem existsUnique_add_smul {B : Point} (hB : B ≠ 0) (A C : Point) : ∃! s : Fq, A + s • B = C := by
  obtain ⟨s, hs⟩ := exists_smul_of_ne_zero hB (C - A)
  refine ⟨s, by simp only; rw [← hs]; abel, fun t ht => ?_⟩
  have h : (t - s) • B = 0 := by
    rw [sub_smul, ← hs, ← ht]; abel
  rcases smul_eq_zero_iff'.1 h with h | h
  · exact sub_eq_zero.1 h
  · exact absurd h hB

section

variable {V : Type} {P : Prims} {tryFrom : I64 → Option V} {rng : BuildDraws} {anchor : Fp}
  {ty : BundleType} {spends : List SpendInfo} {outputs : List OutputInfo} {b : UnauthorizedBundle V}
  {m : BundleMetadata}

/-- The spends and outputs of the actions do not depend on the blinding values. -/
theorem rows_reblind (h : bundle P tryFrom rng anchor ty spends outputs = .ok (some (b, m))) :
    ∃ rows, Spec.Plan P rng spends outputs b rows ∧
      ∀ (n : ℕ) (z : Fin n → Fq × Fq) (b' : UnauthorizedBundle V) (m' : BundleMetadata),
        bundle P tryFrom (Spec.reblind rng z) anchor ty spends outputs = .ok (some (b', m')) →
        ∃ rows', Spec.Plan P (Spec.reblind rng z) spends outputs b' rows' ∧
          rows'.map Spec.Row.spend = rows.map Spec.Row.spend ∧
          rows'.map Spec.Row.output = rows.map Spec.Row.output := by
  obtain ⟨n1, dS, dO, pre, rows, hc, hp, -, -, -, -, he, hs, ho, hr, ha⟩ := bundle_some_inv h
  refine ⟨rows, plan_of_inv hc hp he hs ho hr ha, fun n z b' m' h' => ?_⟩
  obtain ⟨n2, dS', dO', pre', rows', hc', hp', -, -, -, -, he', hs', ho', hr', ha'⟩ :=
    bundle_some_inv h'
  have hn : n1 = n2 := by
    have := hc.num.symm.trans hc'.num
    exact Option.some.inj this
  subst hn
  have det : ∀ {α β : Type} {f : α → Run BuildError β} {l : List α} {x y : List β},
      List.Forall₂ (fun a b => f a = .ok b) l x → List.Forall₂ (fun a b => f a = .ok b) l y →
      y = x := by
    intro α β f l x y hx
    induction hx generalizing y with
    | nil => intro hy; cases hy; rfl
    | cons h1 _ ih =>
      intro hy
      cases hy with
      | cons h2 hy =>
        rw [h1, Run.ok.injEq] at h2
        rw [h2, ih hy]
  have e1 : dS' = dS := det (f := fun i => SpendInfo.dummy P (rng.spendDummy i)) hp.dummySpends
    hp'.dummySpends
  have e2 : dO' = dO := det (f := fun i => OutputInfo.dummy P (rng.outputDummy i)) hp.dummyOutputs
    hp'.dummyOutputs
  subst e1 e2
  refine ⟨rows', plan_of_inv hc' hp' he' hs' ho' hr' ha', ?_, ?_⟩
  · rw [hs', hs, hp'.pre_eq, hp.pre_eq, List.map_map, List.map_map]; rfl
  · rw [ho', ho, hp'.pre_eq, hp.pre_eq, List.map_map, List.map_map]; rfl

/-- The values a build publishes, in terms of the blinding values. -/
theorem blinded_reblind {n : ℕ}
    (h : bundle P tryFrom rng anchor ty spends outputs = .ok (some (b, m)))
    (hn : b.actions.length = n) :
    ∃ (A R : Fin n → Point), ∀ z : Fin n → Fq × Fq, ∀ b' m',
      bundle P tryFrom (Spec.reblind rng z) anchor ty spends outputs = .ok (some (b', m')) →
      b'.actions.map Action.nf = b.actions.map Action.nf ∧
      b'.actions.map Spec.blinded = List.ofFn fun i => (A i + (z i).1 • Constants.valueCommitR,
        R i + (z i).2 • Constants.spendAuthG) := by
  obtain ⟨rows, hp, hall⟩ := rows_reblind h
  have hl : rows.length = n := by rw [hp.explains.1.length_eq, hn]
  refine ⟨fun i => ((rows[i.val]'(by omega)).net : Fq) • Constants.valueCommitV,
    fun i => (rows[i.val]'(by omega)).spend.fvk.ak.point, fun z b' m' h' => ?_⟩
  obtain ⟨rows', hp', hs, ho⟩ := hall n z b' m' h'
  have hl' : rows'.length = n := by
    have := congrArg List.length hs
    rw [List.length_map, List.length_map, hl] at this
    exact this
  have hb' : b'.actions.length = n := by rw [← hp'.explains.1.length_eq, hl']
  have row : ∀ (i : ℕ) (hi : i < n), (rows'[i]'(by omega)).spend = (rows[i]'(by omega)).spend ∧
      (rows'[i]'(by omega)).output = (rows[i]'(by omega)).output := by
    intro i hi
    have g1 := congrArg (fun l => l[i]?) hs
    have g2 := congrArg (fun l => l[i]?) ho
    simp only [List.getElem?_map, List.getElem?_eq_getElem (show i < rows.length by omega),
      List.getElem?_eq_getElem (show i < rows'.length by omega), Option.map_some,
      Option.some.injEq] at g1 g2
    exact ⟨g1, g2⟩
  have real : ∀ (i : ℕ) (hi : i < n),
      Spec.Realises P (rows[i]'(by omega)) (b.actions[i]'(by omega)) := by
    intro i hi
    exact hp.explains.1.get (by omega) (by omega)
  have real' : ∀ (i : ℕ) (hi : i < n),
      Spec.Realises P (rows'[i]'(by omega)) (b'.actions[i]'(by omega)) := by
    intro i hi
    exact hp'.explains.1.get (by omega) (by omega)
  constructor
  · apply List.ext_getElem
    · rw [List.length_map, List.length_map, hb', hn]
    intro i h1 h2
    rw [List.length_map] at h1
    rw [List.getElem_map, List.getElem_map]
    obtain ⟨cm, e1, e2⟩ := (real i (by omega)).nullifier
    obtain ⟨cm', e1', e2'⟩ := (real' i (by omega)).nullifier
    rw [(row i (by omega)).1] at e1' e2'
    rw [e1, Option.some.injEq] at e1'
    rw [e2, e2', e1']
  · apply List.ext_getElem
    · rw [List.length_map, List.length_ofFn, hb']
    intro i h1 h2
    rw [List.length_map] at h1
    have hi : i < n := by omega
    rw [List.getElem_map, List.getElem_ofFn]
    obtain ⟨r1, r2, -⟩ := hp'.randomness i _ (List.getElem?_eq_getElem (show i < rows'.length by omega))
    have e1 := (real' i hi).cvNet
    have e2 := (real' i hi).rk
    unfold Spec.Row.net at e1
    rw [(row i hi).1, (row i hi).2, r1] at e1
    rw [(row i hi).1, r2] at e2
    simp only [Spec.reblind, dif_pos hi] at e1 e2
    unfold Spec.blinded
    rw [e1, e2]
    rfl

end

end Orchard
