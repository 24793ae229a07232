import Verif.Lemmas.Ledger
import Verif.Props.ActionCircuit
import Verif.Examples.Ledger

/-!
# C92: no value is created on a chain of accepted bundles
-/

namespace Orchard

open Spec

variable {T A V : Type}

theorem sum_origin {n : ℕ} (vOld vNew : ℕ → ℕ) (origin : ℕ → ℕ) (S : Finset ℕ)
    (hS : ∀ i < n, i ∉ S → vOld i = 0) (hS' : ∀ i ∈ S, i < n)
    (h1 : ∀ i ∈ S, origin i < n ∧ vOld i = vNew (origin i))
    (h2 : ∀ i ∈ S, ∀ j ∈ S, origin i = origin j → i = j) (U : Finset ℕ)
    (hU : ∀ j, j ∈ U ↔ j < n ∧ ∀ i ∈ S, origin i ≠ j) :
    (∑ i ∈ Finset.range n, ((vNew i : ℤ) - (vOld i : ℤ))) = ((∑ j ∈ U, vNew j : ℕ) : ℤ) := by
  have e1 : ∑ i ∈ Finset.range n, vOld i = ∑ j ∈ S.image origin, vNew j := by
    rw [Finset.sum_image fun i hi j hj => h2 i hi j hj]
    rw [← Finset.sum_subset (s₁ := S) (fun i hi => Finset.mem_range.2 (hS' i hi))
      (fun i hi hn => hS i (Finset.mem_range.1 hi) hn)]
    exact Finset.sum_congr rfl fun i hi => (h1 i hi).2
  have e2 : Finset.range n = U ∪ S.image origin := by
    ext j
    simp only [Finset.mem_range, Finset.mem_union, Finset.mem_image, hU]
    constructor
    · intro hj
      by_cases h : ∃ i ∈ S, origin i = j
      · exact Or.inr h
      · push Not at h; exact Or.inl ⟨hj, h⟩
    · rintro (⟨h, -⟩ | ⟨i, hi, rfl⟩)
      · exact h
      · exact (h1 i hi).1
  have e3 : Disjoint U (S.image origin) := by
    rw [Finset.disjoint_left]
    intro j hj hj'
    obtain ⟨i, hi, rfl⟩ := Finset.mem_image.1 hj'
    exact ((hU _).1 hj).2 i hi rfl
  rw [Finset.sum_sub_distrib]
  have e4 : ∑ i ∈ Finset.range n, vNew i = ∑ j ∈ U, vNew j + ∑ i ∈ Finset.range n, vOld i := by
    rw [e1]
    conv_lhs => rw [e2]
    exact Finset.sum_union e3
  have e5 : (∑ i ∈ Finset.range n, (vNew i : ℤ)) = ((∑ i ∈ Finset.range n, vNew i : ℕ) : ℤ) := by
    push_cast; rfl
  have e6 : (∑ i ∈ Finset.range n, (vOld i : ℤ)) = ((∑ i ∈ Finset.range n, vOld i : ℕ) : ℤ) := by
    push_cast; rfl
  rw [e5, e6, e4]
  push_cast
  ring

/-- **C92.** On every chain of accepted bundles: each spend of non-zero value spends a note created by
an earlier bundle, with exactly the contents it was created with; no created note is spent twice; the
pool holds exactly the value of the notes that are created and not spent, so never less than nothing.
Otherwise the chain exhibits an explicit discrete-logarithm relation. -/
theorem C92_no_inflation (P : Prims) (into : V → I64) (bs : List (OpenedBundle T A V))
    (h : Chain P into bs) :
    (∃ origin : ℕ → ℕ,
      (∀ i a, Spends bs i a → ∃ k b, origin i < (actionsOf (bs.take k)).length ∧
        (actionsOf (bs.take k)).length ≤ i ∧ (actionsOf bs)[origin i]? = some b ∧ SameNote a b) ∧
      (∀ i a i' a', Spends bs i a → Spends bs i' a' → origin i = origin i' → i = i') ∧
      poolBalance into bs = unspentValue bs origin ∧ 0 ≤ poolBalance into bs) ∨
    ExhibitsRelation P into bs := by
  classical
  by_cases hbr : ExhibitsRelation P into bs
  · exact Or.inr hbr
  left
  have hlen := h.length
  have hlenk : ∀ k, (cmxsOf (bs.take k)).length = (actionsOf (bs.take k)).length := fun k => by
    rw [cmxsOf_eq fun b hb => hlen b (List.mem_of_mem_take hb), List.length_map]
  have key : ∀ i a, Spends bs i a → ∃ j k b, j < (actionsOf (bs.take k)).length ∧
      (actionsOf (bs.take k)).length ≤ i ∧ (actionsOf bs)[j]? = some b ∧ SameNote a b := by
    rintro i a ⟨hi, hv⟩
    obtain ⟨f, anchor, hs, ht, k, hk, rfl, hki⟩ := h.action i a hi
    have ha := List.mem_of_getElem? hi
    have hleaf := (trace_leaf (into := into) ha hk (ht hv)).resolve_right hbr
    obtain ⟨hj, b, hb, hcmx⟩ := h.leaf (k := k) (j := a.w.pos)
      (by rw [hleaf]; exact extractP_ne_two _)
    obtain ⟨f', anchor', hs', -⟩ := h.action _ b hb
    exact ⟨_, k, b, by rw [← hlenk]; exact hj, by rw [← hlenk]; exact hki, hb,
      (same_note ha (List.mem_of_getElem? hb) hs hs' (by rw [hcmx, hleaf])).resolve_right hbr⟩
  choose! origin horigin using fun i => (show ∃ j, ∀ a, Spends bs i a → ∃ k b,
      j < (actionsOf (bs.take k)).length ∧ (actionsOf (bs.take k)).length ≤ i ∧
      (actionsOf bs)[j]? = some b ∧ SameNote a b by
    by_cases hex : ∃ a, Spends bs i a
    · obtain ⟨a, ha⟩ := hex
      obtain ⟨j, k, b, hj⟩ := key i a ha
      refine ⟨j, fun a' ha' => ⟨k, b, ?_⟩⟩
      have : a' = a := Option.some.inj (ha'.1.symm.trans ha.1)
      rw [this]; exact hj
    · exact ⟨0, fun a ha => absurd ⟨a, ha⟩ hex⟩)
  have hinj : ∀ i a i' a', Spends bs i a → Spends bs i' a' → origin i = origin i' → i = i' := by
    intro i a i' a' hi hi' he
    obtain ⟨-, b, -, -, hb, hn⟩ := horigin i a hi
    obtain ⟨-, b', -, -, hb', hn'⟩ := horigin i' a' hi'
    rw [← he] at hb'
    have hbb : b' = b := Option.some.inj (hb'.symm.trans hb)
    subst hbb
    obtain ⟨f, anchor, hs, -⟩ := h.action i a hi.1
    obtain ⟨f', anchor', hs', -⟩ := h.action i' a' hi'.1
    have hnf := (same_nullifier (into := into) (List.mem_of_getElem? hi.1)
      (List.mem_of_getElem? hi'.1) hs hs' hn hn').resolve_right hbr
    have hnd := h.nodup
    rw [nullifiersOf_eq hlen] at hnd
    have hlt := (List.getElem?_eq_some_iff.1 hi.1).1
    refine (List.Nodup.getElem_inj_iff hnd (hi := by rw [List.length_map]; exact hlt)
      (hj := by rw [List.length_map]; exact (List.getElem?_eq_some_iff.1 hi'.1).1)).1 ?_
    rw [List.getElem_map, List.getElem_map, (List.getElem?_eq_some_iff.1 hi.1).2,
      (List.getElem?_eq_some_iff.1 hi'.1).2]
    exact hnf
  have hpool : poolBalance into bs = unspentValue bs origin := by
    rw [(balance_sum h).resolve_right hbr]
    unfold unspentValue
    let L := actionsOf bs
    rw [← sum_origin (n := L.length) (fun i => (L[i]?.map fun a => a.w.vOld).getD 0)
      (fun i => (L[i]?.map fun a => a.w.vNew).getD 0) origin
      ((Finset.range L.length).filter fun i => ∃ a, Spends bs i a)]
    · rw [← Fin.sum_univ_eq_sum_range (fun i => (((L[i]?.map fun a => a.w.vNew).getD 0 : ℕ) : ℤ) -
        (((L[i]?.map fun a => a.w.vOld).getD 0 : ℕ) : ℤ)), ← List.sum_ofFn]
      congr 1
      apply List.ext_getElem
      · simp [L]
      · intro i h1 h2
        have hi : i < L.length := by simpa [L] using h1
        simp only [List.getElem_map, List.getElem_ofFn, List.getElem?_eq_getElem hi]
        rfl
    · intro i hi hn
      by_contra h0
      apply hn
      rw [Finset.mem_filter, Finset.mem_range]
      refine ⟨hi, L[i], List.getElem?_eq_getElem hi, ?_⟩
      simpa [List.getElem?_eq_getElem hi] using h0
    · intro i hi
      exact Finset.mem_range.1 (Finset.mem_filter.1 hi).1
    · intro i hi
      obtain ⟨-, a, ha⟩ := Finset.mem_filter.1 hi
      obtain ⟨k, b, -, -, hb, hn⟩ := horigin i a ha
      refine ⟨(List.getElem?_eq_some_iff.1 hb).1, ?_⟩
      have ha1 : L[i]? = some a := ha.1
      have hb1 : L[origin i]? = some b := hb
      simp only [ha1, hb1, Option.map_some, Option.getD_some]
      exact hn.2.2.1
    · intro i hi j hj he
      obtain ⟨-, a, ha⟩ := Finset.mem_filter.1 hi
      obtain ⟨-, b, hb⟩ := Finset.mem_filter.1 hj
      exact hinj i a j b ha hb he
    · intro j
      rw [Finset.mem_filter, Finset.mem_range]
      refine and_congr_right fun _ => ⟨fun hall i hi => ?_, fun hall i a ha => ?_⟩
      · obtain ⟨-, a, ha⟩ := Finset.mem_filter.1 hi
        exact hall i a ha
      · exact hall i (Finset.mem_filter.2
          ⟨Finset.mem_range.2 (List.getElem?_eq_some_iff.1 ha.1).1, a, ha⟩)
  exact ⟨origin, horigin, hinj, hpool, by rw [hpool]; positivity⟩

/-- The hypothesis is met by a chain that shields 5 zatoshi in one bundle and spends the note in the
next; the pool then holds 5 and after that 0. -/
example : ∃ bs : List (OpenedBundle Unit Unit I64), Chain Examples.P0 id bs ∧ bs.length = 2 ∧
    (∃ a, Spends bs 1 a ∧ a.w.vOld = 5) ∧ poolBalance id (bs.take 1) = 5 ∧ poolBalance id bs = 0 := by
  obtain ⟨b, b', h1, h2, h3, h4⟩ := Examples.ledger_P0
  exact ⟨[b, b'], h1, rfl, h4, h2, h3⟩

/-- **C92** (at all times). Every initial part of a chain is a chain, so the conclusions of
`C92_no_inflation` hold after every bundle. -/
theorem C92_at_all_times (P : Prims) (into : V → I64) (bs : List (OpenedBundle T A V))
    (h : Chain P into bs) (k : ℕ) : Chain P into (bs.take k) := by
  induction h with
  | empty => rw [List.take_nil]; exact .empty
  | @accept bs b hc ha ih =>
    by_cases hk : k ≤ bs.length
    · rw [List.take_append_of_le_length hk]; exact ih
    · rw [List.take_of_length_le (by rw [List.length_append, List.length_singleton]; omega)]
      exact .accept hc ha

/-- **C92** (what the circuit gives). For cells satisfying the Action circuit for each action of a
bundle, the secrets required by `Accepted` exist, and they are the values in the cells. -/
theorem C92_circuit (P : Prims) (b : Bundle T A V) (ks : List ActionCircuit.Cells)
    (hk : List.Forall₂ (fun (a : Action A) k => ∃ inst,
      (a.toInstance b.flags b.anchor).toHalo2 = .ret inst ∧
      ActionCircuit.Synthesize P false k inst) b.actions ks) :
    ∃ ss : List (ActionWitness × MerkleTrace), ss.map (·.1) = ks.map (·.witness) ∧
      List.Forall₂ (fun a s => ActionStatement P (a.toInstance b.flags b.anchor) s.1 ∧
        (s.1.vOld ≠ 0 → s.2.Valid P s.1.path s.1.pos (extractP s.1.cmOld) b.anchor)) b.actions ss := by
  generalize b.actions = as at hk
  induction hk with
  | nil => exact ⟨[], rfl, .nil⟩
  | @cons a k as ks h _ ih =>
    obtain ⟨ss, h1, h2⟩ := ih
    obtain ⟨inst, hi, hs⟩ := h
    have hst := C54_sound P k _ inst hi hs
    have ht : ∃ t : MerkleTrace, k.witness.vOld ≠ 0 →
        t.Valid P k.witness.path k.witness.pos (extractP k.witness.cmOld) b.anchor := by
      rcases hst.merkle with h0 | ⟨g1, g2, nodes, g3, g4, g5⟩
      · exact ⟨⟨fun _ => 0, fun _ => 0, fun _ => 0⟩, fun hne => absurd h0 hne⟩
      · choose! x y hxy using g5
        exact ⟨⟨nodes, x, y⟩, fun _ => ⟨g1, g2, g3, g4, hxy⟩⟩
    obtain ⟨t, ht⟩ := ht
    exact ⟨(k.witness, t) :: ss, by rw [List.map_cons, List.map_cons, h1], .cons ⟨hst, ht⟩ h2⟩

/-- **C92** (who can spend). Let the note spent by an action be addressed to a holder of the full viewing
key `(ak, nk, rivk)`, that is `pk_d = [ivk] g_d` for the incoming viewing key of that full viewing key.
Then the spend uses that key: the nullifier revealed is the one the holder computes, and the action's
signature must verify under a randomisation of `±ak`.  Otherwise a relation among the generators of
`Commit^ivk` is exhibited. -/
theorem C92_spend_authority (P : Prims) (i : Instance) (w : ActionWitness)
    (hs : ActionStatement P i w) (ak : Point) (nk : Fp) (rivk : Fq) (ivk : Fp)
    (hk : commitIvk P (extractP ak) nk rivk = some ivk)
    (haddr : w.pkdOld = ((ivk.val : ℕ) : Fq) • w.gdOld) :
    (i.nfOld = deriveNullifier P nk w.rhoOld w.psiOld w.cmOld ∧
      (i.rk.point = w.alpha • Constants.spendAuthG + ak ∨
        i.rk.point = w.alpha • Constants.spendAuthG + -ak)) ∨
    SinsemillaRelation P Constants.qCommitIvk Constants.commitIvkR
      (leBits 255 (extractP w.ak).val ++ leBits 255 w.nk.val, w.rivk)
      (leBits 255 (extractP ak).val ++ leBits 255 nk.val, rivk) := by
  rcases hs.pkd with k | ⟨ivk', k, hk'⟩
  · exact Or.inr (relation_of_none _ _ (commitIvk_eq_none k))
  have hivk : ivk' = ivk := by
    rw [haddr] at hk'
    have h4 := (ZMod.natCast_eq_natCast_iff' _ _ _).1 (smul_left_injective Fq hs.gdOld hk')
    rw [Nat.mod_eq_of_lt ((ZMod.val_lt _).trans p_lt_q),
      Nat.mod_eq_of_lt ((ZMod.val_lt _).trans p_lt_q)] at h4
    exact (ZMod.val_injective p h4).symm
  obtain ⟨x, hx, ex⟩ := commitIvk_eq_some k
  obtain ⟨y, hy, ey⟩ := commitIvk_eq_some hk
  rcases blinded_binding (by simp) (by simp) hx hy (by rw [← ex, ← ey, hivk]) with ⟨h4, -⟩ | h4
  swap; · exact Or.inr h4
  left
  obtain ⟨h5, h6⟩ := List.append_inj' h4 (by simp)
  have hnk : w.nk = nk := ZMod.val_injective p (leBits_inj (val_lt_255 _) (val_lt_255 _) h6)
  have hak : extractP w.ak = extractP ak :=
    ZMod.val_injective p (leBits_inj (val_lt_255 _) (val_lt_255 _) h5)
  refine ⟨by rw [hs.nfOld, hnk], ?_⟩
  rw [hs.rk]
  rcases extractP_eq_iff.1 hak with h | h
  · exact Or.inl (by rw [h])
  · exact Or.inr (by rw [h])

/-- The hypotheses of `C92_spend_authority` are met by the actions of the example chain. -/
example : ∃ (i : Instance) (w : ActionWitness) (ak : Point) (nk : Fp) (rivk : Fq) (ivk : Fp),
    ActionStatement Examples.P0 i w ∧ commitIvk Examples.P0 (extractP ak) nk rivk = some ivk ∧
      w.pkdOld = ((ivk.val : ℕ) : Fq) • w.gdOld := by
  obtain ⟨b, b', h, -, -, a, ha, -⟩ := Examples.ledger_P0
  obtain ⟨f, anchor, hs, -⟩ := h.action 1 a ha.1
  rcases hs.pkd with h0 | ⟨ivk, h1, h2⟩
  · obtain ⟨x, hx, -⟩ := Examples.hash_P0 (Q := Constants.qCommitIvk)
      (msg := leBits 255 (extractP a.w.ak).val ++ leBits 255 a.w.nk.val)
      (by simp [Examples.domainPoints]) (by simp)
    rw [commitIvk_eq_none h0] at hx
    cases hx
  · exact ⟨_, a.w, _, _, _, ivk, hs, h1, h2⟩

end Orchard
