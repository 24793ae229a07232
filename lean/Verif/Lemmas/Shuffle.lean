import Verif.Lemmas.Plan
import Verif.Spec.Shuffle
import Mathlib.Data.Fintype.Perm
import Mathlib.GroupTheory.Perm.Basic
import Mathlib.Logic.Equiv.Fintype
import Mathlib.Algebra.BigOperators.Fin
import Mathlib.Data.Nat.Factorial.BigOperators

/-! # Fisher–Yates shuffles -/

namespace Orchard

open Spec

/-- The steps `n, ..., 1`. -/
def shuffleSteps {α : Type} (g : ℕ → ℕ) (n : ℕ) (v : Array α) : Array α :=
  (List.range' 1 n).reverse.foldl (fun (v : Array α) i => v.swapIfInBounds i (g i % (i + 1))) v

theorem shuffle_eq_steps {α : Type} (g : ℕ → ℕ) (l : List α) :
    shuffle g l = (shuffleSteps g (l.length - 1) l.toArray).toList := rfl

theorem shuffleSteps_succ {α : Type} (g : ℕ → ℕ) (n : ℕ) (v : Array α) :
    shuffleSteps g (n + 1) v =
      shuffleSteps g n (v.swapIfInBounds (n + 1) (g (n + 1) % (n + 2))) := by
  unfold shuffleSteps
  rw [List.range'_concat, List.reverse_append]
  simp only [List.reverse_singleton, List.singleton_append, List.foldl_cons, Nat.one_mul]
  rw [show 1 + n = n + 1 by omega]

theorem push_swapIfInBounds {α : Type} (v : Array α) (x : α) {i j : ℕ} (hi : i < v.size)
    (hj : j < v.size) : (v.push x).swapIfInBounds i j = (v.swapIfInBounds i j).push x := by
  apply Array.ext
  · simp
  · intro k h1 h2
    have hk : k < v.size + 1 := by simpa using h1
    unfold Array.swapIfInBounds
    have a1 : i < (v.push x).size := by simp; omega
    have a2 : j < (v.push x).size := by simp; omega
    simp only [hi, hj, a1, a2, dif_pos]
    simp only [Array.getElem_swap, Array.getElem_push, Array.size_swap, hi, hj, dif_pos]
    split_ifs <;> first | rfl | omega

theorem shuffleSteps_push {α : Type} (g : ℕ → ℕ) (n : ℕ) (v : Array α) (x : α) (hn : n < v.size) :
    shuffleSteps g n (v.push x) = (shuffleSteps g n v).push x := by
  induction n generalizing v with
  | zero => rfl
  | succ n ih =>
    rw [shuffleSteps_succ, shuffleSteps_succ, push_swapIfInBounds v x hn, ih]
    · simp; omega
    · have := Nat.mod_lt (g (n + 1)) (show 0 < n + 2 by omega)
      omega

/-- The first `n` elements after `j` and `n` have been swapped. -/
def swapOut {α : Type} (l : List α) (n j : ℕ) : List α :=
  ((l.toArray.swapIfInBounds n j).extract 0 n).toList

/-- One step of the shuffle, at the end of the list. -/
theorem shuffle_snoc {α : Type} (l : List α) (n j : ℕ) (hl : l.length = n + 1) (hj : j < n + 1) :
    ∃ x, l[j]? = some x ∧ (swapOut l n j ++ [x]).Perm l ∧ (swapOut l n j).length = n ∧
      ∀ g : ℕ → ℕ, g n % (n + 1) = j → shuffle g l = shuffle g (swapOut l n j) ++ [x] := by
  unfold swapOut
  have b1 : n < l.toArray.size := by simp [hl]
  have b2 : j < l.toArray.size := by simp [hl]; omega
  set w := l.toArray.swapIfInBounds n j with hw
  have hws : w.size = n + 1 := by simp [w, hl]
  have hwe : w = (l.toArray.swap n j b1 b2) := by
    rw [hw]; unfold Array.swapIfInBounds; rw [dif_pos b1, dif_pos b2]
  have hperm : w.toList.Perm l := by
    rw [hwe]
    exact (Array.perm_iff_toList_perm.1 (Array.swap_perm b1 b2))
  have hlast : w[n]'(by omega) = l[j]'(by omega) := by
    simp only [hwe, Array.getElem_swap]; simp
  have hpush : w = (w.extract 0 n).push (w[n]'(by omega)) := by
    apply Array.ext
    · simp [hws]
    · intro k h1 h2
      rw [Array.getElem_push]
      split_ifs with h
      · simp
      · have : k = n := by simp [hws] at h h1; omega
        subst this; rfl
  refine ⟨w[n]'(by omega), ?_, ?_, ?_, ?_⟩
  · rw [hlast, List.getElem?_eq_getElem (by omega)]
  · have : (w.extract 0 n).toList ++ [w[n]'(by omega)] = w.toList := by
      conv_rhs => rw [hpush]
      rw [Array.toList_push]
    rw [this]; exact hperm
  · simp [hws]
  · intro g' hg'
    rw [shuffle_eq_steps, shuffle_eq_steps]
    have hAl : (w.extract 0 n).toList.length = n := by simp [hws]
    rw [hl, hAl, Nat.add_sub_cancel]
    cases n with
    | zero =>
      have : w = l.toArray := by
        rw [hwe]
        have : j = 0 := by omega
        apply Array.ext
        · simp
        · intro k h1 h2
          simp only [Array.getElem_swap, this]
          have : k = 0 := by simp [hl] at h2; omega
          subst this; simp
      show l.toArray.toList = _
      rw [← this]
      conv_lhs => rw [hpush]
      simp [shuffleSteps]
    | succ n =>
      rw [shuffleSteps_succ, hg', ← hw]
      conv_lhs => rw [hpush]
      rw [shuffleSteps_push _ _ _ _ (by simp [hws]), Array.toList_push]
      rfl

theorem shuffle_nil {α : Type} (g : ℕ → ℕ) : shuffle g ([] : List α) = [] := rfl

/-- The shuffle only uses the draws below the length, reduced. -/
theorem shuffle_congr {α : Type} (g g' : ℕ → ℕ) (l : List α)
    (h : ∀ i < l.length, g i % (i + 1) = g' i % (i + 1)) : shuffle g l = shuffle g' l := by
  obtain ⟨n, hn⟩ : ∃ n, l.length = n := ⟨_, rfl⟩
  induction n generalizing l with
  | zero => rw [List.length_eq_zero_iff.1 hn]; rfl
  | succ n ih =>
    obtain ⟨x, -, -, hA, e⟩ := shuffle_snoc l n (g n % (n + 1)) hn (Nat.mod_lt _ (by omega))
    rw [e g rfl, e g' (h n (by omega)).symm, ih _ (fun i hi => h i (by omega)) hA]

/-- The ordering determines the reduced draws. -/
theorem shuffle_inj {α : Type} (g g' : ℕ → ℕ) (l : List α) (hl : l.Nodup)
    (h : shuffle g l = shuffle g' l) : ∀ i < l.length, g i % (i + 1) = g' i % (i + 1) := by
  obtain ⟨n, hn⟩ : ∃ n, l.length = n := ⟨_, rfl⟩
  induction n generalizing l with
  | zero => intro i hi; omega
  | succ n ih =>
    obtain ⟨x, hx, hp, hA, e⟩ := shuffle_snoc l n (g n % (n + 1)) hn (Nat.mod_lt _ (by omega))
    obtain ⟨x', hx', -, -, e'⟩ := shuffle_snoc l n (g' n % (n + 1)) hn (Nat.mod_lt _ (by omega))
    have hgn : g n % (n + 1) = g' n % (n + 1) := by
      rw [e g rfl, e' g' rfl] at h
      obtain ⟨-, h2⟩ := List.append_inj' h rfl
      simp only [List.cons.injEq, and_true] at h2
      obtain ⟨b1, c1⟩ := List.getElem?_eq_some_iff.1 hx
      obtain ⟨b2, c2⟩ := List.getElem?_eq_some_iff.1 hx'
      exact (List.Nodup.getElem_inj_iff hl).1 (c1.trans (h2.trans c2.symm))
    have hAA : shuffle g (swapOut l n (g n % (n + 1))) = shuffle g' (swapOut l n (g n % (n + 1))) := by
      rw [e g rfl, e g' hgn.symm] at h
      exact (List.append_inj' h rfl).1
    intro i hi
    by_cases hin : i = n
    · subst hin; exact hgn
    · exact ih _ ((hp.nodup_iff.2 hl)).of_append_left hAA hA i (by omega)

/-- Every ordering can be reached. -/
theorem shuffle_surj {α : Type} (l l' : List α) (h : l'.Perm l) :
    ∃ c : Choices l.length, shuffle c.at l = l' := by
  obtain ⟨n, hn⟩ : ∃ n, l.length = n := ⟨_, rfl⟩
  suffices ∃ g : ℕ → ℕ, shuffle g l = l' by
    obtain ⟨g, hg⟩ := this
    refine ⟨fun i => ⟨g i % (i + 1), Nat.mod_lt _ (by omega)⟩, ?_⟩
    rw [← hg]
    apply shuffle_congr
    intro i hi
    simp [Choices.at, hi]
  induction n generalizing l l' with
  | zero =>
    rw [List.length_eq_zero_iff.1 hn] at h ⊢
    exact ⟨fun _ => 0, by rw [List.perm_nil.1 h]; rfl⟩
  | succ n ih =>
    obtain ⟨B, y, rfl⟩ : ∃ B y, l' = B ++ [y] := by
      rcases List.eq_nil_or_concat l' with h0 | ⟨B, y, h0⟩
      · subst h0; have := h.length_eq; simp at this; omega
      · exact ⟨B, y, by simpa using h0⟩
    obtain ⟨j, hj, hy⟩ := List.getElem_of_mem (h.subset (by simp : y ∈ B ++ [y]))
    obtain ⟨x, hx, hp, hA, e⟩ := shuffle_snoc l n j hn (by omega)
    obtain rfl : x = y := by
      rw [List.getElem?_eq_getElem hj] at hx
      exact (Option.some.inj hx).symm.trans hy
    have hB : B.Perm (swapOut l n j) := (List.perm_append_right_iff [x]).1 (h.trans hp.symm)
    obtain ⟨g, hg⟩ := ih _ _ hB hA
    refine ⟨fun i => if i = n then j else g i, ?_⟩
    rw [e _ (by simp [Nat.mod_eq_of_lt (show j < n + 1 by omega)]), ← hg]
    congr 1
    apply shuffle_congr
    intro i hi
    rw [if_neg (by omega)]

theorem Choices.ext_of_mod {n : ℕ} {c c' : Choices n}
    (h : ∀ i < n, c.at i % (i + 1) = c'.at i % (i + 1)) : c = c' := by
  funext i
  have := h i i.2
  simp only [Choices.at, i.2, dif_pos, Fin.eta] at this
  rw [Nat.mod_eq_of_lt (c i).2, Nat.mod_eq_of_lt (c' i).2] at this
  exact Fin.ext this

theorem shuffle_existsUnique {α : Type} (l l' : List α) (hl : l.Nodup) (h : l'.Perm l) :
    ∃! c : Choices l.length, shuffle c.at l = l' := by
  obtain ⟨c, hc⟩ := shuffle_surj l l' h
  refine ⟨c, hc, fun c' hc' => ?_⟩
  exact Choices.ext_of_mod (shuffle_inj _ _ l hl (hc'.trans hc.symm))

/-! ### Counting -/

/-- Orderings of `0, ..., n - 1` as permutations. -/
noncomputable def shufflePerm {n : ℕ} (c : Choices n) : Equiv.Perm (Fin n) :=
  Equiv.ofBijective
    (fun i => (shuffle c.at (List.finRange n)).get ⟨i, by
      rw [(shuffle_perm _ _).length_eq, List.length_finRange]; exact i.2⟩)
    (Finite.injective_iff_bijective.1 fun i i' h => by
      have hn : (shuffle c.at (List.finRange n)).Nodup :=
        ((shuffle_perm _ _).nodup_iff).2 (List.nodup_finRange n)
      have := (List.nodup_iff_injective_get.1 hn) h
      exact Fin.ext (Fin.mk.inj this))

theorem shufflePerm_bijective (n : ℕ) : Function.Bijective (shufflePerm (n := n)) := by
  rw [Fintype.bijective_iff_injective_and_card]
  constructor
  · intro c c' h
    have e : shuffle c.at (List.finRange n) = shuffle c'.at (List.finRange n) := by
      apply List.ext_getElem
      · rw [(shuffle_perm _ _).length_eq, (shuffle_perm _ _).length_eq]
      · intro i h1 h2
        have hi : i < n := by
          rw [(shuffle_perm _ _).length_eq, List.length_finRange] at h1; exact h1
        exact congrArg (fun σ : Equiv.Perm (Fin n) => σ ⟨i, hi⟩) h
    have := shuffle_inj _ _ _ (List.nodup_finRange n) e
    rw [List.length_finRange] at this
    exact Choices.ext_of_mod this
  · rw [Fintype.card_pi, Fintype.card_perm, Fintype.card_fin]
    simp only [Fintype.card_fin]
    rw [Fin.prod_univ_eq_prod_range (fun i => i + 1) n]
    exact Finset.prod_range_add_one_eq_factorial n

theorem shuffle_range_getElem? {n : ℕ} (c : Choices n) (i k : Fin n) :
    (shuffle c.at (List.range n))[i.val]? = some k.val ↔ shufflePerm c i = k := by
  have e : List.range n = (List.finRange n).map Fin.val := by
    rw [List.map_coe_finRange_eq_range]
  have hl : i.val < (shuffle c.at (List.finRange n)).length := by
    rw [(shuffle_perm _ _).length_eq, List.length_finRange]; exact i.2
  rw [e, ← shuffle_map, List.getElem?_map, List.getElem?_eq_getElem hl]
  simp only [Option.map_some, Option.some.injEq]
  exact Fin.val_inj

/-- Permutations with prescribed values at some places. -/
theorem card_perm_extending {n s : ℕ} (hs : s ≤ n) (pos : Fin s → Fin n) (hp : Function.Injective pos) :
    Fintype.card {σ : Equiv.Perm (Fin n) // ∀ k : Fin s, σ (pos k) = Fin.castLE hs k} =
      (n - s).factorial := by
  classical
  -- one permutation with those values
  obtain ⟨τ, hτ⟩ : ∃ τ : Equiv.Perm (Fin n), ∀ k : Fin s, τ (pos k) = Fin.castLE hs k := by
    let e : {x // x ∈ Set.range pos} ≃ {x : Fin n // x ∈ Set.range (Fin.castLE hs)} :=
      (Equiv.ofInjective pos hp).symm.trans (Equiv.ofInjective _ (Fin.castLE_injective hs))
    refine ⟨e.extendSubtype, fun k => ?_⟩
    rw [e.extendSubtype_apply_of_mem _ ⟨k, rfl⟩]
    simp [e, Equiv.ofInjective_symm_apply]
  have e1 : {σ : Equiv.Perm (Fin n) // ∀ k : Fin s, σ (pos k) = Fin.castLE hs k} ≃
      {f : Equiv.Perm (Fin n) // ∀ a, ¬ (a ∉ Set.range pos) → f a = a} :=
    (Equiv.mulLeft τ⁻¹).subtypeEquiv (by
      intro σ
      simp only [Equiv.coe_mulLeft, Equiv.Perm.coe_mul, Function.comp_apply, not_not, Set.mem_range,
        forall_exists_index, forall_apply_eq_imp_iff, Equiv.Perm.inv_eq_iff_eq, hτ])
  rw [Fintype.card_congr (e1.trans (Equiv.Perm.subtypeEquivSubtypePerm _).symm), Fintype.card_perm]
  congr 1
  have : Fintype.card {a // a ∈ Set.range pos} = s := by
    rw [Fintype.card_congr (Equiv.ofInjective pos hp).symm, Fintype.card_fin]
  rw [Fintype.card_subtype_compl (fun a => a ∈ Set.range pos), this, Fintype.card_fin]

end Orchard
