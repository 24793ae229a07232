import Mathlib.Data.Nat.Size
import Verif.Model.Frontier
import Verif.Lemmas.TestingBuilder
import Verif.Props.Tree

/-!
# Lemmas about incremental trees
-/

namespace Orchard.Incremental

/-- The complete subtrees left of position `i`, for `n` levels upwards from `level`. -/
noncomputable def ommersFrom (P : Prims) (leaf : ℕ → Fp) : (n level index : ℕ) → List Fp
  | 0, _, _ => []
  | n + 1, level, index =>
    if index % 2 = 1 then Spec.node P leaf level (index - 1) :: ommersFrom P leaf n (level + 1) (index / 2)
    else ommersFrom P leaf n (level + 1) (index / 2)

theorem ommersFrom_succ (P : Prims) (leaf : ℕ → Fp) (n level index : ℕ) : ommersFrom P leaf (n + 1) level index =
    if index % 2 = 1 then Spec.node P leaf level (index - 1) :: ommersFrom P leaf n (level + 1) (index / 2)
    else ommersFrom P leaf n (level + 1) (index / 2) := rfl

theorem ommersFrom_zero (P : Prims) (leaf : ℕ → Fp) : ∀ n level, ommersFrom P leaf n level 0 = [] := by
  intro n
  induction n with
  | zero => intro _; rfl
  | succ n ih => intro level; rw [ommersFrom, if_neg (by norm_num)]; exact ih _

theorem ommersFrom_stable (P : Prims) (leaf : ℕ → Fp) : ∀ n k level index, index < 2 ^ n → n ≤ k →
    ommersFrom P leaf k level index = ommersFrom P leaf n level index := by
  intro n
  induction n with
  | zero =>
    intro k level index h _
    have : index = 0 := by simpa using h
    rw [this, ommersFrom_zero, ommersFrom_zero]
  | succ n ih =>
    intro k level index h hk
    obtain ⟨k, rfl⟩ : ∃ j, k = j + 1 := ⟨k - 1, by omega⟩
    rw [ommersFrom, ommersFrom, ih k _ _ (by rw [pow_succ] at h; omega) (by omega)]

theorem drop_getElem? {α : Type} {l : List α} {k : ℕ} {a : α} {t : List α} (h : l.drop k = a :: t) :
    l[k]? = some a ∧ l.drop (k + 1) = t := by
  constructor
  · have := congrArg (·[0]?) h
    simpa using this
  · rw [← List.drop_drop, h]; rfl

/-- The carry has been put down: the rest of the ommers is copied. -/
theorem fold_none (P : Prims) (leaf : ℕ → Fp) (ommers : List Fp) : ∀ n level index k new,
    ommers.drop k = ommersFrom P leaf n level index →
    (witnessAddrsFrom n level index k).foldlM (appendStep P ommers) (none, new) =
      .ret (none, new ++ ommersFrom P leaf n level index) := by
  intro n
  induction n with
  | zero => intro level index k new _; simp [witnessAddrsFrom, ommersFrom]
  | succ n ih =>
    intro level index k new h
    rw [ommersFrom] at h ⊢
    rw [witnessAddrsFrom]
    by_cases hb : index % 2 = 1
    · rw [if_pos hb] at h ⊢
      rw [if_pos hb]
      obtain ⟨h1, h2⟩ := drop_getElem? h
      rw [List.foldlM_cons]
      have e : appendStep P ommers (none, new) (⟨level, index - 1⟩, .past k) =
          .ret (none, new ++ [Spec.node P leaf level (index - 1)]) := by
        simp [appendStep, h1]
      rw [e, Outcome.ret_bind, ih _ _ _ _ h2, List.append_assoc]; rfl
    · rw [if_neg hb] at h ⊢
      rw [if_neg hb, List.foldlM_cons]
      have e : appendStep P ommers (none, new) (⟨level, index + 1⟩, .future) = .ret (none, new) := rfl
      rw [e, Outcome.ret_bind, ih _ _ _ _ h]

/-- What the state of the loop stands for when it ends. -/
def finish (st : Option (Fp × ℕ) × List Fp) : List Fp :=
  match st.1 with
  | some (c, _) => st.2 ++ [c]
  | none => st.2

/-- The carry waits for the next ommer. -/
theorem fold_waiting (P : Prims) (leaf : ℕ → Fp) (ommers : List Fp) (c : Fp) (lvl : ℕ) : ∀ n level index k,
    lvl < level → ommers.drop k = ommersFrom P leaf n level index →
    ∃ st, (witnessAddrsFrom n level index k).foldlM (appendStep P ommers) (some (c, lvl), []) = .ret st ∧
      finish st = c :: ommersFrom P leaf n level index := by
  intro n
  induction n with
  | zero => intro level index k _ _; exact ⟨_, rfl, rfl⟩
  | succ n ih =>
    intro level index k hlv h
    rw [ommersFrom] at h ⊢
    rw [witnessAddrsFrom]
    by_cases hb : index % 2 = 1
    · rw [if_pos hb] at h ⊢
      rw [if_pos hb]
      obtain ⟨h1, h2⟩ := drop_getElem? h
      rw [List.foldlM_cons]
      have e : appendStep P ommers (some (c, lvl), []) (⟨level, index - 1⟩, .past k) =
          .ret (none, [c, Spec.node P leaf level (index - 1)]) := by
        simp [appendStep, h1, show lvl ≠ level by omega]
      rw [e, Outcome.ret_bind, fold_none P leaf ommers _ _ _ _ _ h2]
      exact ⟨_, rfl, rfl⟩
    · rw [if_neg hb] at h ⊢
      rw [if_neg hb, List.foldlM_cons]
      have e : appendStep P ommers (some (c, lvl), []) (⟨level, index + 1⟩, .future) = .ret (some (c, lvl), []) := rfl
      rw [e, Outcome.ret_bind]
      exact ih _ _ _ (by omega) h

theorem toNat_ofNat8 {l : ℕ} (h : l < 256) : (UInt8.ofNat l).toNat = l := by
  rw [UInt8.toNat_ofNat']; omega

/-- The carry has gone up to `level`. -/
theorem fold_carrying (P : Prims) (leaf : ℕ → Fp) (ommers : List Fp) : ∀ n level index k,
    level + n ≤ 256 → index + 1 < 2 ^ n → ommers.drop k = ommersFrom P leaf n level index →
    ∃ st, (witnessAddrsFrom n level index k).foldlM (appendStep P ommers)
        (some (Spec.node P leaf level index, level), []) = .ret st ∧
      finish st = ommersFrom P leaf n level (index + 1) := by
  intro n
  induction n with
  | zero => intro level index k _ h; simp at h
  | succ n ih =>
    intro level index k hl hi h
    rw [ommersFrom] at h ⊢
    rw [witnessAddrsFrom]
    by_cases hb : index % 2 = 1
    · rw [if_pos hb] at h
      rw [if_pos hb, if_neg (by omega)]
      obtain ⟨h1, h2⟩ := drop_getElem? h
      rw [List.foldlM_cons]
      have e : appendStep P ommers (some (Spec.node P leaf level index, level), []) (⟨level, index - 1⟩, .past k) =
          .ret (some (Spec.node P leaf (level + 1) (index / 2), level + 1), []) := by
        simp only [appendStep, if_true, h1, Option.unwrapO_some, Outcome.ret_bind, merkleCombine_eq,
          toNat_ofNat8 (show level < 256 by omega), Outcome.pure_eq]
        rw [Spec.node, show 2 * (index / 2) = index - 1 by omega, show index - 1 + 1 = index by omega]
      rw [e, Outcome.ret_bind]
      obtain ⟨st, h3, h4⟩ := ih (level + 1) (index / 2) (k + 1) (by omega) (by rw [pow_succ] at hi; omega) h2
      exact ⟨st, h3, by rw [h4, show (index + 1) / 2 = index / 2 + 1 by omega]⟩
    · rw [if_neg hb] at h
      rw [if_neg hb, if_pos (by omega), List.foldlM_cons]
      have e : appendStep P ommers (some (Spec.node P leaf level index, level), []) (⟨level, index + 1⟩, .future) =
        .ret (some (Spec.node P leaf level index, level), []) := rfl
      rw [e, Outcome.ret_bind]
      obtain ⟨st, h3, h4⟩ := fold_waiting P leaf ommers (Spec.node P leaf level index) level n (level + 1) (index / 2) k
        (by omega) h
      exact ⟨st, h3, by rw [h4, Nat.add_sub_cancel, show (index + 1) / 2 = index / 2 by omega]⟩

/-- The frontier after leaf number `n` of the tree with the given leaves. -/
structure At (P : Prims) (leaves : ℕ → Fp) (n : ℕ) (g : NonEmptyFrontier) : Prop where
  position : g.position = n
  leaf : g.leaf = leaves n
  ommers : g.ommers = ommersFrom P leaves 64 0 n

theorem at_new (P : Prims) (leaf : ℕ → Fp) : At P leaf 0 (NonEmptyFrontier.new (leaf 0)) :=
  ⟨rfl, rfl, (ommersFrom_zero P leaf 64 0).symm⟩

theorem at_append {P : Prims} {leaf : ℕ → Fp} {n : ℕ} {g : NonEmptyFrontier} (h : At P leaf n g) (hn : n + 1 < 2 ^ 64) :
    ∃ g', g.append P (leaf (n + 1)) = .ret g' ∧ At P leaf (n + 1) g' := by
  unfold NonEmptyFrontier.append
  rw [h.position]
  by_cases hb : (n + 1) % 2 = 1
  · rw [if_pos hb]
    refine ⟨_, rfl, rfl, rfl, ?_⟩
    show g.leaf :: g.ommers = _
    rw [h.leaf, h.ommers, ommersFrom_succ P leaf 63, ommersFrom_succ P leaf 63, if_pos hb, if_neg (by omega),
      Nat.add_sub_cancel, show (n + 1) / 2 = n / 2 by omega]
    rfl
  · rw [if_neg hb]
    have hs : n + 1 < 2 ^ rootLevel (n + 1) := Nat.lt_size_self _
    have h64 : rootLevel (n + 1) ≤ 64 := Nat.size_le.2 hn
    obtain ⟨st, h1, h2⟩ := fold_carrying P leaf g.ommers (rootLevel (n + 1)) 0 n 0 (by omega) hs (by
      rw [List.drop_zero, h.ommers]
      exact ommersFrom_stable P leaf _ _ _ _ (by omega) h64)
    refine ⟨⟨n + 1, leaf (n + 1), finish st⟩, ?_, rfl, rfl, ?_⟩
    · unfold witnessAddrs
      rw [h.leaf]
      refine (congrArg (· >>= _) h1).trans ?_
      rw [Outcome.ret_bind]
      obtain ⟨c, new⟩ := st
      cases c <;> rfl
    · show finish st = _
      rw [h2]
      exact (ommersFrom_stable P leaf _ _ _ _ hs h64).symm

theorem append_full {g : NonEmptyFrontier} (P : Prims) (x : Fp) (h : g.position = 2 ^ 32 - 1) :
    Frontier.append P (some g) x = .ret (false, some g) := by
  unfold Frontier.append
  simp only [Constants.MERKLE_DEPTH, h]
  rfl

theorem append_room {P : Prims} {leaf : ℕ → Fp} {n : ℕ} {g : NonEmptyFrontier} (h : At P leaf n g)
    (hn : n + 1 < 2 ^ 32) :
    ∃ g', Frontier.append P (some g) (leaf (n + 1)) = .ret (true, some g') ∧ At P leaf (n + 1) g' := by
  obtain ⟨g', h1, h2⟩ := at_append h (by omega)
  refine ⟨g', ?_, h2⟩
  unfold Frontier.append
  simp only [Constants.MERKLE_DEPTH, h.position]
  rw [if_neg (by rw [Nat.mod_eq_of_lt (by omega)]; omega), h1]
  rfl

theorem appendAll_range (P : Prims) (leaf : ℕ → Fp) : ∀ n, n < 2 ^ 32 →
    ∃ g, Frontier.appendAll P none ((List.range (n + 1)).map leaf) = .ret (some g) ∧ At P leaf n g := by
  intro n
  induction n with
  | zero => intro _; exact ⟨_, rfl, at_new P leaf⟩
  | succ n ih =>
    intro hn
    obtain ⟨g, h1, h2⟩ := ih (by omega)
    obtain ⟨g', h3, h4⟩ := append_room h2 hn
    refine ⟨g', ?_, h4⟩
    unfold Frontier.appendAll at h1 ⊢
    rw [List.range_succ, List.map_append, List.foldlM_append, h1, Outcome.ret_bind, List.map_singleton,
      List.foldlM_cons, h3]
    rfl

theorem appendAll_snoc {P : Prims} {leaves : List Fp} {f : Frontier} (h : Frontier.appendAll P none leaves = .ret f)
    (x : Fp) : Frontier.appendAll P none (leaves ++ [x]) =
      (Frontier.append P f x >>= fun r => .ret r.2) := by
  unfold Frontier.appendAll at h ⊢
  rw [List.foldlM_append, h, Outcome.ret_bind, List.foldlM_cons]
  cases Frontier.append P f x <;> rfl

/-- The frontier of a list of leaves, as part of any longer tree. -/
theorem appendAll_at (P : Prims) {leaves : List Fp} (h0 : leaves ≠ []) (hl : leaves.length ≤ 2 ^ 32) :
    ∃ g, Frontier.appendAll P none leaves = .ret (some g) ∧
      ∀ leaf : ℕ → Fp, (∀ i (h : i < leaves.length), leaf i = leaves[i]) → At P leaf (leaves.length - 1) g := by
  have hpos : 0 < leaves.length := List.length_pos_of_ne_nil h0
  have key : ∀ leaf : ℕ → Fp, (∀ i (h : i < leaves.length), leaf i = leaves[i]) →
      ∃ g, Frontier.appendAll P none leaves = .ret (some g) ∧ At P leaf (leaves.length - 1) g := by
    intro leaf hleaf
    have e : (List.range (leaves.length - 1 + 1)).map leaf = leaves := by
      apply List.ext_getElem
      · rw [List.length_map, List.length_range]; omega
      · intro i h1 h2
        rw [List.getElem_map, List.getElem_range]
        exact hleaf i h2
    have := appendAll_range P leaf (leaves.length - 1) (by omega)
    rwa [e] at this
  obtain ⟨g, h1, -⟩ := key (fun i => leaves.getD i 2) (by
    intro i h; simp [List.getD_eq_getElem?_getD, h])
  refine ⟨g, h1, fun leaf hleaf => ?_⟩
  obtain ⟨g', h2, h3⟩ := key leaf hleaf
  rw [h1] at h2
  cases h2
  exact h3

theorem node_empty (P : Prims) (leaf : ℕ → Fp) (m : ℕ) (hm : ∀ i, m ≤ i → leaf i = 2) : ∀ level index,
    m ≤ index * 2 ^ level → Spec.node P leaf level index = Spec.node P (fun _ => 2) level 0 := by
  intro level
  induction level with
  | zero => intro index h; exact hm _ (by simpa using h)
  | succ level ih =>
    intro index h
    rw [Spec.node, Spec.node, ih (2 * index) (by rw [pow_succ] at h; linarith [h]),
      ih (2 * index + 1) (by rw [pow_succ] at h; linarith [h, Nat.zero_le (2 ^ level)])]
    have e : ∀ i, Spec.node P (fun _ => 2) level i = Spec.node P (fun _ => 2) level 0 := by
      clear ih h
      induction level with
      | zero => intro i; rfl
      | succ level ih => intro i; rw [Spec.node, Spec.node, ih, ih (2 * i + 1), ih (2 * 0 + 1)]
    rw [e (2 * 0 + 1)]

theorem emptyRoot_eq (P : Prims) {l : ℕ} (h : l ≤ 32) :
    emptyRoot P (UInt8.ofNat l) = .ret (Spec.node P (fun _ => 2) l 0) := by
  rw [(C47_empty_root P _).1 (by rw [toNat_ofNat8 (by omega)]; exact h), toNat_ofNat8 (by omega)]

/-- The body of the loop of `NonEmptyFrontier.root`. -/
noncomputable def rootStep (P : Prims) (ommers : List Fp) (st : Fp × ℕ) (x : Address × Source) : Outcome (Fp × ℕ) := do
  let d ← (List.range' st.2 (x.1.level - st.2)).foldlM (init := st.1) fun d l => do
    merkleCombine P (UInt8.ofNat l) d (← emptyRoot P (UInt8.ofNat l))
  match x.2 with
  | .past i => do
    let o ← Option.unwrapO ommers[i]?
    pure (← merkleCombine P (UInt8.ofNat x.1.level) o d, x.1.level + 1)
  | .future => do
    let e ← emptyRoot P (UInt8.ofNat x.1.level)
    pure (← merkleCombine P (UInt8.ofNat x.1.level) d e, x.1.level + 1)

theorem half_odd {q : ℕ} (h : q % 2 = 1) : 2 * (q / 2) = q - 1 ∧ q - 1 + 1 = q := by omega

theorem half_even {q : ℕ} (h : ¬ q % 2 = 1) : 2 * (q / 2) = q := by omega

theorem fold_root (P : Prims) (leaf : ℕ → Fp) (pos : ℕ) (ommers : List Fp) (he : ∀ i, pos < i → leaf i = 2) :
    ∀ n level k, level + n ≤ 32 → ommers.drop k = ommersFrom P leaf n level (pos / 2 ^ level) →
    (witnessAddrsFrom n level (pos / 2 ^ level) k).foldlM (rootStep P ommers)
        (Spec.node P leaf level (pos / 2 ^ level), level) =
      .ret (Spec.node P leaf (level + n) (pos / 2 ^ (level + n)), level + n) := by
  intro n
  induction n with
  | zero => intro level k _ _; rfl
  | succ n ih =>
    intro level k hl h
    rw [ommersFrom] at h
    rw [witnessAddrsFrom]
    have hl8 := toNat_ofNat8 (show level < 256 by omega)
    have hd : pos / 2 ^ (level + 1) = pos / 2 ^ level / 2 := div_two_pow_succ pos level
    by_cases hb : pos / 2 ^ level % 2 = 1
    · rw [if_pos hb] at h
      rw [if_pos hb]
      obtain ⟨h1, h2⟩ := drop_getElem? h
      rw [List.foldlM_cons]
      have e : rootStep P ommers (Spec.node P leaf level (pos / 2 ^ level), level)
          (⟨level, pos / 2 ^ level - 1⟩, .past k) =
          .ret (Spec.node P leaf (level + 1) (pos / 2 ^ (level + 1)), level + 1) := by
        simp only [rootStep, Nat.sub_self, List.range'_zero, List.foldlM_nil, Outcome.pure_eq, Outcome.ret_bind, h1,
          Option.unwrapO_some, merkleCombine_eq, hl8]
        rw [Spec.node, hd, (half_odd hb).1, (half_odd hb).2]
      rw [e, Outcome.ret_bind, ← hd, ih _ _ (by omega) (by rw [hd]; exact h2)]
      rw [show level + 1 + n = level + (n + 1) by omega]
    · rw [if_neg hb] at h
      rw [if_neg hb, List.foldlM_cons]
      have e : rootStep P ommers (Spec.node P leaf level (pos / 2 ^ level), level)
          (⟨level, pos / 2 ^ level + 1⟩, .future) =
          .ret (Spec.node P leaf (level + 1) (pos / 2 ^ (level + 1)), level + 1) := by
        simp only [rootStep, Nat.sub_self, List.range'_zero, List.foldlM_nil, Outcome.pure_eq, Outcome.ret_bind,
          emptyRoot_eq P (show level ≤ 32 by omega), merkleCombine_eq, hl8]
        rw [Spec.node, hd, half_even hb,
          node_empty P leaf (pos + 1) (fun i hi => he i (by omega)) level (pos / 2 ^ level + 1)
            (by
              have := Nat.lt_mul_div_succ pos (show 0 < 2 ^ level by positivity)
              rw [Nat.mul_comm] at this; omega)]
      rw [e, Outcome.ret_bind, ← hd, ih _ _ (by omega) (by rw [hd]; exact h)]
      rw [show level + 1 + n = level + (n + 1) by omega]

theorem at_root {P : Prims} {leaf : ℕ → Fp} {n : ℕ} {g : NonEmptyFrontier} (h : At P leaf n g) (hn : n < 2 ^ 32)
    (he : ∀ i, n < i → leaf i = 2) : Frontier.root P (some g) = .ret (Spec.node P leaf 32 0) := by
  have key := fold_root P leaf n g.ommers he 32 0 0 (by omega) (by
    rw [List.drop_zero, h.ommers, pow_zero, Nat.div_one]
    exact ommersFrom_stable P leaf _ _ _ _ hn (by omega))
  rw [Nat.zero_add, Nat.div_eq_of_lt hn, pow_zero, Nat.div_one] at key
  unfold Frontier.root NonEmptyFrontier.root
  simp only [Constants.MERKLE_DEPTH]
  unfold witnessAddrs
  rw [h.position, h.leaf]
  refine (congrArg (· >>= _) key).trans ?_
  rfl

/-- The body of the loop of `NonEmptyFrontier.witness`. -/
noncomputable def witnessStep (ommers : List Fp) (complement : Address → Outcome (Option Fp))
    (acc : Option (List Fp)) (x : Address × Source) : Outcome (Option (List Fp)) :=
  match acc with
  | none => pure none
  | some l =>
    match x.2 with
    | .past i => do pure (some (l ++ [← Option.unwrapO ommers[i]?]))
    | .future => do
      match ← complement x.1 with
      | some c => pure (some (l ++ [c]))
      | none => pure none

theorem fold_witness (P : Prims) (leaf : ℕ → Fp) (pos : ℕ) (ommers : List Fp)
    (complement : Address → Outcome (Option Fp))
    (hc : ∀ l < 32, pos / 2 ^ l % 2 = 0 →
      complement ⟨l, pos / 2 ^ l + 1⟩ = .ret (some (Spec.node P leaf l (pos / 2 ^ l + 1)))) :
    ∀ n level k acc, level + n ≤ 32 → ommers.drop k = ommersFrom P leaf n level (pos / 2 ^ level) →
    (witnessAddrsFrom n level (pos / 2 ^ level) k).foldlM (witnessStep ommers complement) (some acc) =
      .ret (some (acc ++ (List.range' level n).map fun l => Spec.node P leaf l (Spec.sibling (pos / 2 ^ l)))) := by
  intro n
  induction n with
  | zero => intro level k acc _ _; simp [witnessAddrsFrom]
  | succ n ih =>
    intro level k acc hl h
    rw [ommersFrom] at h
    rw [witnessAddrsFrom]
    have hd : pos / 2 ^ (level + 1) = pos / 2 ^ level / 2 := div_two_pow_succ pos level
    by_cases hb : pos / 2 ^ level % 2 = 1
    · rw [if_pos hb] at h
      rw [if_pos hb]
      obtain ⟨h1, h2⟩ := drop_getElem? h
      rw [List.foldlM_cons]
      have e : witnessStep ommers complement (some acc) (⟨level, pos / 2 ^ level - 1⟩, .past k) =
          .ret (some (acc ++ [Spec.node P leaf level (Spec.sibling (pos / 2 ^ level))])) := by
        simp only [witnessStep, h1, Option.unwrapO_some, Outcome.ret_bind, Outcome.pure_eq, Spec.sibling, hb]
        rfl
      rw [e, Outcome.ret_bind, ← hd, ih _ _ _ (by omega) (by rw [hd]; exact h2), List.append_assoc]
      rfl
    · rw [if_neg hb] at h
      have hb0 : pos / 2 ^ level % 2 = 0 := by omega
      rw [if_neg hb, List.foldlM_cons]
      have e : witnessStep ommers complement (some acc) (⟨level, pos / 2 ^ level + 1⟩, .future) =
          .ret (some (acc ++ [Spec.node P leaf level (Spec.sibling (pos / 2 ^ level))])) := by
        simp only [witnessStep, hc level (by omega) hb0, Outcome.ret_bind, Outcome.pure_eq, Spec.sibling, hb0, if_true]
      rw [e, Outcome.ret_bind, ← hd, ih _ _ _ (by omega) (by rw [hd]; exact h), List.append_assoc]
      rfl

theorem at_witness {P : Prims} {leaf : ℕ → Fp} {n : ℕ} {g : NonEmptyFrontier} (h : At P leaf n g) (hn : n < 2 ^ 32)
    {complement : Address → Outcome (Option Fp)}
    (hc : ∀ l < 32, n / 2 ^ l % 2 = 0 →
      complement ⟨l, n / 2 ^ l + 1⟩ = .ret (some (Spec.node P leaf l (n / 2 ^ l + 1)))) :
    Frontier.witness (some g) complement = .ret (some (some (n, (List.range 32).map fun l =>
      Spec.node P leaf l (Spec.sibling (n / 2 ^ l))))) := by
  have key := fold_witness P leaf n g.ommers complement hc 32 0 0 [] (by omega) (by
    rw [List.drop_zero, h.ommers, pow_zero, Nat.div_one]
    exact ommersFrom_stable P leaf _ _ _ _ hn (by omega))
  rw [pow_zero, Nat.div_one, List.nil_append, ← List.range_eq_range'] at key
  unfold Frontier.witness NonEmptyFrontier.witness
  simp only [Constants.MERKLE_DEPTH]
  unfold witnessAddrs
  rw [h.position]
  refine (congrArg (· >>= _) key).trans ?_
  rfl

theorem fold_witness_none (ommers : List Fp) (complement : Address → Outcome (Option Fp))
    (l : List (Address × Source)) : l.foldlM (witnessStep ommers complement) none = .ret none := by
  induction l with
  | nil => rfl
  | cons x l ih => rw [List.foldlM_cons]; exact ih

theorem fold_witness_missing (P : Prims) (leaf : ℕ → Fp) (pos : ℕ) (ommers : List Fp)
    (complement : Address → Outcome (Option Fp)) (hr : ∀ a, ∃ r, complement a = .ret r) (m : ℕ)
    (hm : pos / 2 ^ m % 2 = 0) (hc : complement ⟨m, pos / 2 ^ m + 1⟩ = .ret none) :
    ∀ n level k acc, level ≤ m → m < level + n → ommers.drop k = ommersFrom P leaf n level (pos / 2 ^ level) →
    (witnessAddrsFrom n level (pos / 2 ^ level) k).foldlM (witnessStep ommers complement) (some acc) = .ret none := by
  intro n
  induction n with
  | zero => intro level k acc h1 h2 _; omega
  | succ n ih =>
    intro level k acc h1 h2 h
    rw [ommersFrom] at h
    rw [witnessAddrsFrom]
    have hd : pos / 2 ^ (level + 1) = pos / 2 ^ level / 2 := div_two_pow_succ pos level
    by_cases hb : pos / 2 ^ level % 2 = 1
    · rw [if_pos hb] at h
      rw [if_pos hb]
      have hne : level ≠ m := by rintro rfl; omega
      obtain ⟨h3, h4⟩ := drop_getElem? h
      rw [List.foldlM_cons]
      simp only [witnessStep, h3, Option.unwrapO_some, Outcome.ret_bind, Outcome.pure_eq]
      rw [← hd]
      exact ih _ _ _ (by omega) (by omega) (by rw [hd]; exact h4)
    · rw [if_neg hb] at h
      rw [if_neg hb, List.foldlM_cons]
      by_cases he : level = m
      · subst he
        simp only [witnessStep, hc, Outcome.ret_bind, Outcome.pure_eq]
        exact fold_witness_none _ _ _
      · obtain ⟨r, hr⟩ := hr ⟨level, pos / 2 ^ level + 1⟩
        cases r with
        | none =>
          simp only [witnessStep, hr, Outcome.ret_bind, Outcome.pure_eq]
          exact fold_witness_none _ _ _
        | some c =>
          simp only [witnessStep, hr, Outcome.ret_bind, Outcome.pure_eq]
          rw [← hd]
          exact ih _ _ _ (by omega) (by omega) (by rw [hd]; exact h)

theorem at_witness_missing {P : Prims} {leaf : ℕ → Fp} {n : ℕ} {g : NonEmptyFrontier} (h : At P leaf n g)
    (hn : n < 2 ^ 32) {complement : Address → Outcome (Option Fp)} (hr : ∀ a, ∃ r, complement a = .ret r) {m : ℕ}
    (hm32 : m < 32) (hm : n / 2 ^ m % 2 = 0) (hc : complement ⟨m, n / 2 ^ m + 1⟩ = .ret none) :
    Frontier.witness (some g) complement = .ret none := by
  have key := fold_witness_missing P leaf n g.ommers complement hr m hm hc 32 0 0 [] (by omega) (by omega) (by
    rw [List.drop_zero, h.ommers, pow_zero, Nat.div_one]
    exact ommersFrom_stable P leaf _ _ _ _ hn (by omega))
  rw [pow_zero, Nat.div_one] at key
  unfold Frontier.witness NonEmptyFrontier.witness
  simp only [Constants.MERKLE_DEPTH]
  unfold witnessAddrs
  rw [h.position]
  refine (congrArg (· >>= _) key).trans ?_
  rfl

theorem ommersFrom_eq (P : Prims) (leaf : ℕ → Fp) (pos : ℕ) : ∀ n level,
    ommersFrom P leaf n level (pos / 2 ^ level) =
      ((List.range' level n).filter fun l => pos / 2 ^ l % 2 = 1).map fun l =>
        Spec.node P leaf l (pos / 2 ^ l - 1) := by
  intro n
  induction n with
  | zero => intro level; rfl
  | succ n ih =>
    intro level
    rw [ommersFrom, ← div_two_pow_succ, ih, List.range'_succ, List.filter_cons]
    by_cases hb : pos / 2 ^ level % 2 = 1
    · rw [if_pos hb, if_pos (by simpa using hb), List.map_cons]
    · rw [if_neg hb, if_neg (by simpa using hb)]

theorem foldlM_path (P : Prims) (pos : ℕ) (path : List Fp) : ∀ (l : ℕ) (node : Fp), l + path.length ≤ 32 →
    (path.zipIdx l).foldlM (init := node) (fun (node : Fp) (x : Fp × ℕ) =>
      if pos / 2 ^ x.2 % 2 = 0 then merkleCombine P (UInt8.ofNat x.2) node x.1
      else merkleCombine P (UInt8.ofNat x.2) x.1 node) = .ret (pathNodes P (pos % 2 ^ 32) l path node) := by
  induction path with
  | nil => intro l node _; rfl
  | cons s rest ih =>
    intro l node hl
    rw [List.length_cons] at hl
    rw [List.zipIdx_cons, List.foldlM_cons, pathNodes]
    have hb : (pos % 2 ^ 32).testBit l = decide (pos / 2 ^ l % 2 = 1) := by
      rw [Nat.testBit_mod_two_pow, decide_eq_true (by omega), Bool.true_and, Nat.testBit_eq_decide_div_mod_eq]
    rw [hb]
    have h8 := toNat_ofNat8 (show l < 256 by omega)
    simp only
    by_cases h0 : pos / 2 ^ l % 2 = 0
    · rw [if_pos h0, merkleCombine_eq, h8, Outcome.ret_bind, ih (l + 1) _ (by omega)]
      simp [h0, merklePair]
    · have h1 : pos / 2 ^ l % 2 = 1 := by omega
      rw [if_neg h0, merkleCombine_eq, h8, Outcome.ret_bind, ih (l + 1) _ (by omega)]
      simp [h1, merklePair]

end Orchard.Incremental
