import Verif.Lemmas.Frontier
import Verif.Vectors.Merkle

/-!
# Property C106: incremental trees

Stated against the tree of `Spec/Tree.lean`: `Spec.padLeaves leaves` are the given leaves followed by empty ones,
`Spec.treeRoot` the root at height 32, `Spec.IsPathIn` the path of a position in that tree.
-/

namespace Orchard

open Testing Incremental

/-- **C106** (appending). A frontier takes leaves until it has `2^32`; from then on it refuses them and stays as it is. -/
theorem C106_append (P : Prims) (leaves : List Fp) (x : Fp) (hl : leaves.length ≤ 2 ^ 32) :
    ∃ f, Frontier.appendAll P none leaves = .ret f ∧
      (leaves.length < 2 ^ 32 → ∃ f', Frontier.append P f x = .ret (true, f') ∧
        Frontier.appendAll P none (leaves ++ [x]) = .ret f') ∧
      (leaves.length = 2 ^ 32 → Frontier.append P f x = .ret (false, f)) := by
  by_cases h0 : leaves = []
  · subst h0
    exact ⟨none, rfl, fun _ => ⟨_, rfl, rfl⟩, fun h => by simp at h⟩
  · obtain ⟨g, h1, h2⟩ := appendAll_at P h0 hl
    have hpos : 0 < leaves.length := List.length_pos_of_ne_nil h0
    refine ⟨some g, h1, fun hlt => ?_, fun he => ?_⟩
    · have hat := h2 (fun i => (leaves ++ [x]).getD i 2) (by
        intro i h; simp [List.getD_eq_getElem?_getD, List.getElem?_append, h])
      obtain ⟨g', h3, -⟩ := append_room hat (by omega)
      have ex : (leaves ++ [x]).getD (leaves.length - 1 + 1) 2 = x := by
        rw [Nat.sub_add_cancel hpos]; simp [List.getD_eq_getElem?_getD]
      simp only [ex] at h3
      refine ⟨some g', h3, ?_⟩
      rw [appendAll_snoc h1, h3]; rfl
    · have hat := h2 (fun i => leaves.getD i 2) (by intro i h; simp [List.getD_eq_getElem?_getD, h])
      exact append_full P x (by rw [hat.position, he])

/-- Both cases of `C106_append` occur. -/
example : ([3, 4, 5] : List Fp).length < 2 ^ 32 ∧ (List.replicate (2 ^ 32) (0 : Fp)).length = 2 ^ 32 :=
  ⟨by norm_num, List.length_replicate⟩

theorem padLeaves_of_lt {leaves : List Fp} {i : ℕ} (h : i < leaves.length) : Spec.padLeaves leaves i = leaves[i] := by
  simp [Spec.padLeaves, List.getD_eq_getElem?_getD, h]

theorem padLeaves_of_ge {leaves : List Fp} {i : ℕ} (h : leaves.length ≤ i) : Spec.padLeaves leaves i = 2 := by
  simp [Spec.padLeaves, List.getD_eq_getElem?_getD, h]

/-- **C106** (root). The root of the frontier is the root of the tree of height 32 with these leaves and empty leaves after
them. -/
theorem C106_root (P : Prims) (leaves : List Fp) (hl : leaves.length ≤ 2 ^ 32) :
    ∃ f, Frontier.appendAll P none leaves = .ret f ∧ Frontier.root P f = .ret (Spec.treeRoot P leaves) := by
  by_cases h0 : leaves = []
  · subst h0
    exact ⟨none, rfl, C47_empty_tree P⟩
  · have hpos : 0 < leaves.length := List.length_pos_of_ne_nil h0
    obtain ⟨g, h1, h2⟩ := appendAll_at P h0 hl
    exact ⟨some g, h1, at_root (h2 (Spec.padLeaves leaves) fun i h => padLeaves_of_lt h) (by omega)
      fun i hi => padLeaves_of_ge (by omega)⟩

/-- Three leaves: the root is that of the tree that pairs the third with an empty leaf. -/
example : ∃ f, Frontier.appendAll Examples.P0 none [3, 4, 5] = .ret f ∧
    Frontier.root Examples.P0 f = .ret (Spec.treeRoot Examples.P0 [3, 4, 5]) ∧
    Spec.node Examples.P0 (Spec.padLeaves [3, 4, 5]) 1 1 = Spec.merkleCRH Examples.P0 0 5 2 := by
  obtain ⟨f, h1, h2⟩ := C106_root Examples.P0 [3, 4, 5] (by norm_num)
  exact ⟨f, h1, h2, rfl⟩

/-- **C106** (contents). A frontier consists of the position of the last leaf, that leaf, and for every bit of the
position that is set the root of the complete subtree it stands for, from the leaves up. -/
theorem C106_contents (P : Prims) (leaves : List Fp) (h0 : leaves ≠ []) (hl : leaves.length ≤ 2 ^ 32) :
    Frontier.appendAll P none leaves = .ret (some ⟨leaves.length - 1, leaves.getLast h0,
      ((List.range 32).filter fun l => (leaves.length - 1) / 2 ^ l % 2 = 1).map fun l =>
        Spec.node P (Spec.padLeaves leaves) l ((leaves.length - 1) / 2 ^ l - 1)⟩) := by
  have hpos : 0 < leaves.length := List.length_pos_of_ne_nil h0
  obtain ⟨g, h1, h2⟩ := appendAll_at P h0 hl
  obtain ⟨a1, a2, a3⟩ := h2 (Spec.padLeaves leaves) fun i h => padLeaves_of_lt h
  rw [h1]
  congr 2
  obtain ⟨q, lf, om⟩ := g
  simp only at a1 a2 a3
  rw [a1, a2, a3, padLeaves_of_lt (by omega), List.getLast_eq_getElem,
    ommersFrom_stable P _ 32 64 0 _ (by omega) (by omega)]
  congr 1
  have := ommersFrom_eq P (Spec.padLeaves leaves) (leaves.length - 1) 32 0
  rw [pow_zero, Nat.div_one, ← List.range_eq_range'] at this
  exact this

/-- After six leaves the position is 5, with bits 0 and 2: one ommer is a leaf, the other the root of four. -/
example : ∃ g, Frontier.appendAll Examples.P0 none [3, 4, 5, 6, 7, 8] = .ret (some g) ∧ g.position = 5 ∧ g.leaf = 8 ∧
    g.ommers = [7, Spec.merkleCRH Examples.P0 1 (Spec.merkleCRH Examples.P0 0 3 4) (Spec.merkleCRH Examples.P0 0 5 6)] :=
  ⟨_, C106_contents Examples.P0 [3, 4, 5, 6, 7, 8] (by simp) (by norm_num), rfl, rfl, rfl⟩

/-- **C106** (witness). With a callback that knows the nodes to the right of the last leaf in a tree that continues the
appended leaves, `witness` gives the position and the siblings of that leaf in the tree. -/
theorem C106_witness (P : Prims) (leaves : List Fp) (h0 : leaves ≠ []) (hl : leaves.length ≤ 2 ^ 32) (leaf : ℕ → Fp)
    (hleaf : ∀ i (h : i < leaves.length), leaf i = leaves[i])
    (complement : Incremental.Address → Outcome (Option Fp))
    (hc : ∀ l < 32, ∀ i, leaves.length ≤ i * 2 ^ l → complement ⟨l, i⟩ = .ret (some (Spec.node P leaf l i))) :
    ∃ f, Frontier.appendAll P none leaves = .ret f ∧
      Frontier.witness f complement = .ret (some (some (leaves.length - 1, (List.range 32).map fun l =>
        Spec.node P leaf l (Spec.sibling ((leaves.length - 1) / 2 ^ l))))) := by
  have hpos : 0 < leaves.length := List.length_pos_of_ne_nil h0
  obtain ⟨g, h1, h2⟩ := appendAll_at P h0 hl
  refine ⟨some g, h1, at_witness (h2 leaf hleaf) (by omega) fun l hl32 _ => hc l hl32 _ ?_⟩
  have := Nat.lt_mul_div_succ (leaves.length - 1) (show 0 < 2 ^ l by positivity)
  rw [Nat.mul_comm] at this
  omega

/-- A callback as `C106_witness` asks for: all nodes of a tree that continues the leaves. -/
example : ∃ f, Frontier.appendAll Examples.P0 none [3, 4, 5] = .ret f ∧
    ∃ path, Frontier.witness f (fun a => .ret (some (Spec.node Examples.P0 (Spec.padLeaves [3, 4, 5, 6]) a.level a.index))) =
      .ret (some (some (2, path))) ∧ path[0]? = some 6 := by
  obtain ⟨f, h1, h2⟩ := C106_witness Examples.P0 [3, 4, 5] (by simp) (by norm_num) (Spec.padLeaves [3, 4, 5, 6])
    (by
      intro i h
      have h : i < 3 := h
      interval_cases i <;> rfl)
    (fun a => .ret (some (Spec.node Examples.P0 (Spec.padLeaves [3, 4, 5, 6]) a.level a.index)))
    (fun _ _ _ _ => rfl)
  exact ⟨f, h1, _, h2, rfl⟩

/-- **C106** (missing nodes). If the callback does not know one of the siblings to the right, `witness` gives an error. -/
theorem C106_witness_missing (P : Prims) (leaves : List Fp) (h0 : leaves ≠ []) (hl : leaves.length ≤ 2 ^ 32)
    (complement : Incremental.Address → Outcome (Option Fp)) (hr : ∀ a, ∃ r, complement a = .ret r) (l : ℕ) (h32 : l < 32)
    (hright : Spec.sibling ((leaves.length - 1) / 2 ^ l) = (leaves.length - 1) / 2 ^ l + 1)
    (hc : complement ⟨l, (leaves.length - 1) / 2 ^ l + 1⟩ = .ret none) :
    ∃ f, Frontier.appendAll P none leaves = .ret f ∧ Frontier.witness f complement = .ret none := by
  have hpos : 0 < leaves.length := List.length_pos_of_ne_nil h0
  obtain ⟨g, h1, h2⟩ := appendAll_at P h0 hl
  refine ⟨some g, h1, at_witness_missing (h2 (Spec.padLeaves leaves) fun i h => padLeaves_of_lt h) (by omega) hr h32 ?_ hc⟩
  generalize (leaves.length - 1) / 2 ^ l = k at hright
  unfold Spec.sibling at hright
  split at hright <;> omega

/-- A callback that does not know the root of the four leaves to the right. -/
example : ∃ f, Frontier.appendAll Examples.P0 none [3, 4, 5] = .ret f ∧
    Frontier.witness f (fun a => .ret (if a = ⟨2, 1⟩ then none else some 0)) = .ret none :=
  C106_witness_missing Examples.P0 [3, 4, 5] (by simp) (by norm_num) _ (fun _ => ⟨_, rfl⟩) 2 (by norm_num) rfl rfl

/-- **C106** (path). `builder.rs:1076-1081`: the path taken right after a leaf was appended is the path of that leaf in
the tree so far. It leads from the leaf to the root of the frontier. -/
theorem C106_last_path (P : Prims) (leaves : List Fp) (h0 : leaves ≠ []) (hl : leaves.length ≤ 2 ^ 32) :
    ∃ f path, Frontier.appendAll P none leaves = .ret f ∧ Frontier.lastPath P f = .ret path ∧
      Spec.IsPathIn P leaves (leaves.length - 1) path ∧
      path.root P (leaves.getLast h0) = Frontier.root P f := by
  have hpos : 0 < leaves.length := List.length_pos_of_ne_nil h0
  obtain ⟨f, h1, h2⟩ := C106_witness P leaves h0 hl (Spec.padLeaves leaves) (fun i h => padLeaves_of_lt h)
    (fun addr => do pure (some (← emptyRoot P (UInt8.ofNat addr.level)))) (by
      intro l hl32 i hi
      simp only [emptyRoot_eq P (show l ≤ 32 by omega), Outcome.ret_bind, Outcome.pure_eq]
      rw [node_empty P (Spec.padLeaves leaves) leaves.length (fun i h => padLeaves_of_ge h) l i hi])
  obtain ⟨f', h3, h4⟩ := C106_root P leaves hl
  rw [h1] at h3
  cases h3
  have hlen : ((List.range 32).map fun l => Spec.node P (Spec.padLeaves leaves) l
      (Spec.sibling ((leaves.length - 1) / 2 ^ l))).length = Constants.MERKLE_DEPTH := by
    rw [List.length_map, List.length_range]; rfl
  have hin : Spec.IsPathIn P leaves (leaves.length - 1)
      (Path.toOrchard ⟨leaves.length - 1, _, by omega, hlen⟩) := by
    refine ⟨?_, rfl⟩
    show (UInt32.ofNat (leaves.length - 1)).toNat = _
    rw [UInt32.toNat_ofNat']
    exact Nat.mod_eq_of_lt (by omega)
  refine ⟨f, _, h1, ?_, hin, ?_⟩
  · unfold Frontier.lastPath
    rw [h2, Outcome.ret_bind]
    simp only [Option.getD_some, Option.unwrapO_some, Outcome.ret_bind]
    rw [dif_pos ⟨by omega, hlen⟩]
    rfl
  · rw [h4, ← pathIn_root hin, padLeaves_of_lt (by omega), List.getLast_eq_getElem]

/-- A list with leaves. -/
example : ([3, 4, 5] : List Fp) ≠ [] ∧ ([3, 4, 5] : List Fp).length ≤ 2 ^ 32 := ⟨by simp, by norm_num⟩

theorem appendNotes_agree (P : Prims) : ∀ (notes : List Note) (leaves : List Fp) (f : Frontier)
    (acc : List (Note × MerklePath)),
    leaves.length + notes.length ≤ 2 ^ 32 → Frontier.appendAll P none leaves = .ret f →
    (Incremental.appendNotes P f acc notes = .panic ∧ Testing.appendNotes P leaves acc notes = .panic) ∨
    ∃ f' leaves' res, Incremental.appendNotes P f acc notes = .ret (f', res) ∧
      Testing.appendNotes P leaves acc notes = .ret (leaves', res) ∧ leaves'.length ≤ 2 ^ 32 ∧
      Frontier.appendAll P none leaves' = .ret f' := by
  intro notes
  induction notes with
  | nil =>
    intro leaves f acc hl hf
    rw [List.length_nil] at hl
    exact Or.inr ⟨f, leaves, acc, by rw [Incremental.appendNotes, Outcome.pure_eq],
      by rw [Testing.appendNotes, Outcome.pure_eq], by omega, hf⟩
  | cons note notes ih =>
    intro leaves f acc hl hf
    rw [List.length_cons] at hl
    rw [Incremental.appendNotes, Testing.appendNotes]
    cases hcm : note.cmx P with
    | panic => exact Or.inl ⟨by rw [Outcome.panic_bind], by rw [Outcome.panic_bind]⟩
    | ret leaf =>
      have hlen : (leaves ++ [leaf]).length = leaves.length + 1 := by
        rw [List.length_append, List.length_singleton]
      obtain ⟨f1, h1, h2, -⟩ := C106_append P leaves leaf (by omega)
      rw [hf] at h1
      cases h1
      obtain ⟨f', h3, h4⟩ := h2 (by omega)
      obtain ⟨f2, path, h5, h6, h7, -⟩ := C106_last_path P (leaves ++ [leaf])
        (List.append_ne_nil_of_right_ne_nil _ (List.cons_ne_nil _ _)) (by omega)
      rw [h4] at h5
      cases h5
      obtain ⟨path', h8, h9⟩ := frontierWitness_eq P (leaves ++ [leaf]) (by omega)
      have hp : path' = path := by
        obtain ⟨a, b, c⟩ := path
        obtain ⟨a', b', c'⟩ := path'
        have e1 : a' = a := UInt32.toNat_inj.1 (h9.1.trans h7.1.symm)
        have e2 : b' = b := h9.2.trans h7.2.symm
        subst e1 e2
        rfl
      rw [hp] at h8
      rw [Outcome.ret_bind, Outcome.ret_bind, h3, Outcome.ret_bind]
      dsimp only
      rw [h6, Outcome.ret_bind, h8, Outcome.ret_bind]
      exact ih (leaves ++ [leaf]) f' (acc ++ [(note, path)]) (by omega) h4

/-- **C106** (`arb_bundle_inputs`). The loop that appends notes to a frontier and takes their paths gives the anchor and
the paths that `Model/Testing` computes from all leaves, and panics exactly when that does. -/
theorem C106_bundle_inputs (P : Prims) (notes : List Note) (hl : notes.length ≤ 2 ^ 32) :
    (do
      let x ← Incremental.appendNotes P none [] notes
      let anchor ← Frontier.root P x.1
      pure (anchor, x.2)) =
    (do
      let x ← Testing.appendNotes P [] [] notes
      let anchor ← frontierRoot P x.1
      pure (anchor, x.2) : Outcome (Fp × List (Note × MerklePath))) := by
  rcases appendNotes_agree P notes [] none [] (by rw [List.length_nil]; omega) rfl with
    ⟨h1, h2⟩ | ⟨f, leaves, res, h1, h2, h3, h4⟩
  · rw [h1, h2, Outcome.panic_bind, Outcome.panic_bind]
  · obtain ⟨f', h5, h6⟩ := C106_root P leaves h3
    rw [h4] at h5
    cases h5
    rw [h1, h2, Outcome.ret_bind, Outcome.ret_bind, h6, frontierRoot_eq]

/-- **C106** (conversion). Converting a path of crate `incrementalmerkletree` drops the high bits of its position; the
path leads to the same root from every leaf. -/
theorem C106_conversion (P : Prims) (path : Incremental.Path) (leaf : Fp) :
    path.toOrchard.root P leaf = path.root P leaf ∧
    path.toOrchard.position.toNat = path.position % 2 ^ 32 ∧ path.toOrchard.authPath = path.pathElems := by
  refine ⟨?_, ?_, rfl⟩
  · rw [root_eq]
    show _ = path.pathElems.zipIdx.foldlM _ _
    have hlen : path.pathElems.length = 32 := path.len
    have hpos : path.toOrchard.position.toNat = path.position % 2 ^ 32 := UInt32.toNat_ofNat' 
    rw [hpos]
    exact (foldlM_path P path.position path.pathElems 0 leaf (by omega)).symm
  · exact UInt32.toNat_ofNat'

/-- A path with a position beyond the tree, which `as u32` cuts off. -/
example : ∃ path : Incremental.Path, path.position = 2 ^ 32 + 5 ∧ path.toOrchard.position = 5 :=
  ⟨⟨2 ^ 32 + 5, List.replicate 32 0, by norm_num, List.length_replicate⟩, rfl, by
    apply UInt32.toNat_inj.1
    exact (UInt32.toNat_ofNat').trans (by norm_num; rfl)⟩

/-- **C106** (conversion from parts). `From<(Position, Vec<_>)>` panics unless there are 32 siblings, and else agrees with
the other conversion. -/
theorem C106_from_parts (position : UInt64) (elems : List Fp) :
    (elems.length ≠ 32 → pathFromParts position elems = .panic) ∧
    ∀ h : elems.length = 32, pathFromParts position elems =
      .ret (Path.toOrchard ⟨position.toNat, elems, position.toNat_lt, h⟩) := by
  constructor
  · intro h
    exact dif_neg h
  · intro h
    exact dif_pos h

/-- **C106** (`anchor_incremental`, `tree.rs:355-401`). The test passes: the frontier of the five commitments has the
expected root. -/
theorem C106_anchor_incremental :
    ∃ f, Frontier.appendAll Prims.zcash none (Vectors.incrementalLeaves.map fun n => ((n : ℕ) : Fp)) = .ret f ∧
      Frontier.root Prims.zcash f = .ret (Vectors.incrementalAnchor : ℕ) := by
  obtain ⟨f, h1, h2⟩ := C106_root Prims.zcash (Vectors.incrementalLeaves.map fun n => ((n : ℕ) : Fp))
    (by rw [List.length_map]; decide)
  have hp : Spec.padLeaves (Vectors.incrementalLeaves.map fun n => ((n : ℕ) : Fp)) =
      fun i => ((Vectors.incrementalLeaves.getD i 2 : ℕ) : Fp) := by
    generalize Vectors.incrementalLeaves = l
    funext i
    unfold Spec.padLeaves
    rw [show (2 : Fp) = ((2 : ℕ) : Fp) by norm_num, List.getD_map]
  have ha := Vectors.anchor_incremental
  refine ⟨f, h1, h2.trans ?_⟩
  unfold Spec.treeRoot
  rw [hp]
  exact congrArg Outcome.ret ha

end Orchard
