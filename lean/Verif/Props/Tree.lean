import Verif.Lemmas.Tree
import Verif.Examples.Note

/-!
# Properties C45–C47: the note commitment tree
-/

namespace Orchard

/-- **C45.** For every full tree and every position, the root computed from the leaf and the
siblings on its way up is the root of the tree. -/
theorem C45_path_authenticates (P : Prims) (leaf : ℕ → Fp) (path : MerklePath)
    (hs : ∀ l (h : l < 32), path.authPath[l]'(by rw [path.len]; exact h) =
      Spec.node P leaf l (Spec.sibling (path.position.toNat / 2 ^ l))) :
    path.root P (leaf path.position.toNat) = .ret (Spec.node P leaf 32 0) := by
  rw [root_eq]
  have hlen : path.authPath.length = 32 := path.len
  have := pathNodes_tree P leaf path.position.toNat path.authPath 0 (by
    intro i hi
    rw [Nat.zero_add]
    exact hs i (by omega))
  simp only [pow_zero, Nat.div_one, Nat.zero_add, hlen] at this
  rw [Spec.node] at this
  rw [this]
  have : path.position.toNat / 2 ^ 32 = 0 := Nat.div_eq_of_lt path.position.toNat_lt
  rw [this]

/-- **C45** (placement). Replacing one step of the path: the node at level `l` is the left input iff
bit `l` of the position is clear. Stated for the root as a recursion over the remaining siblings. -/
theorem C45_placement (P : Prims) (path : MerklePath) (cmx : Fp) :
    ∃ nodes : ℕ → Fp, nodes 0 = cmx ∧ path.root P cmx = .ret (nodes 32) ∧
      ∀ l (h : l < 32), nodes (l + 1) =
        if path.position.toNat / 2 ^ l % 2 = 0 then
          Spec.merkleCRH P l (nodes l) (path.authPath[l]'(by rw [path.len]; exact h))
        else Spec.merkleCRH P l (path.authPath[l]'(by rw [path.len]; exact h)) (nodes l) := by
  have hlen : path.authPath.length = 32 := path.len
  have key : ∀ (rest : List Fp) (l : ℕ) (a : Fp), ∃ nodes : ℕ → Fp, nodes l = a ∧
      pathNodes P path.position.toNat l rest a = nodes (l + rest.length) ∧
      ∀ i (h : i < rest.length), nodes (l + i + 1) =
        if path.position.toNat / 2 ^ (l + i) % 2 = 0 then
          Spec.merkleCRH P (l + i) (nodes (l + i)) rest[i]
        else Spec.merkleCRH P (l + i) rest[i] (nodes (l + i)) := by
    intro rest
    induction rest with
    | nil => intro l a; exact ⟨fun _ => a, rfl, rfl, by simp⟩
    | cons s rest ih =>
      intro l a
      obtain ⟨nodes, h1, h2, h3⟩ := ih (l + 1) (Spec.merkleCRH P l
        (merklePair (path.position.toNat.testBit l) a s).1
        (merklePair (path.position.toNat.testBit l) a s).2)
      refine ⟨fun i => if i = l then a else nodes i, by simp, ?_, ?_⟩
      · rw [pathNodes]
        simp only
        rw [h2, List.length_cons, if_neg (by omega)]
        congr 1; omega
      · intro i hi
        cases i with
        | zero =>
          simp only [Nat.add_zero, List.getElem_cons_zero, if_true]
          rw [if_neg (by omega), h1, Nat.testBit_eq_decide_div_mod_eq]
          by_cases hb : path.position.toNat / 2 ^ l % 2 = 0
          · rw [if_pos hb]; simp [hb, merklePair]
          · have : path.position.toNat / 2 ^ l % 2 = 1 := by omega
            rw [if_neg hb]; simp [this, merklePair]
        | succ i =>
          have h4 := h3 i (by simpa using hi)
          rw [List.getElem_cons_succ]
          simp only [show l + (i + 1) + 1 ≠ l by omega, show l + (i + 1) ≠ l by omega, if_false]
          rw [show l + (i + 1) = l + 1 + i by ring]
          exact h4
  obtain ⟨nodes, h1, h2, h3⟩ := key path.authPath 0 cmx
  refine ⟨nodes, h1, ?_, ?_⟩
  · rw [root_eq, h2, hlen]
  · intro l hl
    have := h3 l (by omega)
    simpa using this

/-- Every tree and position has such a path, so `C45_path_authenticates` applies to all leaves. -/
example (P : Prims) (leaf : ℕ → Fp) (pos : UInt32) : ∃ path : MerklePath, path.position = pos ∧
    path.root P (leaf pos.toNat) = .ret (Spec.node P leaf 32 0) := by
  refine ⟨⟨pos, (List.range 32).map fun l => Spec.node P leaf l (Spec.sibling (pos.toNat / 2 ^ l)),
    by simp [Constants.MERKLE_DEPTH]⟩, rfl, ?_⟩
  apply C45_path_authenticates
  intro l h
  simp

/-- **C46** (node hash). Two different inputs of the level-separated node hash with equal result
(including results that come from `⊥`) give a non-trivial discrete-logarithm relation among
explicitly listed linear forms in the Merkle generators. -/
theorem C46_node_hash (P : Prims) (l l' : ℕ) (hl : l < 1024) (hl' : l' < 1024) (a b a' b' : Fp)
    (h : Spec.merkleCRH P l a b = Spec.merkleCRH P l' a' b') :
    (l = l' ∧ a = a' ∧ b = b') ∨ ∃ L ∈ merkleCandidates (l, a, b) (l', a', b'),
      L.2.2 = 0 ∧ L.IsRelation P Constants.qMerkleCrh 0 := by
  by_cases he : (l, a, b) = (l', a', b')
  · simp only [Prod.mk.injEq] at he; exact Or.inl he
  · exact Or.inr (merkle_relation (x := (l, a, b)) (x' := (l', a', b')) hl hl' he h)

/-- **C46.** If two paths with the same position lead from two leaves to the same root, then leaves
and paths are equal, or at some level the two paths hash different inputs to the same value, and
this collision gives an explicit discrete-logarithm relation. -/
theorem C46_root_binding (P : Prims) (path path' : MerklePath) (hpos : path.position = path'.position)
    (cmx cmx' root : Fp) (h : path.root P cmx = .ret root) (h' : path'.root P cmx' = .ret root) :
    (cmx = cmx' ∧ path.authPath = path'.authPath) ∨
    ∃ (i : ℕ) (x x' : ℕ × Fp × Fp),
      (pathInputs P path.position.toNat 0 path.authPath cmx)[i]? = some x ∧
      (pathInputs P path.position.toNat 0 path'.authPath cmx')[i]? = some x' ∧
      x.1 = x'.1 ∧ x ≠ x' ∧
      Spec.merkleCRH P x.1 x.2.1 x.2.2 = Spec.merkleCRH P x'.1 x'.2.1 x'.2.2 ∧
      ∃ L ∈ merkleCandidates x x', L.2.2 = 0 ∧ L.IsRelation P Constants.qMerkleCrh 0 := by
  rw [root_eq, Outcome.ret.injEq] at h h'
  rw [← hpos] at h'
  have hl : path.authPath.length = 32 := path.len
  have hl' : path'.authPath.length = 32 := path'.len
  rcases path_collision P path.position.toNat path.authPath path'.authPath 0 cmx cmx'
    (by rw [hl, hl']) (h.trans h'.symm) with he | ⟨i, x, x', hx, hx', h1, h2, h3⟩
  · exact Or.inl he
  · right
    refine ⟨i, x, x', hx, hx', h1, h2, h3, ?_⟩
    have b := pathInputs_level path.authPath 0 cmx x (List.mem_of_getElem? hx)
    have b' := pathInputs_level path'.authPath 0 cmx' x' (List.mem_of_getElem? hx')
    exact merkle_relation (by omega) (by omega) h2 h3

/-- The siblings of position `pos` in the full tree, from the leaves up. -/
noncomputable def Spec.siblings (P : Prims) (leaf : ℕ → Fp) (pos : ℕ) : List Fp :=
  (List.range 32).map fun l => Spec.node P leaf l (Spec.sibling (pos / 2 ^ l))

/-- **C46** (membership). A path that leads from `cmx` to the root of a full tree has the leaf at its
position equal to `cmx`, or yields an explicit discrete-logarithm relation, from hash inputs on the
given path and on the path in the tree. -/
theorem C46_membership (P : Prims) (leaf : ℕ → Fp) (path : MerklePath) (cmx : Fp)
    (h : path.root P cmx = .ret (Spec.node P leaf 32 0)) :
    cmx = leaf path.position.toNat ∨ ∃ x x',
      x ∈ pathInputs P path.position.toNat 0 path.authPath cmx ∧
      x' ∈ pathInputs P path.position.toNat 0 (Spec.siblings P leaf path.position.toNat)
        (leaf path.position.toNat) ∧
      ∃ L ∈ merkleCandidates x x', L.2.2 = 0 ∧ L.IsRelation P Constants.qMerkleCrh 0 := by
  have h' := C45_path_authenticates P leaf ⟨path.position, Spec.siblings P leaf path.position.toNat,
    by simp [Constants.MERKLE_DEPTH, Spec.siblings]⟩ (by intro l h; simp [Spec.siblings])
  rcases C46_root_binding P path ⟨path.position, Spec.siblings P leaf path.position.toNat,
    by simp [Constants.MERKLE_DEPTH, Spec.siblings]⟩ rfl cmx _ _ h h' with
    he | ⟨i, x, x', hx, hx', -, -, -, L, hL, hr⟩
  · exact Or.inl he.1
  · exact Or.inr ⟨x, x', List.mem_of_getElem? hx, List.mem_of_getElem? hx', L, hL, hr⟩

/-- Under `P0` (constant Sinsemilla table) different leaves lead to the same root, so the second
alternative of `C46_root_binding` occurs. -/
example : ∃ (path : MerklePath) (cmx cmx' root : Fp), cmx ≠ cmx' ∧
    path.root Examples.P0 cmx = .ret root ∧ path.root Examples.P0 cmx' = .ret root := by
  have hc : ∀ l a b a' b', Spec.merkleCRH Examples.P0 l a b = Spec.merkleCRH Examples.P0 l a' b' := by
    intro l a b a' b'
    unfold Spec.merkleCRH
    rw [Examples.hash_P0_const (msg' := leBits 10 l ++ leBits 255 a'.val ++ leBits 255 b'.val)
      (by simp)]
  have hp : ∀ pos l s rest a a', pathNodes Examples.P0 pos l (s :: rest) a =
      pathNodes Examples.P0 pos l (s :: rest) a' := by
    intro pos l s rest a a'
    rw [pathNodes, pathNodes, hc l _ _ (merklePair (pos.testBit l) a' s).1
      (merklePair (pos.testBit l) a' s).2]
  have hlen : ((0 : Fp) :: List.replicate 31 0).length = Constants.MERKLE_DEPTH := by
    simp [Constants.MERKLE_DEPTH]
  refine ⟨⟨0, 0 :: List.replicate 31 0, hlen⟩, 3, 4,
    pathNodes Examples.P0 (0 : UInt32).toNat 0 (0 :: List.replicate 31 0) 3, by decide +kernel,
    root_eq _ _ _, ?_⟩
  rw [root_eq, Outcome.ret.injEq]
  exact hp _ _ _ _ _ _

/-- **C47.** For levels `0..32`, `empty_root` does not panic and is the root of the tree of that
height all of whose leaves are `2`; beyond level 32 it panics. -/
theorem C47_empty_root (P : Prims) (level : UInt8) :
    (level.toNat ≤ 32 → emptyRoot P level = .ret (Spec.node P (fun _ => 2) level.toNat 0)) ∧
    (32 < level.toNat → emptyRoot P level = .panic) := by
  have h := emptyRoots_fold P 32 (by norm_num)
  have he : emptyRoots P = .ret ((List.range 33).map fun h => Spec.node P (fun _ => 2) h 0) := by
    unfold emptyRoots
    simp only [Constants.MERKLE_DEPTH]
    rw [h]; rfl
  unfold emptyRoot
  rw [he, Outcome.ret_bind]
  constructor
  · intro hl
    rw [List.getElem?_map, List.getElem?_range (by omega)]; rfl
  · intro hl
    rw [List.getElem?_eq_none (by simp; omega)]; rfl

/-- **C47.** The anchor of the empty tree. -/
theorem C47_empty_tree (P : Prims) : anchorEmptyTree P = .ret (Spec.node P (fun _ => 2) 32 0) := by
  unfold anchorEmptyTree
  rw [(C47_empty_root P _).1 (by decide)]
  rfl

/-- **C47.** The uncommitted leaf value is not the extracted commitment of any note, nor of any
point at all. -/
theorem C47_uncommitted (P : Prims) (n : Note) (cmx : Fp) (h : n.cmx P = .ret cmx) : cmx ≠ 2 := by
  unfold Note.cmx at h
  rw [Outcome.bind_eq_ret] at h
  obtain ⟨cm, -, h⟩ := h
  simp only [Outcome.pure_eq, Outcome.ret.injEq] at h
  rw [← h]
  exact extractP_ne_two cm

end Orchard
