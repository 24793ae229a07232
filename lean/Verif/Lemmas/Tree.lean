import Verif.Lemmas.Sinsemilla
import Verif.Model.Tree
import Verif.Spec.Tree

/-! # Lemmas about the note commitment tree -/

namespace Orchard

theorem val_lt_255 (x : Fp) : x.val < 2 ^ 255 := (ZMod.val_lt x).trans p_lt_two_pow_255

theorem i2lebspK_eq {n : ℕ} (h : n < 1024) : i2lebspK (UInt64.ofNat n) = .ret (leBits 10 n) := by
  unfold i2lebspK
  have e : (UInt64.ofNat n).toNat = n := by
    rw [UInt64.toNat_ofNat']; omega
  rw [e]
  have : decide (n < 2 ^ Constants.K) = true := by
    rw [decide_eq_true_eq]; unfold Constants.K; omega
  rw [this]
  simp only [assertO_true, Outcome.ret_bind]
  rw [i2lebsp_eq (by unfold Constants.K; norm_num), e]
  rfl

theorem merkleCombine_eq (P : Prims) (level : UInt8) (a b : Fp) :
    merkleCombine P level a b = .ret (Spec.merkleCRH P level.toNat a b) := by
  unfold merkleCombine
  rw [i2lebspK_eq (by have := level.toNat_lt; omega), Outcome.ret_bind]
  unfold Spec.merkleCRH sinsemillaHash Fp.toLeBits
  cases sinsemillaHashToPoint P Constants.qMerkleCrh
    (leBits 10 level.toNat ++ leBits 255 a.val ++ leBits 255 b.val) <;> rfl

/-- Left and right input of the node hash, according to the position bit. -/
def merklePair (bit : Bool) (node sibling : Fp) : Fp × Fp :=
  if bit then (sibling, node) else (node, sibling)

theorem merklePair_inj {bit : Bool} {a b a' b' : Fp} (h : merklePair bit a b = merklePair bit a' b') :
    a = a' ∧ b = b' := by
  cases bit <;> simp [merklePair] at h <;> simp [h]

/-- The nodes on the path, level by level, starting with level `l`. -/
noncomputable def pathNodes (P : Prims) (pos : ℕ) : ℕ → List Fp → Fp → Fp
  | _, [], node => node
  | l, s :: rest, node =>
    let lr := merklePair (pos.testBit l) node s
    pathNodes P pos (l + 1) rest (Spec.merkleCRH P l lr.1 lr.2)

theorem and_shl32_eq_zero (pos : UInt32) {l : ℕ} (h : l < 32) :
    (pos &&& ((1 : UInt32) <<< UInt32.ofNat l) = 0) ↔ pos.toNat.testBit l = false := by
  rw [← UInt32.toNat_inj, UInt32.toNat_and, toNat_one_shl_32 h]
  rw [Nat.and_two_pow]
  cases pos.toNat.testBit l <;> simp

theorem foldlM_root (P : Prims) (pos : UInt32) (path : List Fp) : ∀ (l : ℕ) (node : Fp),
    l + path.length ≤ 32 →
    (path.zipIdx l).foldlM (init := node) (fun (node : Fp) (sl : Fp × ℕ) =>
      if pos &&& ((1 : UInt32) <<< UInt32.ofNat sl.2) = 0 then
        merkleCombine P (UInt8.ofNat sl.2) node sl.1
      else merkleCombine P (UInt8.ofNat sl.2) sl.1 node) = .ret (pathNodes P pos.toNat l path node) := by
  induction path with
  | nil => intro l node _; rfl
  | cons s rest ih =>
    intro l node hl
    rw [List.length_cons] at hl
    have hl8 : (UInt8.ofNat l).toNat = l := by rw [UInt8.toNat_ofNat']; omega
    rw [List.zipIdx_cons, List.foldlM_cons, pathNodes]
    simp only
    rw [if_congr (and_shl32_eq_zero pos (show l < 32 by omega)) rfl rfl, merkleCombine_eq,
      merkleCombine_eq, hl8]
    cases pos.toNat.testBit l
    · exact ih (l + 1) _ (by omega)
    · exact ih (l + 1) _ (by omega)

theorem root_eq (P : Prims) (path : MerklePath) (cmx : Fp) :
    path.root P cmx = .ret (pathNodes P path.position.toNat 0 path.authPath cmx) := by
  unfold MerklePath.root
  exact foldlM_root P path.position path.authPath 0 cmx (by rw [path.len]; decide)

theorem div_two_pow_succ (pos l : ℕ) : pos / 2 ^ (l + 1) = pos / 2 ^ l / 2 := by
  rw [pow_succ, Nat.div_div_eq_div_mul]

/-- Going up from the node at height `l` with the right siblings. -/
theorem pathNodes_tree (P : Prims) (leaf : ℕ → Fp) (pos : ℕ) (path : List Fp) : ∀ l : ℕ,
    (∀ i (h : i < path.length), path[i] = Spec.node P leaf (l + i) (Spec.sibling (pos / 2 ^ (l + i)))) →
    pathNodes P pos l path (Spec.node P leaf l (pos / 2 ^ l)) =
      Spec.node P leaf (l + path.length) (pos / 2 ^ (l + path.length)) := by
  induction path with
  | nil => intro l _; rfl
  | cons s rest ih =>
    intro l hs
    have h0 := hs 0 (by simp)
    simp only [List.getElem_cons_zero, Nat.add_zero] at h0
    rw [pathNodes]
    have key : Spec.merkleCRH P l
        (merklePair (pos.testBit l) (Spec.node P leaf l (pos / 2 ^ l)) s).1
        (merklePair (pos.testBit l) (Spec.node P leaf l (pos / 2 ^ l)) s).2 =
        Spec.node P leaf (l + 1) (pos / 2 ^ (l + 1)) := by
      rw [Spec.node, h0, div_two_pow_succ]
      have hb : pos.testBit l = decide ((pos / 2 ^ l) % 2 = 1) := by
        rw [Nat.testBit_eq_decide_div_mod_eq]
      rw [hb]
      generalize pos / 2 ^ l = i
      unfold Spec.sibling merklePair
      by_cases hi : i % 2 = 1
      · have h1 : 2 * (i / 2) = i - 1 := by omega
        have h3 : ¬ i % 2 = 0 := by omega
        rw [if_neg h3, if_pos (by simpa using hi), h1]
        rw [show i - 1 + 1 = i by omega]
      · have h1 : 2 * (i / 2) = i := by omega
        have h3 : i % 2 = 0 := by omega
        rw [if_pos h3, if_neg (by simpa using h3), h1]
    simp only [key]
    have := ih (l + 1) ?_
    · rw [this, List.length_cons]
      congr 1
      · ring_nf
      · congr 2; ring
    · intro i hi
      have := hs (i + 1) (by simpa using hi)
      rw [List.getElem_cons_succ] at this
      rw [this]
      congr 1
      · ring_nf
      · congr 3; ring

/-- The list of hash inputs on the path, level by level. -/
noncomputable def pathInputs (P : Prims) (pos : ℕ) : ℕ → List Fp → Fp → List (ℕ × Fp × Fp)
  | _, [], _ => []
  | l, s :: rest, node =>
    let lr := merklePair (pos.testBit l) node s
    (l, lr) :: pathInputs P pos (l + 1) rest (Spec.merkleCRH P l lr.1 lr.2)

/-- Equal roots: equal leaves and paths, or two different inputs at the same level of the two paths
with the same hash. -/
theorem path_collision (P : Prims) (pos : ℕ) (path : List Fp) :
    ∀ (path' : List Fp) (l : ℕ) (a a' : Fp), path.length = path'.length →
    pathNodes P pos l path a = pathNodes P pos l path' a' →
    (a = a' ∧ path = path') ∨ ∃ (i : ℕ) (x x' : ℕ × Fp × Fp), (pathInputs P pos l path a)[i]? = some x ∧
      (pathInputs P pos l path' a')[i]? = some x' ∧ x.1 = x'.1 ∧ x ≠ x' ∧
      Spec.merkleCRH P x.1 x.2.1 x.2.2 = Spec.merkleCRH P x'.1 x'.2.1 x'.2.2 := by
  induction path with
  | nil =>
    intro path' l a a' hl h
    have : path' = [] := List.length_eq_zero_iff.1 hl.symm
    subst this
    exact Or.inl ⟨h, rfl⟩
  | cons s rest ih =>
    intro path' l a a' hl h
    cases path' with
    | nil => simp at hl
    | cons s' rest' =>
      rw [pathNodes, pathNodes] at h
      rcases ih rest' (l + 1) _ _ (by simpa using hl) h with ⟨hc, hr⟩ | ⟨i, x, x', hx, hx', hxx⟩
      · by_cases hp : merklePair (pos.testBit l) a s = merklePair (pos.testBit l) a' s'
        · obtain ⟨h1, h2⟩ := merklePair_inj hp
          exact Or.inl ⟨h1, by rw [h2, hr]⟩
        · right
          refine ⟨0, (l, merklePair (pos.testBit l) a s), (l, merklePair (pos.testBit l) a' s'),
            by simp [pathInputs], by simp [pathInputs], rfl, ?_, hc⟩
          intro he
          exact hp (congrArg Prod.snd he)
      · right
        refine ⟨i + 1, x, x', ?_, ?_, hxx⟩
        · rw [pathInputs, List.getElem?_cons_succ]; exact hx
        · rw [pathInputs, List.getElem?_cons_succ]; exact hx'

/-- The message hashed at level `l`. -/
def merkleBits (l : ℕ) (a b : Fp) : List Bool := leBits 10 l ++ leBits 255 a.val ++ leBits 255 b.val

@[simp] theorem length_merkleBits (l : ℕ) (a b : Fp) : (merkleBits l a b).length = 520 := by
  simp [merkleBits]

theorem merkleBits_inj {l l' : ℕ} {a b a' b' : Fp} (hl : l < 1024) (hl' : l' < 1024)
    (h : merkleBits l a b = merkleBits l' a' b') : l = l' ∧ a = a' ∧ b = b' := by
  unfold merkleBits at h
  obtain ⟨h, h3⟩ := List.append_inj' h (by simp)
  obtain ⟨h1, h2⟩ := List.append_inj' h (by simp)
  exact ⟨leBits_inj hl hl' h1, ZMod.val_injective p (leBits_inj (val_lt_255 _) (val_lt_255 _) h2),
    ZMod.val_injective p (leBits_inj (val_lt_255 _) (val_lt_255 _) h3)⟩

/-- Candidate relations from two inputs of the node hash. -/
def merkleCandidates (x x' : ℕ × Fp × Fp) : List Lin :=
  botCandidates (chunks (merkleBits x.1 x.2.1 x.2.2)) ++
    botCandidates (chunks (merkleBits x'.1 x'.2.1 x'.2.2)) ++
    collisionCandidates (chunks (merkleBits x.1 x.2.1 x.2.2)) (chunks (merkleBits x'.1 x'.2.1 x'.2.2)) 0 0

theorem blind_of_mem_bot {ms : List ℕ} {L : Lin} (h : L ∈ botCandidates ms) : L.2.2 = 0 := by
  simp only [botCandidates, List.mem_flatMap, List.mem_range, List.mem_cons, List.not_mem_nil,
    or_false] at h
  obtain ⟨i, -, h⟩ := h
  rcases h with rfl | rfl | rfl | rfl | rfl <;> simp [accLin, wordLin]

theorem blind_of_mem_collision {ms ms' : List ℕ} {L : Lin} (h : L ∈ collisionCandidates ms ms' 0 0) :
    L.2.2 = 0 := by
  simp only [collisionCandidates, List.mem_cons, List.not_mem_nil, or_false] at h
  rcases h with rfl | rfl <;> simp [accLin, blindLin]

theorem merkle_relation {P : Prims} {x x' : ℕ × Fp × Fp} (hl : x.1 < 1024) (hl' : x'.1 < 1024)
    (hne : x ≠ x')
    (h : Spec.merkleCRH P x.1 x.2.1 x.2.2 = Spec.merkleCRH P x'.1 x'.2.1 x'.2.2) :
    ∃ L ∈ merkleCandidates x x', L.2.2 = 0 ∧ L.IsRelation P Constants.qMerkleCrh 0 := by
  obtain ⟨l, a, b⟩ := x
  obtain ⟨l', a', b'⟩ := x'
  simp only at h hl hl'
  unfold Spec.merkleCRH at h
  change (match sinsemillaHashToPoint P Constants.qMerkleCrh (merkleBits l a b) with
    | none => 0 | some h => extractP h) = (match sinsemillaHashToPoint P Constants.qMerkleCrh
      (merkleBits l' a' b') with | none => 0 | some h => extractP h) at h
  unfold merkleCandidates
  simp only
  cases h1 : sinsemillaHashToPoint P Constants.qMerkleCrh (merkleBits l a b) with
  | none =>
    obtain ⟨L, hL, hr⟩ := relation_of_bot (P := P) (Q := Constants.qMerkleCrh) 0 chunks_lt h1
    exact ⟨L, by simp [hL], blind_of_mem_bot hL, hr⟩
  | some A =>
    cases h2 : sinsemillaHashToPoint P Constants.qMerkleCrh (merkleBits l' a' b') with
    | none =>
      obtain ⟨L, hL, hr⟩ := relation_of_bot (P := P) (Q := Constants.qMerkleCrh) 0 chunks_lt h2
      exact ⟨L, by simp [hL], blind_of_mem_bot hL, hr⟩
    | some B =>
      rw [h1, h2] at h
      simp only at h
      have hlen : (merkleBits l a b).length = (merkleBits l' a' b').length := by simp
      obtain ⟨L, hL, hr⟩ := relation_of_collision (R := 0) (r := 0) (r' := 0) chunks_lt chunks_lt
        (by rw [length_chunks, length_chunks, hlen])
        (by rw [length_chunks, length_merkleBits]; norm_num) h1 h2
        (by simpa using extractP_eq_iff.1 h)
        (Or.inl (fun hc => hne (by
          obtain ⟨e1, e2, e3⟩ := merkleBits_inj hl hl' (chunks_inj hlen hc)
          rw [e1, e2, e3])))
      exact ⟨L, by simp [hL], blind_of_mem_collision hL, hr⟩

theorem pathInputs_level {P : Prims} {pos : ℕ} (path : List Fp) : ∀ (l : ℕ) (a : Fp),
    ∀ x ∈ pathInputs P pos l path a, x.1 < l + path.length := by
  induction path with
  | nil => intro l a x hx; simp [pathInputs] at hx
  | cons s rest ih =>
    intro l a x hx
    rw [pathInputs, List.mem_cons] at hx
    rcases hx with rfl | hx
    · simp
    · have := ih _ _ x hx
      rw [List.length_cons]; omega

/-! ### Empty roots -/

theorem emptyRoots_fold (P : Prims) (n : ℕ) (hn : n ≤ 256) :
    (List.range n).foldlM (init := ([emptyLeaf], emptyLeaf))
      (fun (acc : List Fp × Fp) l => do
        let s ← merkleCombine P (UInt8.ofNat l) acc.2 acc.2
        pure (acc.1 ++ [s], s)) =
      .ret ((List.range (n + 1)).map fun h => Spec.node P (fun _ => 2) h 0,
        Spec.node P (fun _ => 2) n 0) := by
  induction n with
  | zero => rfl
  | succ n ih =>
    rw [List.range_succ, List.foldlM_append, ih (by omega), Outcome.ret_bind]
    have hn8 : (UInt8.ofNat n).toNat = n := by rw [UInt8.toNat_ofNat']; omega
    simp only [List.foldlM_cons, List.foldlM_nil, merkleCombine_eq, Outcome.ret_bind,
      Outcome.pure_eq, hn8]
    have hnode : ∀ h i, Spec.node P (fun _ => 2) h i = Spec.node P (fun _ => 2) h 0 := by
      intro h
      induction h with
      | zero => intro i; rfl
      | succ h ihh => intro i; rw [Spec.node, Spec.node, ihh, ihh (2 * i + 1), ihh (2 * 0 + 1)]
    have e : Spec.node P (fun _ => 2) (n + 1) 0 =
        Spec.merkleCRH P n (Spec.node P (fun _ => 2) n 0) (Spec.node P (fun _ => 2) n 0) := by
      rw [Spec.node, hnode n (2 * 0 + 1)]
    rw [← e, List.range_succ (n := n + 1), List.map_append]
    rfl

end Orchard
