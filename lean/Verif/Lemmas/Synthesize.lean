import Verif.Lemmas.CommitIvk
import Verif.Lemmas.NoteCommit
import Verif.Lemmas.Tree
import Verif.Model.Synthesize
import Verif.Spec.Circuit
import Verif.Props.Bundle
import Verif.Props.Circuit

/-! # Lemmas about the Action circuit -/

namespace Orchard

open Halo2

theorem cells_inj {A B : Point} (hx : extractP A = extractP B) (hy : cellY A = cellY B) : A = B := by
  have h := xy_inj (a := ⟨A⟩) (b := ⟨B⟩)
    (by cases A <;> cases B <;> exact hx) (by cases A <;> cases B <;> exact hy)
  exact congrArg ValueCommitment.inner h

theorem valueCommitment_x (c : ValueCommitment) : c.x = extractP c.inner := by
  obtain ⟨c⟩ := c; cases c <;> rfl

theorem valueCommitment_y (c : ValueCommitment) : c.y = cellY c.inner := by
  obtain ⟨c⟩ := c; cases c <;> rfl

/-- The public inputs, with the coordinates as cells. -/
theorem toHalo2_eq {i : Instance} {inst : List Fp} (h : i.toHalo2 = .ret inst) :
    inst = [i.anchor, extractP i.cvNet.inner, cellY i.cvNet.inner, i.nfOld, extractP i.rk.point,
      cellY i.rk.point, i.cmx, if i.enableSpend then 1 else 0, if i.enableOutput then 1 else 0] := by
  rcases Point.cases_xy i.rk.point with h0 | ⟨x, y, hxy, e⟩
  · rw [(C27_defined i).1.2 h0] at h; simp at h
  · rw [C27_layout i x y hxy e, Outcome.ret.injEq] at h
    rw [← h, valueCommitment_x, valueCommitment_y, e]
    rfl

theorem testBit_iff (pos l : ℕ) : pos.testBit l = true ↔ ¬ pos / 2 ^ l % 2 = 0 := by
  rw [Nat.testBit_eq_decide_div_mod_eq, decide_eq_true_eq]
  omega

/-! ### The Merkle path -/

/-- The message hashed for a pair of encodings. -/
def encBits (l : ℕ) (enc : ℕ × ℕ) : List Bool := leBits 10 l ++ leBits 255 enc.1 ++ leBits 255 enc.2

@[simp] theorem length_encBits (l : ℕ) (enc : ℕ × ℕ) : (encBits l enc).length = 520 := by
  simp [encBits]

theorem merkleRoot_nodes {P : Prims} {pos : ℕ} (path : List Fp) :
    ∀ {l : ℕ} {encs : List (ℕ × ℕ)} {node root : Fp},
    MerkleRoot P false pos l path encs node root →
    ∃ nodes : ℕ → Fp, nodes 0 = node ∧ nodes path.length = root ∧
      ∀ j < path.length, ∃ x y : ℕ, x < 2 ^ 255 ∧ y < 2 ^ 255 ∧
        (if pos / 2 ^ (l + j) % 2 = 0 then (x : Fp) = nodes j ∧ path[j]? = some (y : Fp)
          else path[j]? = some (x : Fp) ∧ (y : Fp) = nodes j) ∧
        (sinsemillaHashToPoint P Constants.qMerkleCrh
            (leBits 10 (l + j) ++ leBits 255 x ++ leBits 255 y) = none ∨
          ∃ h, sinsemillaHashToPoint P Constants.qMerkleCrh
            (leBits 10 (l + j) ++ leBits 255 x ++ leBits 255 y) = some h ∧
              nodes (j + 1) = extractP h) := by
  induction path with
  | nil =>
    intro l encs node root h
    cases encs with
    | nil => exact ⟨fun _ => node, rfl, (show root = node from h).symm, by simp⟩
    | cons e es => exact absurd h (by simp [MerkleRoot])
  | cons s path ih =>
    intro l encs node root h
    cases encs with
    | nil => exact absurd h (by simp [MerkleRoot])
    | cons enc encs =>
    obtain ⟨next, h1, h2⟩ := h
    obtain ⟨nodes, n0, n1, hn⟩ := ih h2
    refine ⟨fun j => match j with | 0 => node | j + 1 => nodes j, rfl, n1, ?_⟩
    intro j hj
    cases j with
    | zero =>
      rw [Nat.add_zero]
      have key : ∀ a b : Fp, MerkleLayer P false l enc a b next → enc.1 < 2 ^ 255 ∧ enc.2 < 2 ^ 255 ∧
          (enc.1 : Fp) = a ∧ (enc.2 : Fp) = b ∧
          (sinsemillaHashToPoint P Constants.qMerkleCrh
              (leBits 10 l ++ leBits 255 enc.1 ++ leBits 255 enc.2) = none ∨
            ∃ h, sinsemillaHashToPoint P Constants.qMerkleCrh
              (leBits 10 l ++ leBits 255 enc.1 ++ leBits 255 enc.2) = some h ∧
                nodes 0 = extractP h) := by
        rintro a b ⟨e1, e2, e3, e4, y, e5⟩
        refine ⟨e1, e2, e3, e4, ?_⟩
        rcases e5 with ⟨h, e5, e6⟩ | ⟨-, e5⟩
        · exact Or.inr ⟨h, e5, n0.trans (congrArg Prod.fst e6)⟩
        · exact Or.inl e5
      by_cases hb : pos.testBit l = true
      · rw [if_pos hb] at h1
        obtain ⟨e1, e2, e3, e4, e5⟩ := key _ _ h1
        refine ⟨enc.1, enc.2, e1, e2, ?_, e5⟩
        rw [if_neg ((testBit_iff pos l).1 hb)]
        exact ⟨by rw [e3]; rfl, e4⟩
      · rw [if_neg hb] at h1
        obtain ⟨e1, e2, e3, e4, e5⟩ := key _ _ h1
        refine ⟨enc.1, enc.2, e1, e2, ?_, e5⟩
        rw [if_pos (by by_contra hc; exact hb ((testBit_iff pos l).2 hc))]
        exact ⟨e3, by rw [e4]; rfl⟩
    | succ j =>
      obtain ⟨x, y, hx, hy, e1, e2⟩ := hn j (by simpa using hj)
      rw [show l + 1 + j = l + (j + 1) by ring] at e1 e2
      exact ⟨x, y, hx, hy, e1, e2⟩

/-- Candidate relations from the encodings hashed at one layer and the children in a tree. -/
def layerCandidates (l : ℕ) (enc : ℕ × ℕ) (a b : Fp) : List Lin :=
  botCandidates (chunks (encBits l enc)) ++ botCandidates (chunks (merkleBits l a b)) ++
    collisionCandidates (chunks (encBits l enc)) (chunks (merkleBits l a b)) 0 0

theorem layer_relation {P : Prims} {l : ℕ} {enc : ℕ × ℕ} {left right out a b : Fp}
    (h : MerkleLayer P false l enc left right out) (ho : out = Spec.merkleCRH P l a b) :
    (left = a ∧ right = b) ∨
      ∃ L ∈ layerCandidates l enc a b, L.2.2 = 0 ∧ L.IsRelation P Constants.qMerkleCrh 0 := by
  obtain ⟨e1, e2, rfl, rfl, y, hA⟩ := h
  unfold Spec.merkleCRH at ho
  change _ = (match sinsemillaHashToPoint P Constants.qMerkleCrh (merkleBits l a b) with
    | none => 0 | some h => extractP h) at ho
  change Returns _ (sinsemillaHashToPoint P Constants.qMerkleCrh (encBits l enc)) (out, y) at hA
  unfold layerCandidates
  rcases hA with ⟨A, hA, hout⟩ | ⟨-, hA⟩
  · obtain rfl : out = extractP A := congrArg Prod.fst hout
    cases h2 : sinsemillaHashToPoint P Constants.qMerkleCrh (merkleBits l a b) with
    | none =>
      obtain ⟨L, hL, hr⟩ := relation_of_bot (P := P) (Q := Constants.qMerkleCrh) 0 chunks_lt h2
      exact Or.inr ⟨L, by simp [hL], blind_of_mem_bot hL, hr⟩
    | some B =>
      rw [h2] at ho
      simp only at ho
      have hlen : (encBits l enc).length = (merkleBits l a b).length := by simp
      by_cases heq : encBits l enc = merkleBits l a b
      · left
        unfold encBits merkleBits at heq
        obtain ⟨heq, h3⟩ := List.append_inj' heq (by simp)
        obtain ⟨-, h4⟩ := List.append_inj' heq (by simp)
        rw [leBits_inj e1 (val_lt_255 _) h4, leBits_inj e2 (val_lt_255 _) h3]
        exact ⟨Fp.natCast_val a, Fp.natCast_val b⟩
      · right
        obtain ⟨L, hL, hr⟩ := relation_of_collision (R := 0) (r := 0) (r' := 0) chunks_lt chunks_lt
          (by rw [length_chunks, length_chunks, hlen])
          (by rw [length_chunks, length_encBits]; norm_num) hA h2
          (by simpa using extractP_eq_iff.1 ho) (Or.inl (fun hc => heq (chunks_inj hlen hc)))
        exact ⟨L, by simp [hL], blind_of_mem_collision hL, hr⟩
  · obtain ⟨L, hL, hr⟩ := relation_of_bot (P := P) (Q := Constants.qMerkleCrh) 0 chunks_lt hA
    exact Or.inr ⟨L, by simp [hL], blind_of_mem_bot hL, hr⟩

/-- A path that ends in a node of a tree starts in the node below it, or there is a relation. -/
theorem merkleRoot_member {P : Prims} (leaf : ℕ → Fp) {pos : ℕ} (path : List Fp) :
    ∀ {l : ℕ} {encs : List (ℕ × ℕ)} {node : Fp},
    MerkleRoot P false pos l path encs node
      (Spec.node P leaf (l + path.length) (pos / 2 ^ (l + path.length))) →
    node = Spec.node P leaf l (pos / 2 ^ l) ∨
      ∃ j enc, encs[j]? = some enc ∧ ∃ L ∈ layerCandidates (l + j) enc
        (Spec.node P leaf (l + j) (2 * (pos / 2 ^ (l + j + 1))))
        (Spec.node P leaf (l + j) (2 * (pos / 2 ^ (l + j + 1)) + 1)),
        L.2.2 = 0 ∧ L.IsRelation P Constants.qMerkleCrh 0 := by
  induction path with
  | nil =>
    intro l encs node h
    cases encs with
    | nil => exact Or.inl (show _ = node from h).symm
    | cons e es => exact absurd h (by simp [MerkleRoot])
  | cons s path ih =>
    intro l encs node h
    cases encs with
    | nil => exact absurd h (by simp [MerkleRoot])
    | cons enc encs =>
    obtain ⟨next, h1, h2⟩ := h
    rw [List.length_cons, show l + (path.length + 1) = l + 1 + path.length by ring] at h2
    rcases ih h2 with hn | ⟨j, enc', hj, L, hL, hr⟩
    · rw [Spec.node] at hn
      by_cases hb : pos.testBit l = true
      · rw [if_pos hb] at h1
        rcases layer_relation h1 hn with ⟨-, e⟩ | ⟨L, hL, hr⟩
        · left
          rw [e]
          have := (testBit_iff pos l).1 hb
          rw [div_two_pow_succ]
          congr 1; omega
        · exact Or.inr ⟨0, enc, rfl, L, hL, hr⟩
      · rw [if_neg hb] at h1
        rcases layer_relation h1 hn with ⟨e, -⟩ | ⟨L, hL, hr⟩
        · left
          rw [e]
          have : pos / 2 ^ l % 2 = 0 := by by_contra hc; exact hb ((testBit_iff pos l).2 hc)
          rw [div_two_pow_succ]
          congr 1; omega
        · exact Or.inr ⟨0, enc, rfl, L, hL, hr⟩
    · rw [show l + 1 + j = l + (j + 1) by ring] at hL
      exact Or.inr ⟨j + 1, enc', hj, L, hL, hr⟩

/-- The assigned root: either everything is defined, the assignment satisfies the constraints and the
root is that of the path, or some hash on the path is `⊥`. -/
theorem merkleRootOf_spec (P : Prims) (pos : ℕ) (path : List Fp) : ∀ (l : ℕ) (node : Fp),
    (∃ encs, merkleRootOf P pos l path node = some (encs, pathNodes P pos l path node) ∧
      MerkleRoot P true pos l path encs node (pathNodes P pos l path node)) ∨
    ∃ x ∈ pathInputs P pos l path node,
      sinsemillaHashToPoint P Constants.qMerkleCrh (merkleBits x.1 x.2.1 x.2.2) = none := by
  induction path with
  | nil => intro l node; exact Or.inl ⟨[], rfl, rfl⟩
  | cons s path ih =>
    intro l node
    have hl : (if pos.testBit l = true then s else node) = (merklePair (pos.testBit l) node s).1 := by
      unfold merklePair; split_ifs <;> rfl
    have hr : (if pos.testBit l = true then node else s) = (merklePair (pos.testBit l) node s).2 := by
      unfold merklePair; split_ifs <;> rfl
    simp only [merkleRootOf, pathNodes, pathInputs]
    rw [hl, hr]
    cases hh : sinsemillaHashToPoint P Constants.qMerkleCrh
        (merkleBits l (merklePair (pos.testBit l) node s).1 (merklePair (pos.testBit l) node s).2) with
    | none => exact Or.inr ⟨_, List.mem_cons_self, hh⟩
    | some h =>
      have hc : Spec.merkleCRH P l (merklePair (pos.testBit l) node s).1
          (merklePair (pos.testBit l) node s).2 = extractP h := by
        unfold Spec.merkleCRH; unfold merkleBits at hh; rw [hh]
      rw [hc]
      have hs : sinsemillaHash P Constants.qMerkleCrh
          (leBits 10 l ++ leBits 255 (merklePair (pos.testBit l) node s).1.val ++
            leBits 255 (merklePair (pos.testBit l) node s).2.val) = some (extractP h) := by
        unfold sinsemillaHash; unfold merkleBits at hh; rw [hh]; rfl
      rw [hs, Option.bind_some]
      rcases ih (l + 1) (extractP h) with ⟨encs, e1, e2⟩ | ⟨x, hx, e⟩
      · left
        refine ⟨((merklePair (pos.testBit l) node s).1.val,
          (merklePair (pos.testBit l) node s).2.val) :: encs, by rw [e1]; rfl, extractP h, ?_, e2⟩
        have hm : MerkleLayer P true l ((merklePair (pos.testBit l) node s).1.val,
            (merklePair (pos.testBit l) node s).2.val) (merklePair (pos.testBit l) node s).1
            (merklePair (pos.testBit l) node s).2 (extractP h) :=
          ⟨val_lt_255 _, val_lt_255 _, Fp.natCast_val _, Fp.natCast_val _, _, Or.inl ⟨h, hh, rfl⟩⟩
        split_ifs with hb
        · rw [hb] at hm ⊢; exact hm
        · rw [Bool.not_eq_true] at hb; rw [hb] at hm ⊢; exact hm
      · exact Or.inr ⟨x, List.mem_cons_of_mem _ hx, e⟩

/-! ### The whole circuit -/

theorem gate_value {x y z : Fp} (h : Gate (ActionCircuit.addGate x y z)) : z = x + y := by
  simp only [Gate, ActionCircuit.addGate, List.forall_mem_cons, List.not_mem_nil,
    IsEmpty.forall_iff, implies_true, and_true, sub_eq_zero] at h
  exact h.symm

/-- Short fixed-base multiplication by a signed 64-bit number. -/
theorem mulFixedShort_eq {B : Point} {m s : Fp} {out : Point} (h : MulFixedShort B m s out) :
    ∃ z : ℤ, (z = 1 ∨ z = -1) ∧ s = (z : Fp) ∧ m.val < 2 ^ 64 ∧
      out = ((z * (m.val : ℤ) : ℤ) : Fq) • B := by
  obtain ⟨hm, ⟨hs, ho⟩ | ⟨hs, ho⟩⟩ := h
  · refine ⟨1, Or.inl rfl, by rw [hs, Int.cast_one], hm, ?_⟩
    rw [ho, one_mul, Int.cast_natCast]
  · refine ⟨-1, Or.inr rfl, by rw [hs, Int.cast_neg, Int.cast_one], hm, ?_⟩
    rw [ho, neg_one_mul, Int.cast_neg, Int.cast_natCast, neg_smul]

theorem commitIvk_none {P : Prims} {ak nk : Fp} {rivk : Fq} (h : commitIvk P ak nk rivk = none) :
    ∃ L ∈ botCandidates (chunks (leBits 255 ak.val ++ leBits 255 nk.val)),
      L.IsRelation P Constants.qCommitIvk Constants.commitIvkR := by
  rw [CommitIvk.commitIvk_eq, Option.map_eq_none_iff] at h
  exact relation_of_bot _ chunks_lt h

theorem noteCommit_none {P : Prims} {gd pkd : Point} {v : ℕ} {rho psi : Fp} {rcm : Fq}
    (h : Spec.noteCommit P gd pkd v rho psi rcm = none) :
    ∃ L ∈ botCandidates (chunks (Spec.noteBits gd pkd v rho psi)),
      L.IsRelation P Constants.qNoteCommit Constants.noteCommitR := by
  rw [NoteCommit.noteCommit_eq, Option.map_eq_none_iff] at h
  exact relation_of_bot _ chunks_lt h

theorem sinsemillaCommitOf_ivk (P : Prims) (ak nk : Fp) (rivk : Fq) :
    (sinsemillaCommitOf P Constants.qCommitIvk Constants.commitIvkR (CommitIvk.assign ak nk).message
      rivk).map extractP = commitIvk P ak nk rivk := by
  unfold sinsemillaCommitOf
  rw [CommitIvk.words_eq (CommitIvk.constraints_assign ak nk), CommitIvk.commitIvk_eq, Option.map_map]
  rfl

theorem sinsemillaCommitOf_note (P : Prims) (gd pkd : Point) (v rho psi : Fp) (rcm : Fq)
    (hv : v.val < 2 ^ 64) :
    sinsemillaCommitOf P Constants.qNoteCommit Constants.noteCommitR
      (NoteCommit.assign gd pkd v rho psi).message rcm =
      Spec.noteCommit P gd pkd v.val rho psi rcm := by
  unfold sinsemillaCommitOf
  rw [(NoteCommit.words_eq (NoteCommit.constraints_assign gd pkd v rho psi hv)).2,
    NoteCommit.noteCommit_eq]

theorem valueCell_val (v : NoteValue) : (ActionCircuit.valueCell v).val = v.inner.toNat := by
  have hv : v.inner.toNat < 2 ^ 64 := v.inner.toNat_lt
  have hpe := p_eq_T_P
  unfold ActionCircuit.valueCell
  exact ZMod.val_natCast_of_lt (by omega)

theorem mulFixedShort_signed {B : Point} {m s : Fp} (hm : m.val < 2 ^ 64) (hs : s = 1 ∨ s = -1) :
    MulFixedShort B m s (if s = 1 then (m.val : Fq) • B else -((m.val : Fq) • B)) := by
  refine ⟨hm, ?_⟩
  by_cases h : s = 1
  · left; exact ⟨h, by rw [if_pos h]⟩
  · right; exact ⟨hs.resolve_left h, by rw [if_neg h]⟩

/-- The assigned values satisfy the constraints if the Action statement holds for the recorded
witness and everything is defined. -/
theorem assign_satisfies {P : Prims} {w : Circuit} {i : Instance} {inst : List Fp}
    (hi : i.toHalo2 = .ret inst) (hgdOld : w.gdOld ≠ 0) (hak : w.ak.point ≠ 0)
    (hlen : w.path.length = 32) {encs : List (ℕ × ℕ)} {root : Fp}
    (hm : merkleRootOf P w.pos.toNat 0 w.path (extractP w.cmOld) = some (encs, root))
    (hm' : MerkleRoot P true w.pos.toNat 0 w.path encs (extractP w.cmOld) root)
    (hcv : i.cvNet.inner = (((w.vOld.inner.toNat : ℤ) - w.vNew.inner.toNat : ℤ) : Fq) •
      Constants.valueCommitV + w.rcv.inner • Constants.valueCommitR)
    (hnf : i.nfOld = Spec.deriveNullifier P w.nk w.rhoOld w.psiOld w.cmOld)
    (hrk : i.rk.point = w.alpha • Constants.spendAuthG + w.ak.point) {ivk : Fp}
    (hivk : commitIvk P (extractP w.ak.point) w.nk w.rivk = some ivk)
    (hpkd : w.pkdOld = ((ivk.val : ℕ) : Fq) • w.gdOld) (hpkd0 : w.pkdOld ≠ 0)
    (hcm : Spec.noteCommit P w.gdOld w.pkdOld w.vOld.inner.toNat w.rhoOld w.psiOld w.rcmOld =
      some w.cmOld) (hgdNew : w.gdNew ≠ 0) (hpkdNew : w.pkdNew ≠ 0) {cmNew : Point}
    (hcmNew : Spec.noteCommit P w.gdNew w.pkdNew w.vNew.inner.toNat i.nfOld w.psiNew w.rcmNew =
      some cmNew) (hcmx : i.cmx = extractP cmNew)
    (hgate : (w.vOld.inner = 0 ∨ root = i.anchor ∧ i.enableSpend = true) ∧
      (w.vNew.inner = 0 ∨ i.enableOutput = true)) :
    ∃ k, ActionCircuit.assign P w = some k ∧ ActionCircuit.Synthesize P true k inst := by
  have hin := toHalo2_eq hi
  obtain ⟨m, s, hms, hmlt, hsg, hg⟩ := C51_honest w.vOld w.vNew
  have hvo := valueCell_val w.vOld
  have hvn := valueCell_val w.vNew
  have hvo64 : (ActionCircuit.valueCell w.vOld).val < 2 ^ 64 := by rw [hvo]; exact w.vOld.inner.toNat_lt
  have hvn64 : (ActionCircuit.valueCell w.vNew).val < 2 ^ 64 := by rw [hvn]; exact w.vNew.inner.toNat_lt
  have enf : extractP (w.cmOld + (((P.poseidon w.nk w.rhoOld + w.psiOld).val : ℕ) : Fq) •
      Constants.nullifierK) = i.nfOld := hnf.symm
  have hG := (hg root i.anchor (if i.enableSpend then 1 else 0) (if i.enableOutput then 1 else 0)).2
    ⟨by
      rcases hgate.1 with h | ⟨h, h'⟩
      · exact Or.inl h
      · exact Or.inr ⟨h, by rw [if_pos h']⟩, by
      rcases hgate.2 with h | h
      · exact Or.inl h
      · exact Or.inr (by rw [if_pos h])⟩
  have hshort := mulFixedShort_signed (B := Constants.valueCommitV) hmlt hsg
  obtain ⟨z, hz, hsign, -, ecommit⟩ := mulFixedShort_eq hshort
  have hint := C51_integers _ _ _ _ _ _ _ _ hG hvo64 hvn64 hmlt z hz hsign
  rw [hvo, hvn] at hint
  rw [hint, ← ecommit] at hcv
  refine ⟨{ psiOld := w.psiOld, rhoOld := w.rhoOld, cmOld := w.cmOld, gdOld := w.gdOld,
            akP := w.ak.point, nk := w.nk, vOld := ActionCircuit.valueCell w.vOld,
            vNew := ActionCircuit.valueCell w.vNew, pos := w.pos.toNat, path := w.path,
            merkle := encs, root := root, magnitude := m, sign := s, rcv := w.rcv.inner,
            cvNet := (if s = 1 then (m.val : Fq) • Constants.valueCommitV
              else -((m.val : Fq) • Constants.valueCommitV)) + w.rcv.inner • Constants.valueCommitR,
            nfOld := i.nfOld, alpha := w.alpha,
            rk := w.alpha • Constants.spendAuthG + w.ak.point, rivk := w.rivk, ivk := ivk,
            ivkCells := CommitIvk.assign (extractP w.ak.point) w.nk, pkdOld := w.pkdOld,
            rcmOld := w.rcmOld,
            oldCells := NoteCommit.assign w.gdOld w.pkdOld (ActionCircuit.valueCell w.vOld) w.rhoOld
              w.psiOld,
            gdNew := w.gdNew, pkdNew := w.pkdNew, psiNew := w.psiNew, rcmNew := w.rcmNew,
            newCells := NoteCommit.assign w.gdNew w.pkdNew (ActionCircuit.valueCell w.vNew) i.nfOld
              w.psiNew,
            cmNew := cells cmNew }, ?_, ?_⟩
  · unfold ActionCircuit.assign
    simp only [hm, hms, sinsemillaCommitOf_ivk, hivk, enf, sinsemillaCommitOf_note _ _ _ _ _ _ _ hvn64,
      hvn, hcmNew, Option.bind_eq_bind, Option.bind_some, Option.pure_def]
  · refine ⟨hgdOld, hak, hlen, w.pos.toNat_lt, hm', ⟨_, _, hshort, rfl, rfl⟩, ?_, ?_,
      ⟨_, _, _, _, rfl, ?_, rfl, rfl, enf.symm⟩, ?_, ⟨_, rfl, rfl⟩, ?_, ?_,
      C52_complete _ _ _ _ _ hivk, ⟨_, rfl, hpkd0, hpkd.symm⟩,
      ⟨_, C53_complete _ _ _ _ _ _ _ _ hvo64 (by rw [hvo]; exact hcm), rfl⟩, hgdNew, hpkdNew,
      C53_complete _ _ _ _ _ _ _ _ hvn64 (by rw [hvn]; exact hcmNew), ?_, i.anchor,
      (if i.enableSpend then 1 else 0), (if i.enableOutput then 1 else 0), ?_, ?_, ?_, hG⟩
    · change inst[1]? = some (extractP (_ + _)); rw [hin, ← hcv]; rfl
    · change inst[2]? = some (cellY (_ + _)); rw [hin, ← hcv]; rfl
    · simp [Gate, ActionCircuit.addGate]
    · change inst[3]? = some i.nfOld; rw [hin]; rfl
    · change inst[4]? = some (extractP (_ + _)); rw [hin, ← hrk]; rfl
    · change inst[5]? = some (cellY (_ + _)); rw [hin, ← hrk]; rfl
    · change inst[6]? = some (extractP cmNew); rw [hin, ← hcmx]; rfl
    · change inst[0]? = some i.anchor; rw [hin]; rfl
    · change inst[7]? = some _; rw [hin]; rfl
    · change inst[8]? = some _; rw [hin]; rfl

/-! ### What witness generation accepts, satisfies the constraints -/

theorem returns_mono {h : Option Point} {out : Fp × Fp} (hr : Returns true h out) :
    Returns false h out := by
  rcases hr with hr | ⟨hr, -⟩
  · exact Or.inl hr
  · simp at hr

theorem returns_true {h : Option Point} {out : Fp × Fp} (hr : Returns true h out) :
    ∃ A, h = some A ∧ out = cells A := by
  rcases hr with hr | ⟨hr, -⟩
  · exact hr
  · simp at hr

theorem merkleRoot_mono {P : Prims} {pos : ℕ} (path : List Fp) :
    ∀ {l : ℕ} {encs : List (ℕ × ℕ)} {node root : Fp}, MerkleRoot P true pos l path encs node root →
      MerkleRoot P false pos l path encs node root := by
  induction path with
  | nil =>
    intro l encs node root h
    cases encs with
    | nil => exact h
    | cons e es => exact absurd h (by simp [MerkleRoot])
  | cons s path ih =>
    intro l encs node root h
    cases encs with
    | nil => exact absurd h (by simp [MerkleRoot])
    | cons enc encs =>
      obtain ⟨next, h1, h2⟩ := h
      refine ⟨next, ?_, ih h2⟩
      split_ifs at h1 ⊢
      all_goals
        obtain ⟨e1, e2, e3, e4, y, e5⟩ := h1
        exact ⟨e1, e2, e3, e4, y, returns_mono e5⟩

theorem synthesize_mono {P : Prims} {k : ActionCircuit.Cells} {inst : List Fp}
    (h : ActionCircuit.Synthesize P true k inst) : ActionCircuit.Synthesize P false k inst := by
  obtain ⟨h1, h2, h3, h4, h5, h6, h7, h8, h9, h10, h11, h12, h13, h14, h15, ⟨d, h16, h16'⟩, h17, h18,
    h19, h20, h21⟩ := h
  refine ⟨h1, h2, h3, h4, merkleRoot_mono _ h5, h6, h7, h8, h9, h10, h11, h12, h13, ?_, h15,
    ⟨d, ?_, h16'⟩, h17, h18, ?_, h20, h21⟩
  · obtain ⟨hc, y, hr⟩ := (CommitIvk.gadget_iff _ _ _ _ _ _ _).1 h14
    exact (CommitIvk.gadget_iff _ _ _ _ _ _ _).2 ⟨hc, y, returns_mono hr⟩
  · obtain ⟨hc, hr⟩ := (NoteCommit.gadget_iff _ _ _ _ _ _ _ _ _ _).1 h16
    exact (NoteCommit.gadget_iff _ _ _ _ _ _ _ _ _ _).2 ⟨hc, returns_mono hr⟩
  · obtain ⟨hc, hr⟩ := (NoteCommit.gadget_iff _ _ _ _ _ _ _ _ _ _).1 h19
    exact (NoteCommit.gadget_iff _ _ _ _ _ _ _ _ _ _).2 ⟨hc, returns_mono hr⟩

end Orchard
