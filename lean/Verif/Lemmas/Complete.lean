import Verif.Lemmas.Synthesize
import Verif.Spec.Complete

/-!
# Helper lemmas for C89
-/

namespace Orchard

open Halo2

theorem merkleRootOf_of_nodes {P : Prims} {pos : ℕ} {nodes : ℕ → Fp} : ∀ (path : List Fp) (l : ℕ),
    (∀ j s, path[j]? = some s → ∃ left right h,
      (if pos.testBit (l + j) then left = s ∧ right = nodes (l + j) else left = nodes (l + j) ∧ right = s) ∧
      sinsemillaHashToPoint P Constants.qMerkleCrh
        (leBits 10 (l + j) ++ leBits 255 left.val ++ leBits 255 right.val) = some h ∧
      nodes (l + j + 1) = extractP h) →
    ∃ encs, merkleRootOf P pos l path (nodes l) = some (encs, nodes (l + path.length)) ∧
      MerkleRoot P true pos l path encs (nodes l) (nodes (l + path.length))
  | [], l, _ => ⟨[], rfl, rfl⟩
  | s :: path, l, h => by
    obtain ⟨left, right, A, h1, h2, h3⟩ := h 0 s rfl
    rw [Nat.add_zero] at h1 h2 h3
    obtain ⟨encs, e1, e2⟩ := merkleRootOf_of_nodes path (l + 1) fun j s' hj => by
      have := h (j + 1) s' hj
      rw [show l + (j + 1) = l + 1 + j by omega] at this
      exact this
    rw [show l + 1 + path.length = l + (s :: path).length by rw [List.length_cons]; omega] at e1 e2
    have hl : (if pos.testBit l = true then s else nodes l) = left := by
      split_ifs at h1 ⊢ <;> exact h1.1.symm
    have hr : (if pos.testBit l = true then nodes l else s) = right := by
      split_ifs at h1 ⊢ <;> exact h1.2.symm
    have hs : sinsemillaHash P Constants.qMerkleCrh
        (leBits 10 l ++ leBits 255 left.val ++ leBits 255 right.val) = some (nodes (l + 1)) := by
      unfold sinsemillaHash
      rw [h2, h3]
      rfl
    have hm : MerkleLayer P true l (left.val, right.val) left right (nodes (l + 1)) :=
      h3 ▸ ⟨val_lt_255 _, val_lt_255 _, Fp.natCast_val _, Fp.natCast_val _, _, Or.inl ⟨A, h2, rfl⟩⟩
    refine ⟨(left.val, right.val) :: encs, ?_, nodes (l + 1), ?_, e2⟩
    · simp only [merkleRootOf]
      rw [hl, hr, hs, Option.bind_some, e1]
      rfl
    · split_ifs at h1 ⊢
      · rw [← h1.1, ← h1.2]; exact hm
      · rw [← h1.1, ← h1.2]; exact hm

/-- The circuit's private inputs of a witness of the statement. -/
def Spec.ActionWitness.circuit (w : Spec.ActionWitness) : Circuit where
  path := w.path
  pos := UInt32.ofNat w.pos
  gdOld := w.gdOld
  pkdOld := w.pkdOld
  vOld := ⟨UInt64.ofNat w.vOld⟩
  rhoOld := w.rhoOld
  psiOld := w.psiOld
  rcmOld := w.rcmOld
  cmOld := w.cmOld
  alpha := w.alpha
  ak := ⟨w.ak⟩
  nk := w.nk
  rivk := w.rivk
  gdNew := w.gdNew
  pkdNew := w.pkdNew
  vNew := ⟨UInt64.ofNat w.vNew⟩
  psiNew := w.psiNew
  rcmNew := w.rcmNew
  rcv := ⟨w.rcv⟩

theorem ofNat64_eq_zero {v : ℕ} (h : v = 0) : UInt64.ofNat v = 0 := by rw [h]; rfl

/-- Synthesis succeeds for a witness of the statement for which everything is defined. -/
theorem synthesize_of_defined {P : Prims} {i : Instance} {aw : Spec.ActionWitness} {inst : List Fp}
    (hi : i.toHalo2 = .ret inst) (h : Spec.DefinedStatement P i aw) :
    ∃ k, ActionCircuit.assign P aw.circuit = some k ∧ ActionCircuit.Synthesize P true k inst := by
  obtain ⟨nodes, ⟨hlen, hpos, h0, hn⟩, hanchor⟩ := h.merkle
  obtain ⟨ivk, hivk, hpkd⟩ := h.pkd
  obtain ⟨cm, hcm, hcmx⟩ := h.cmx
  have epos : (UInt32.ofNat aw.pos).toNat = aw.pos := UInt32.toNat_ofNat_of_lt' hpos
  have evo : (UInt64.ofNat aw.vOld).toNat = aw.vOld := UInt64.toNat_ofNat_of_lt' h.vOld
  have evn : (UInt64.ofNat aw.vNew).toNat = aw.vNew := UInt64.toNat_ofNat_of_lt' h.vNew
  obtain ⟨encs, e1, e2⟩ := merkleRootOf_of_nodes (P := P) (pos := aw.pos) (nodes := nodes) aw.path 0
    fun j s hj => by
      have hj32 : j < 32 := by
        have := (List.getElem?_eq_some_iff.1 hj).1
        omega
      obtain ⟨left, right, A, k1, k2, k3⟩ := hn j hj32
      rw [Nat.zero_add]
      refine ⟨left, right, A, ?_, k2, k3⟩
      have hb : aw.pos.testBit j = true ↔ aw.pos / 2 ^ j % 2 ≠ 0 := testBit_iff aw.pos j
      by_cases hc : aw.pos / 2 ^ j % 2 = 0
      · rw [if_pos hc, hj, Option.some.injEq] at k1
        rw [if_neg (by rw [hb]; exact fun g => g hc)]
        exact ⟨k1.1, k1.2.symm⟩
      · rw [if_neg hc, hj, Option.some.injEq] at k1
        rw [if_pos (hb.2 hc)]
        exact ⟨k1.1.symm, k1.2⟩
  rw [Nat.zero_add, hlen, h0] at e1 e2
  refine assign_satisfies (w := aw.circuit) (root := nodes 32) (encs := encs) hi h.gdOld h.ak hlen ?_ ?_ ?_ h.nfOld
    h.rk hivk hpkd h.pkdOld ?_ h.gdNew h.pkdNew (cmNew := cm) ?_ hcmx ⟨?_, ?_⟩
  · show merkleRootOf P (UInt32.ofNat aw.pos).toNat 0 aw.path (extractP aw.cmOld) = _
    rw [epos]; exact e1
  · show MerkleRoot P true (UInt32.ofNat aw.pos).toNat 0 aw.path encs (extractP aw.cmOld) _
    rw [epos]; exact e2
  · show i.cvNet.inner = ((((UInt64.ofNat aw.vOld).toNat : ℤ) - (UInt64.ofNat aw.vNew).toNat : ℤ) : Fq) •
      Constants.valueCommitV + aw.rcv • Constants.valueCommitR
    rw [evo, evn]; exact h.cvNet
  · show Spec.noteCommit P aw.gdOld aw.pkdOld (UInt64.ofNat aw.vOld).toNat aw.rhoOld aw.psiOld aw.rcmOld = _
    rw [evo]; exact h.cmOld
  · show Spec.noteCommit P aw.gdNew aw.pkdNew (UInt64.ofNat aw.vNew).toNat i.nfOld aw.psiNew aw.rcmNew = _
    rw [evn]; exact hcm
  · rcases h.enableSpend with hv | hv
    · exact Or.inl (ofNat64_eq_zero hv)
    · rcases hanchor with ha | ha
      · exact Or.inl (ofNat64_eq_zero ha)
      · exact Or.inr ⟨ha, hv⟩
  · rcases h.enableOutput with hv | hv
    · exact Or.inl (ofNat64_eq_zero hv)
    · exact Or.inr hv

end Orchard
