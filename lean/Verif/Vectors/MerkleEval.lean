import Verif.Crypto.EvalMerkle
import Verif.Spec.Tree

/-! # Evaluating trees -/

namespace Orchard.Vectors

open Compute

/-- `test_vectors/merkle_path.rs:1-5` `TestVector`; arrays of 32 bytes as numbers. -/
structure MerkleVector where
  leaves : List ℕ
  paths : List (List ℕ)
  root : ℕ

/-- The leaves of the vector; those beyond the sixteen do not matter. -/
def MerkleVector.leaf (v : MerkleVector) (i : ℕ) : Fp := (v.leaves.getD i 2 : ℕ)

/-- What the test of `tree.rs:298-334` asserts: the values of the vector are canonical, the root is that of the tree of
height 4 with these leaves, and the path of each leaf consists of the siblings of the nodes above it.  The tree itself is
`bridgetree::BridgeTree`, outside the crate; the tree of the specification stands in its place. -/
def MerkleVector.Agrees (v : MerkleVector) (P : Prims) : Prop :=
  v.leaves.length = 16 ∧ (∀ x ∈ v.leaves, x < p) ∧ v.root < p ∧
  Spec.node P v.leaf 4 0 = (v.root : Fp) ∧
  ∀ j < 16, ∀ l < 4, (v.paths.getD j []).getD l 0 < p ∧
    Spec.node P v.leaf l (Spec.sibling (j / 2 ^ l)) = ((v.paths.getD j []).getD l 0 : ℕ)

/-- Are the rows `(level, left, right, hash)` hashes? -/
noncomputable def hashesOk (t : List (ℕ × ℕ × ℕ × ℕ)) : Bool :=
  List.rec (motive := fun _ => Bool) true
    (fun x _ ih => Nat.blt x.1 1024 && Nat.blt x.2.1 p && Nat.blt x.2.2.1 p &&
      merkleIs x.1 x.2.1 x.2.2.1 x.2.2.2 && ih) t

theorem hashesOk_sound {t : List (ℕ × ℕ × ℕ × ℕ)} (h : hashesOk t = true) {l a b c : ℕ} (hm : (l, a, b, c) ∈ t) :
    Spec.merkleCRH Prims.zcash l a b = (c : Fp) := by
  induction t with
  | nil => exact absurd hm List.not_mem_nil
  | cons x t ih =>
    have e : hashesOk (x :: t) = (Nat.blt x.1 1024 && Nat.blt x.2.1 p && Nat.blt x.2.2.1 p &&
      merkleIs x.1 x.2.1 x.2.2.1 x.2.2.2 && hashesOk t) := rfl
    rw [e] at h
    simp only [Bool.and_eq_true, Nat.blt_eq] at h
    obtain ⟨⟨⟨⟨h1, h2⟩, h3⟩, h4⟩, h5⟩ := h
    rcases List.mem_cons.1 hm with rfl | hm
    · exact merkleIs_sound h1 h2 h3 h4
    · exact ih h5 hm

/-- Node `i` of a level, given the nodes that are not empty and the empty root of the level. -/
def at' (x : List ℕ × ℕ) (i : ℕ) : ℕ := x.1.getD i x.2

/-- Does each level follow from the one before it by the hashes of the table? -/
def stepsOk (t : List (ℕ × ℕ × ℕ × ℕ)) : ℕ → List (List ℕ × ℕ) → Bool
  | l, x :: y :: r => t.elem (l, x.2, x.2, y.2) && Nat.beq y.1.length ((x.1.length + 1) / 2) &&
      (List.range y.1.length).all (fun i => t.elem (l, at' x (2 * i), at' x (2 * i + 1), at' y i)) &&
      stepsOk t (l + 1) (y :: r)
  | _, _ => true

theorem stepsOk_sound {t : List (ℕ × ℕ × ℕ × ℕ)} (h : hashesOk t = true) (leaf : ℕ → Fp) (r : List (List ℕ × ℕ)) :
    ∀ (l : ℕ), stepsOk t l r = true →
    (∀ i, Spec.node Prims.zcash leaf l i = (at' (r.getD 0 ([], 0)) i : ℕ)) →
    ∀ k, k < r.length → ∀ i, Spec.node Prims.zcash leaf (l + k) i = (at' (r.getD k ([], 0)) i : ℕ) := by
  induction r with
  | nil => intro l _ _ k hk; exact absurd hk (by simp)
  | cons x r ih =>
    intro l hs h0 k hk i
    cases k with
    | zero => exact h0 i
    | succ k =>
      cases r with
      | nil => exact absurd hk (by simp)
      | cons y r =>
        rw [stepsOk] at hs
        simp only [Bool.and_eq_true, List.all_eq_true, List.mem_range, List.elem_iff] at hs
        obtain ⟨⟨⟨h1, h2⟩, h3⟩, h4⟩ := hs
        have h2 := Nat.eq_of_beq_eq_true h2
        rw [show l + (k + 1) = l + 1 + k by omega]
        refine ih (l + 1) h4 (fun i => ?_) k (by simpa using hk) i
        rw [Spec.node, h0, h0]
        simp only [List.getD_cons_zero]
        by_cases hi : i < y.1.length
        · exact hashesOk_sound h (h3 i hi)
        · have e1 : at' y i = y.2 := List.getD_eq_default _ _ (by omega)
          have e2 : at' x (2 * i) = x.2 := List.getD_eq_default _ _ (by omega)
          have e3 : at' x (2 * i + 1) = x.2 := List.getD_eq_default _ _ (by omega)
          rw [e1, e2, e3]
          exact hashesOk_sound h h1

/-- The vector against all nodes of its tree. -/
def merkleOk (t : List (ℕ × ℕ × ℕ × ℕ)) (v : MerkleVector) (lv : List (List ℕ × ℕ)) : Bool :=
  Nat.beq v.leaves.length 16 && v.leaves.all (fun x => Nat.blt x p) && Nat.blt v.root p && Nat.beq lv.length 5 &&
  decide (lv.getD 0 ([], 0) = (v.leaves, 2)) && Nat.beq (at' (lv.getD 4 ([], 0)) 0) v.root && stepsOk t 0 lv &&
  (List.range 16).all fun j => (List.range 4).all fun l => Nat.blt ((v.paths.getD j []).getD l 0) p &&
    Nat.beq (at' (lv.getD l ([], 0)) (Spec.sibling (j / 2 ^ l))) ((v.paths.getD j []).getD l 0)

theorem merkleOk_sound {t : List (ℕ × ℕ × ℕ × ℕ)} {v : MerkleVector} {lv : List (List ℕ × ℕ)} (ht : hashesOk t = true)
    (h : merkleOk t v lv = true) : v.Agrees Prims.zcash := by
  unfold merkleOk at h
  simp only [Bool.and_eq_true, List.all_eq_true, List.mem_range, Nat.blt_eq, Nat.beq_eq, decide_eq_true_eq] at h
  obtain ⟨⟨⟨⟨⟨⟨⟨h1, h2⟩, h3⟩, h4⟩, h5⟩, h6⟩, h7⟩, h8⟩ := h
  have key := stepsOk_sound ht v.leaf lv 0 h7 (fun i => by rw [h5]; rfl)
  refine ⟨h1, h2, h3, ?_, fun j hj l hl => ⟨(h8 j hj l hl).1, ?_⟩⟩
  · have := key 4 (by omega) 0
    rw [Nat.zero_add] at this
    rw [this, h6]
  · have := key l (by omega) (Spec.sibling (j / 2 ^ l))
    rw [Nat.zero_add] at this
    rw [this, (h8 j hj l hl).2]

end Orchard.Vectors
