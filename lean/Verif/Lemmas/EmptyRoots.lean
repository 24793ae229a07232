import Verif.Crypto.EvalMerkle
import Verif.Spec.EmptyRoots

/-! # Evaluating the roots of empty trees -/

namespace Orchard.Compute

/-- The published roots as numbers. -/
def rootNats : List ℕ := Spec.publishedEmptyRoots.map leNat

/-- Does each number hash, with itself, to the next one? -/
noncomputable def rootsOk (l : List ℕ) : ℕ → ℕ → Bool :=
  List.rec (motive := fun _ => ℕ → ℕ → Bool) (fun _ _ => true)
    (fun c _ ih lev a => Nat.blt a p && merkleIs lev a a c && ih (lev + 1) c) l

set_option maxRecDepth 100000 in
theorem rootsOk_published : rootsOk rootNats.tail 0 2 = true := by decide +kernel

set_option maxRecDepth 100000 in
theorem rootNats_lt : ∀ n ∈ rootNats, n < p := by decide +kernel

theorem node_empty (P : Prims) (h : ℕ) : Spec.node P (fun _ => 2) (h + 1) 0 =
    Spec.merkleCRH P h (Spec.node P (fun _ => 2) h 0) (Spec.node P (fun _ => 2) h 0) := by
  have hnode : ∀ h i, Spec.node P (fun _ => 2) h i = Spec.node P (fun _ => 2) h 0 := by
    intro h
    induction h with
    | zero => intro i; rfl
    | succ h ih => intro i; rw [Spec.node, Spec.node, ih, ih (2 * i + 1), ih (2 * 0 + 1)]
  rw [Spec.node, hnode h (2 * 0 + 1)]

theorem rootsOk_sound (l : List ℕ) : ∀ (lev a : ℕ), lev + l.length < 1024 → rootsOk l lev a = true →
    (a : Fp) = Spec.node Prims.zcash (fun _ => 2) lev 0 →
    ∀ i (h : i < l.length), (l[i] : Fp) = Spec.node Prims.zcash (fun _ => 2) (lev + 1 + i) 0 := by
  induction l with
  | nil => intro _ _ _ _ _ i h; exact absurd h (by simp)
  | cons c l ih =>
    intro lev a hl h ha i hi
    have e : rootsOk (c :: l) lev a = (Nat.blt a p && merkleIs lev a a c && rootsOk l (lev + 1) c) := rfl
    rw [e, Bool.and_eq_true, Bool.and_eq_true] at h
    obtain ⟨⟨h1, h2⟩, h3⟩ := h
    rw [List.length_cons] at hl
    have hlt : a < p := Nat.blt_eq.mp h1
    have h4 := merkleIs_sound (by omega) hlt hlt h2
    have hc : (c : Fp) = Spec.node Prims.zcash (fun _ => 2) (lev + 1) 0 := by
      rw [← h4, ha, node_empty]
    cases i with
    | zero => exact hc
    | succ i =>
      have := ih (lev + 1) c (by omega) h3 hc i (by simpa using hi)
      rw [show lev + 1 + (i + 1) = lev + 1 + 1 + i by omega]
      exact this

end Orchard.Compute
