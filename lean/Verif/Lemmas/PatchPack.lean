import Lean.Elab.Tactic
import Verif.Lemmas.PatchSites

/-!
# Packing of regions
-/

namespace Orchard.Regions

open Halo2 Layout Pinned Spec

open Lean Elab Tactic Meta in
/-- Closes `a = b` with `Eq.refl`; only the kernel compares the two sides. -/
elab "kernel_rfl" : tactic => do
  let g ← getMainGoal
  g.withContext do
    match (← instantiateMVars (← g.getType)).eq? with
    | some (_, _, b) => g.assign (← mkEqRefl b)
    | none => throwError "kernel_rfl: not an equation"

/-- The cells of a strip, as bits. -/
def stripMask (a : ℕ × ℕ × ℕ) : ℕ := (2 ^ a.2.2 - 1) <<< (a.1 * 2048 + a.2.1)

/-- Strips are not empty, and no cell of a strip is in the mask or in a strip before. -/
def packs : ℕ → List (ℕ × ℕ × ℕ) → Bool
  | _, [] => true
  | m, a :: l => Nat.ble 1 a.2.2 && Nat.beq (m &&& stripMask a) 0 && packs (m ||| stripMask a) l

theorem stripMask_testBit {a : ℕ × ℕ × ℕ} {r : ℕ} (h1 : a.2.1 ≤ r) (h2 : r < a.2.1 + a.2.2) :
    (stripMask a).testBit (a.1 * 2048 + r) = true := by
  rw [stripMask, Nat.testBit_shiftLeft, Nat.testBit_two_pow_sub_one]
  simp only [Bool.and_eq_true, decide_eq_true_eq]
  omega

theorem apart_of_land {a b : ℕ × ℕ × ℕ} (ha : 1 ≤ a.2.2) (hb : 1 ≤ b.2.2) (h : stripMask a &&& stripMask b = 0) :
    Apart a b := by
  by_contra hn
  simp only [Apart, not_or, not_not, not_le] at hn
  obtain ⟨h1, h2, h3⟩ := hn
  have ka := stripMask_testBit (a := a) (r := max a.2.1 b.2.1) (by omega) (by omega)
  have kb := stripMask_testBit (a := b) (r := max a.2.1 b.2.1) (by omega) (by omega)
  have := congrArg (Nat.testBit · (a.1 * 2048 + max a.2.1 b.2.1)) h
  rw [← h1] at kb
  simp [Nat.testBit_and, ka, kb] at this

theorem pairwise_of_packs : ∀ {l : List (ℕ × ℕ × ℕ)} {m : ℕ}, packs m l = true →
    l.Pairwise Apart ∧ ∀ a ∈ l, 1 ≤ a.2.2 ∧ m &&& stripMask a = 0
  | [], _, _ => ⟨List.Pairwise.nil, by simp⟩
  | a :: l, m, h => by
    rw [packs, Bool.and_eq_true, Bool.and_eq_true, Nat.ble_eq, Nat.beq_eq] at h
    obtain ⟨⟨h1, h2⟩, h3⟩ := h
    obtain ⟨k1, k2⟩ := pairwise_of_packs h3
    have key : ∀ b ∈ l, m &&& stripMask b = 0 ∧ stripMask a &&& stripMask b = 0 := fun b hb => by
      have := (k2 b hb).2
      rw [Nat.and_or_distrib_right] at this
      exact Nat.or_eq_zero_iff.1 this
    refine ⟨List.pairwise_cons.2 ⟨fun b hb => apart_of_land h1 (k2 b hb).1 (key b hb).2, k1⟩, ?_⟩
    rintro b hb
    rcases List.mem_cons.1 hb with rfl | hb
    · exact ⟨h1, h2⟩
    · exact ⟨(k2 b hb).1, (key b hb).1⟩

/-- Where the fixed cells of a patch are. -/
theorem SameFoot.fixedStrips {p q : Patch} (h : SameFoot p q) : p.fixedStrips = q.fixedStrips := by
  rw [Patch.fixedStrips, Patch.fixedStrips, h.fixed, h.gates, h.lookups]

theorem SameFoot.patchFixed {p q : Patch} (h : SameFoot p q) (P : Prims) : patchFixed P p = patchFixed P q := by
  unfold Regions.patchFixed
  rw [h.fixedStrips]

end Orchard.Regions
