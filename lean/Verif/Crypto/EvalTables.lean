import Verif.Crypto.Compute
import Verif.Spec.FixedBase

/-!
# Evaluation of the check of fixed-base tables
-/

namespace Orchard.Compute

/-- `f t`, but the kernel evaluates the coordinates of `t` first. -/
noncomputable def forcePt {α : Type} (t : Pt) (f : Pt → α) : α :=
  match t with
  | none => f none
  | some (x, y) => force x fun x => force y fun y => f (some (x, y))

theorem forcePt_eq {α : Type} (t : Pt) (f : Pt → α) : forcePt t f = f t := by
  rcases t with _ | ⟨x, y⟩
  · rfl
  · simp [forcePt, force_eq]

/-- Check of one entry. -/
noncomputable def checkEntry (t : Pt) (z u : ℕ) : Bool :=
  match t with
  | none => false
  | some (_, y) => Nat.blt u p && (Nat.blt z (2 ^ 64) && (eq (Nat.mul u u) (Nat.add y z) && nonSquare (sub z y)))

theorem checkEntry_sound {t : Pt} {A : Point} {z u : ℕ} (hA : Rep t A) (h : checkEntry t z u = true) :
    Spec.EntryFits A z u := by
  rcases t with _ | ⟨x, y⟩
  · exact absurd h (by simp [checkEntry])
  · obtain ⟨e, rfl⟩ := rep_ofXY.1 hA
    simp only [checkEntry, Bool.and_eq_true] at h
    obtain ⟨h1, h2, h3, h4⟩ := h
    refine ⟨by simpa using h1, by simpa using h2, _, _, e, rfl, ?_, ?_⟩
    · rw [eq_iff, Nat.mul_eq, Nat.add_eq, Nat.cast_mul, Nat.cast_add] at h3
      rw [pow_two, h3]
    · intro s hs
      refine nonSquare_sound h4 s ?_
      rw [hs, sub_cast]
      ring

/-- Check of the entries of a window: `t` is the point of the first one, `b` the step. -/
noncomputable def checkRow (b : Pt) (z : ℕ) : List ℕ → Pt → Bool
  | [], _ => true
  | u :: us, t => checkEntry t z u && forcePt (addPt 0 t b) fun t' => checkRow b z us t'

theorem checkRow_sound {b : Pt} {B : Point} (hB : Rep b B) {z : ℕ} : ∀ {us : List ℕ} {t : Pt} {A : Point},
    Rep t A → checkRow b z us t = true →
    ∀ k < us.length, Spec.EntryFits (A + k • B) z (us.getD k 0)
  | [], _, _, _, _ => by intro k hk; exact absurd hk (by simp)
  | u :: us, t, A, hA, h => by
    rw [checkRow, forcePt_eq, Bool.and_eq_true] at h
    intro k hk
    cases k with
    | zero => rw [zero_nsmul, add_zero]; exact checkEntry_sound hA h.1
    | succ k =>
      have := checkRow_sound hB (rep_add hA hB) h.2 k (by simpa using hk)
      rw [List.getD_cons_succ]
      rwa [show A + (k + 1) • B = A + B + k • B by rw [succ_nsmul]; abel]

/-- Check of all windows; `b` is `8^w B`, `s` is what the windows before `w` add too much. -/
noncomputable def checkTable : List ℕ → List (List ℕ) → Pt → Pt → Bool
  | [z], [us], b, s =>
    Nat.beq us.length 8 && forcePt (negPt s) fun t => checkRow b z us t
  | z :: zs, us :: uss, b, s =>
    forcePt (addPt 0 b b) fun b2 =>
    (Nat.beq us.length 8 && checkRow b z us b2) &&
    forcePt (addPt 0 b2 b2) fun b4 =>
    forcePt (addPt 0 b4 b4) fun b8 =>
    forcePt (addPt 0 s b2) fun s' => checkTable zs uss b8 s'
  | _, _, _, _ => false

open Finset in
theorem checkTable_sound {B : Point} : ∀ {zs : List ℕ} {uss : List (List ℕ)} {b s : Pt} (w : ℕ),
    Rep b ((8 ^ w : ℤ) • B) → Rep s ((∑ j ∈ range w, 2 * 8 ^ j : ℤ) • B) → checkTable zs uss b s = true →
    uss.length = zs.length ∧ ∀ i < zs.length, (uss.getD i []).length = 8 ∧
      ∀ k < 8, Spec.EntryFits (Spec.windowScalar (w + zs.length) (w + i) k • B) (zs.getD i 0)
        ((uss.getD i []).getD k 0)
  | [], _, _, _, w, _, _, h => by
    exact absurd h (by simp [checkTable])
  | [z], [], _, _, w, _, _, h => by
    exact absurd h (by simp [checkTable])
  | _ :: _ :: _, [], _, _, w, _, _, h => by
    exact absurd h (by simp [checkTable])
  | [z], [us], b, s, w, hb, hs, h => by
    rw [checkTable, forcePt_eq, Bool.and_eq_true] at h
    have hl : us.length = 8 := Nat.eq_of_beq_eq_true h.1
    refine ⟨rfl, ?_⟩
    intro i hi
    obtain rfl : i = 0 := by simpa using hi
    refine ⟨hl, fun k hk => ?_⟩
    have := checkRow_sound hb (rep_neg hs) h.2 k (by omega)
    rw [List.getD_cons_zero, List.getD_cons_zero]
    convert this using 1
    rw [Spec.windowScalar, if_neg (by simp), sub_smul, mul_smul, natCast_zsmul, add_zero]
    abel
  | [z], us :: us' :: uss, b, s, w, hb, hs, h => by
    simp only [checkTable, forcePt_eq, Bool.and_eq_true] at h
    exact absurd h (by simp)
  | z :: z' :: zs, us :: uss, b, s, w, hb, hs, h => by
    rw [checkTable, forcePt_eq, forcePt_eq, forcePt_eq, forcePt_eq, Bool.and_eq_true,
      Bool.and_eq_true] at h
    · obtain ⟨⟨hl, hr⟩, ht⟩ := h
      have hl : us.length = 8 := Nat.eq_of_beq_eq_true hl
      have h2 := rep_add hb hb
      have h4 := rep_add h2 h2
      have h8 := rep_add h4 h4
      have hs' := rep_add hs h2
      rw [show (8 ^ w : ℤ) • B + (8 ^ w : ℤ) • B + ((8 ^ w : ℤ) • B + (8 ^ w : ℤ) • B) +
          ((8 ^ w : ℤ) • B + (8 ^ w : ℤ) • B + ((8 ^ w : ℤ) • B + (8 ^ w : ℤ) • B)) = (8 ^ (w + 1) : ℤ) • B by
        rw [pow_succ]; module] at h8
      rw [show (∑ j ∈ range w, 2 * 8 ^ j : ℤ) • B + ((8 ^ w : ℤ) • B + (8 ^ w : ℤ) • B) =
          (∑ j ∈ range (w + 1), 2 * 8 ^ j : ℤ) • B by
        rw [sum_range_succ]; module] at hs'
      obtain ⟨e, ih⟩ := checkTable_sound (w + 1) h8 hs' ht
      refine ⟨by simp [e], ?_⟩
      intro i hi
      cases i with
      | zero =>
        refine ⟨hl, fun k hk => ?_⟩
        have := checkRow_sound hb h2 hr k (by omega)
        rw [List.getD_cons_zero, List.getD_cons_zero]
        convert this using 1
        rw [Spec.windowScalar, if_pos (by simp), ← natCast_zsmul _ k]
        module
      | succ i =>
        obtain ⟨hi1, hi2⟩ := ih i (by simpa using hi)
        rw [List.getD_cons_succ]
        refine ⟨hi1, fun k hk => ?_⟩
        have := hi2 k hk
        rw [List.getD_cons_succ]
        convert this using 3
        · rw [List.length_cons]; omega
        · omega
    · simp

theorem tablesFit_of_check {B : Point} {x y : ℕ} (hB : Rep (some (x, y)) B) {n : ℕ} {zs : List ℕ}
    {uss : List (List ℕ)} (hn : zs.length = n) (h : checkTable zs uss (some (x, y)) none = true) :
    Spec.TablesFit B n zs uss := by
  obtain ⟨h1, h2⟩ := checkTable_sound (B := B) 0 (by simpa using hB) (by simp [Rep]) h
  subst hn
  refine ⟨rfl, h1, ?_⟩
  intro w hw
  obtain ⟨h3, h4⟩ := h2 w hw
  refine ⟨h3, fun k hk => ?_⟩
  have := h4 k hk
  rwa [Nat.zero_add, Nat.zero_add] at this

end Orchard.Compute
