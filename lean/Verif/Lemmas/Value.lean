import Verif.Model.Value
import Mathlib.Algebra.BigOperators.Group.List.Basic
import Mathlib.Algebra.BigOperators.Group.Finset.Basic
import Mathlib.Algebra.Module.BigOperators
import Mathlib.Algebra.Order.BigOperators.Group.List

/-! # Lemmas about the value model -/

namespace Orchard

theorem valueSumRange_iff {v : ℤ} :
    valueSumRange v = true ↔ -(2 ^ 64 - 1) ≤ v ∧ v ≤ 2 ^ 64 - 1 := by
  rw [valueSumRange, Bool.and_eq_true, decide_eq_true_iff, decide_eq_true_iff]; rfl

theorem u64_lt (v : UInt64) : (v.toNat : ℤ) < 2 ^ 64 := by
  have := v.toNat_lt
  exact_mod_cast this

theorem checked_eq {z : ℤ} :
    ((i128Check z).filter valueSumRange).map ValueSum.mk =
      if -(2 ^ 64 - 1) ≤ z ∧ z ≤ 2 ^ 64 - 1 then some ⟨z⟩ else none := by
  unfold i128Check
  split_ifs with h1 h2 h2
  · simp [Option.filter, valueSumRange_iff.2 h2]
  · have : ¬ valueSumRange z = true := fun h => h2 (valueSumRange_iff.1 h)
    simp [Option.filter, this]
  · exfalso; apply h1; constructor <;> norm_num at * <;> omega
  · simp

theorem NoteValue.sub_eq (a b : NoteValue) :
    a.sub b = some ⟨(a.inner.toNat : ℤ) - b.inner.toNat⟩ := by
  unfold NoteValue.sub
  have h1 := u64_lt a.inner
  have h2 := u64_lt b.inner
  rw [checked_eq, if_pos]
  constructor <;> omega

theorem ValueSum.add_eq (a b : ValueSum) :
    a.add b = if -(2 ^ 64 - 1) ≤ a.inner + b.inner ∧ a.inner + b.inner ≤ 2 ^ 64 - 1
      then some ⟨a.inner + b.inner⟩ else none := checked_eq

theorem ValueSum.addResult_ok (a v : ValueSum) :
    ValueSum.addResult (.ok a) v =
      if -(2 ^ 64 - 1) ≤ a.inner + v.inner ∧ a.inner + v.inner ≤ 2 ^ 64 - 1
      then .ok ⟨a.inner + v.inner⟩ else .error .overflow := by
  simp only [ValueSum.addResult, ValueSum.add_eq]
  split_ifs <;> rfl

theorem foldl_addResult_error (l : List ValueSum) (e : OverflowError) :
    l.foldl ValueSum.addResult (.error e) = .error e := by
  induction l with
  | nil => rfl
  | cons v l ih => exact ih

/-- All partial sums starting from `a` are in range. -/
def PartialsOk (a : ℤ) (l : List ℤ) : Prop :=
  ∀ k, k ≤ l.length → 1 ≤ k → -(2 ^ 64 - 1) ≤ a + (l.take k).sum ∧ a + (l.take k).sum ≤ 2 ^ 64 - 1

theorem partialsOk_cons {a v : ℤ} {l : List ℤ} :
    PartialsOk a (v :: l) ↔
      (-(2 ^ 64 - 1) ≤ a + v ∧ a + v ≤ 2 ^ 64 - 1) ∧ PartialsOk (a + v) l := by
  constructor
  · intro h
    refine ⟨by simpa using h 1 (by simp) le_rfl, ?_⟩
    intro k hk h1
    have := h (k + 1) (by simpa using hk) (by omega)
    simpa [List.take_succ_cons, add_assoc] using this
  · rintro ⟨h1, h2⟩ k hk hk1
    obtain ⟨k, rfl⟩ : ∃ j, k = j + 1 := ⟨k - 1, by omega⟩
    rcases Nat.eq_zero_or_pos k with rfl | hpos
    · simpa using h1
    · have := h2 k (by simpa using hk) hpos
      simpa [List.take_succ_cons, add_assoc] using this

theorem foldl_addResult_ok_iff (l : List ValueSum) (a s : ValueSum) :
    l.foldl ValueSum.addResult (.ok a) = .ok s ↔
      PartialsOk a.inner (l.map ValueSum.inner) ∧ s.inner = a.inner + (l.map ValueSum.inner).sum := by
  induction l generalizing a with
  | nil =>
    simp only [List.foldl_nil, Except.ok.injEq, List.map_nil, List.sum_nil, add_zero]
    constructor
    · rintro rfl
      exact ⟨fun k hk h1 => by simp at hk; omega, rfl⟩
    · rintro ⟨-, h⟩
      cases a; cases s; simp_all
  | cons v l ih =>
    rw [List.foldl_cons, ValueSum.addResult_ok, List.map_cons, partialsOk_cons, List.sum_cons]
    split_ifs with h
    · rw [ih]
      simp only [add_assoc]
      tauto
    · rw [foldl_addResult_error]
      constructor
      · intro hh; cases hh
      · rintro ⟨⟨h1, -⟩, -⟩; exact absurd h1 h

theorem foldl_addResult_error_iff (l : List ValueSum) (a : ValueSum) :
    l.foldl ValueSum.addResult (.ok a) = .error .overflow ↔
      ¬ PartialsOk a.inner (l.map ValueSum.inner) := by
  rcases h : l.foldl ValueSum.addResult (.ok a) with e | s
  · cases e
    simp only [true_iff]
    intro hp
    have := (foldl_addResult_ok_iff l a ⟨a.inner + (l.map ValueSum.inner).sum⟩).2 ⟨hp, rfl⟩
    rw [h] at this; cases this
  · have := ((foldl_addResult_ok_iff l a s).1 h).1
    simp [this]

theorem ValueSum.sum_ok_iff (l : List ValueSum) (s : ValueSum) :
    ValueSum.sum l = .ok s ↔
      PartialsOk 0 (l.map ValueSum.inner) ∧ s.inner = (l.map ValueSum.inner).sum := by
  have := foldl_addResult_ok_iff l ⟨0⟩ s
  simpa [ValueSum.sum] using this

theorem ValueSum.sum_error_iff (l : List ValueSum) :
    ValueSum.sum l = .error .overflow ↔ ¬ PartialsOk 0 (l.map ValueSum.inner) :=
  foldl_addResult_error_iff l ⟨0⟩

theorem u64OfInt?_eq_some {z : ℤ} (h0 : 0 ≤ z) (h1 : z < 2 ^ 64) :
    ∃ m : UInt64, u64OfInt? z = some m ∧ (m.toNat : ℤ) = z := by
  refine ⟨UInt64.ofNat z.toNat, by unfold u64OfInt?; rw [if_pos ⟨h0, h1⟩], ?_⟩
  rw [UInt64.toNat_ofNat', Nat.mod_eq_of_lt (by omega), Int.toNat_of_nonneg h0]

/-- Closed form of `ValueCommitment::derive` on in-range values. -/
theorem ValueCommitment.derive_eq {v : ValueSum} (h : -(2 ^ 64 - 1) ≤ v.inner ∧ v.inner ≤ 2 ^ 64 - 1)
    (rcv : ValueCommitTrapdoor) :
    ValueCommitment.derive v rcv =
      some ⟨(v.inner : Fq) • Constants.valueCommitV + rcv.inner • Constants.valueCommitR⟩ := by
  unfold ValueCommitment.derive
  have habs : |v.inner| < 2 ^ 64 := by rw [abs_lt]; omega
  have h128 : i128Check |v.inner| = some |v.inner| := by
    unfold i128Check
    rw [if_pos]
    have := abs_nonneg v.inner
    constructor <;> omega
  obtain ⟨m, hm, hmv⟩ := u64OfInt?_eq_some (abs_nonneg v.inner) habs
  rw [h128]
  simp only [Option.bind_some, hm, Option.map_some]
  congr 3
  have hc : (m.toNat : Fq) = ((|v.inner| : ℤ) : Fq) := by rw [← hmv]; simp
  rw [hc]
  split_ifs with hneg
  · rw [abs_of_neg hneg]; push_cast; ring_nf
  · rw [abs_of_nonneg (not_lt.1 hneg)]

theorem ValueCommitment.foldl_add (l : List ValueCommitment) (a : ValueCommitment) :
    (l.foldl ValueCommitment.add a).inner = a.inner + (l.map ValueCommitment.inner).sum := by
  induction l generalizing a with
  | nil => simp
  | cons c l ih => simp [ih, ValueCommitment.add, add_assoc]

theorem ValueCommitment.sum_inner (l : List ValueCommitment) :
    (ValueCommitment.sum l).inner = (l.map ValueCommitment.inner).sum := by
  simp [ValueCommitment.sum, ValueCommitment.foldl_add]

theorem ValueCommitTrapdoor.foldl_add (l : List ValueCommitTrapdoor) (a : ValueCommitTrapdoor) :
    (l.foldl ValueCommitTrapdoor.add a).inner =
      a.inner + (l.map ValueCommitTrapdoor.inner).sum := by
  induction l generalizing a with
  | nil => simp
  | cons c l ih => simp [ih, ValueCommitTrapdoor.add, add_assoc]

theorem ValueCommitTrapdoor.sum_inner (l : List ValueCommitTrapdoor) :
    (ValueCommitTrapdoor.sum l).inner = (l.map ValueCommitTrapdoor.inner).sum := by
  simp [ValueCommitTrapdoor.sum, ValueCommitTrapdoor.foldl_add, ValueCommitTrapdoor.zero]

end Orchard
