import Verif.Spec.Testing
import Verif.Props.Zip32
import Verif.Props.Value

/-!
# Lemmas about strategies
-/

namespace Orchard

open RedPallas

namespace Gen

variable {α β : Type}

@[simp] theorem mem_pure {o : Outcome α} {a : α} : o ∈ (pure a : Gen α) ↔ o = .ret a := Iff.rfl

@[simp] theorem mem_just {o : Outcome α} {a : α} : o ∈ Gen.just a ↔ o = .ret a := Iff.rfl

theorem mem_bind {o : Outcome β} {s : Gen α} {f : α → Gen β} :
    o ∈ (s >>= f) ↔ (.panic ∈ s ∧ o = .panic) ∨ ∃ a, .ret a ∈ s ∧ o ∈ f a := Iff.rfl

@[simp] theorem mem_run {o x : Outcome α} : o ∈ Gen.run x ↔ o = x := Iff.rfl

@[simp] theorem mem_anything {o : Outcome α} : o ∈ Gen.anything α ↔ ∃ a, o = .ret a := Iff.rfl

theorem mem_range {lo hi : ℕ} {o : Outcome ℕ} :
    o ∈ Gen.range lo hi ↔ if lo < hi then ∃ v, lo ≤ v ∧ v < hi ∧ o = .ret v else o = .panic := Iff.rfl

theorem mem_rangeInclusive {lo hi : ℤ} {o : Outcome ℤ} :
    o ∈ Gen.rangeInclusive lo hi ↔
      if lo ≤ hi then ∃ v, lo ≤ v ∧ v ≤ hi ∧ o = .ret v else o = .panic := Iff.rfl

theorem mem_filter {p : α → Bool} {s : Gen α} {o : Outcome α} :
    o ∈ Gen.filter p s ↔ o ∈ s ∧ ∀ a, o = .ret a → p a = true := Iff.rfl

theorem mem_ofRun {x : Run Empty α} {o : Outcome α} :
    o ∈ Testing.ofRun x ↔ (∃ a, x = .ok a ∧ o = .ret a) ∨ (x = .panic ∧ o = .panic) := Iff.rfl

theorem ret_mem_bind {b : β} {s : Gen α} {f : α → Gen β} :
    .ret b ∈ (s >>= f) ↔ ∃ a, .ret a ∈ s ∧ .ret b ∈ f a := by
  rw [mem_bind]; simp

theorem panic_mem_bind {s : Gen α} {f : α → Gen β} :
    .panic ∈ (s >>= f) ↔ .panic ∈ s ∨ ∃ a, .ret a ∈ s ∧ .panic ∈ f a := by
  rw [mem_bind]; simp

/-- Sequencing after a strategy that never panics. -/
theorem mem_bind_yields {s : Gen α} {p : α → Prop} (h : Spec.Yields s p) {f : α → Gen β}
    {o : Outcome β} : o ∈ (s >>= f) ↔ ∃ a, p a ∧ o ∈ f a := by
  rw [mem_bind, h]
  constructor
  · rintro (⟨⟨a, -, h⟩, -⟩ | ⟨a, h1, h2⟩)
    · simp at h
    · rw [h] at h1
      obtain ⟨a', h3, h4⟩ := h1
      simp only [Outcome.ret.injEq] at h4
      exact ⟨a, h4 ▸ h3, h2⟩
  · rintro ⟨a, h1, h2⟩
    exact Or.inr ⟨a, (h _).2 ⟨a, h1, rfl⟩, h2⟩

theorem yields_anything : Spec.Yields (Gen.anything α) fun _ => True := fun o => by simp

theorem yields_map {s : Gen α} {p : α → Prop} (h : Spec.Yields s p) (f : α → β) {p' : β → Prop}
    (h' : ∀ b, p' b ↔ ∃ a, p a ∧ f a = b) : Spec.Yields (s >>= fun a => pure (f a)) p' := by
  intro o
  rw [mem_bind_yields h]
  constructor
  · rintro ⟨a, h1, h2⟩; exact ⟨f a, (h' _).2 ⟨a, h1, rfl⟩, h2⟩
  · rintro ⟨b, h1, rfl⟩
    obtain ⟨a, h2, rfl⟩ := (h' b).1 h1
    exact ⟨a, h2, rfl⟩

theorem yields_range {lo hi : ℕ} (h : lo < hi) :
    Spec.Yields (Gen.range lo hi) fun v => lo ≤ v ∧ v < hi := by
  intro o; rw [mem_range, if_pos h]; simp only [and_assoc]

theorem yields_rangeInclusive {lo hi : ℤ} (h : lo ≤ hi) :
    Spec.Yields (Gen.rangeInclusive lo hi) fun v => lo ≤ v ∧ v ≤ hi := by
  intro o; rw [mem_rangeInclusive, if_pos h]; simp only [and_assoc]

/-- `prop_filter(is_some)` followed by `unwrap`. -/
theorem yields_filter_unwrap {s : Gen α} {f : α → Option β} {p : α → Prop} (h : Spec.Yields s p)
    {p' : β → Prop} (h' : ∀ b, p' b ↔ ∃ a, p a ∧ f a = some b) :
    Spec.Yields ((Gen.filter Option.isSome (s >>= fun a => pure (f a))) >>= fun k =>
      Gen.run (Option.unwrapO k)) p' := by
  have hf : Spec.Yields (Gen.filter Option.isSome (s >>= fun a => pure (f a)))
      fun k => ∃ b, k = some b ∧ p' b := by
    intro o
    rw [mem_filter, mem_bind_yields h]
    constructor
    · rintro ⟨⟨a, h1, h2⟩, h3⟩
      rw [mem_pure] at h2
      obtain ⟨b, h4⟩ := Option.isSome_iff_exists.1 (h3 _ h2)
      exact ⟨f a, ⟨b, h4, (h' b).2 ⟨a, h1, h4⟩⟩, h2⟩
    · rintro ⟨k, ⟨b, rfl, h1⟩, rfl⟩
      obtain ⟨a, h2, h3⟩ := (h' b).1 h1
      refine ⟨⟨a, h2, by rw [mem_pure, h3]⟩, ?_⟩
      intro a h; simp only [Outcome.ret.injEq] at h; rw [← h]; rfl
  intro o
  rw [mem_bind_yields hf]
  constructor
  · rintro ⟨k, ⟨b, rfl, h1⟩, h2⟩; exact ⟨b, h1, h2⟩
  · rintro ⟨b, h1, rfl⟩; exact ⟨some b, ⟨b, rfl, h1⟩, rfl⟩

theorem ret_mem_vec {s : Gen α} {n : ℕ} {l : List α} :
    .ret l ∈ Gen.vec s n ↔ l.length = n ∧ ∀ a ∈ l, .ret a ∈ s := by
  induction n generalizing l with
  | zero =>
    rw [Gen.vec, mem_pure, Outcome.ret.injEq]
    constructor
    · rintro rfl; simp
    · rintro ⟨h, -⟩; exact List.length_eq_zero_iff.1 h
  | succ n ih =>
    rw [Gen.vec, ret_mem_bind]
    simp only [ret_mem_bind, mem_pure, Outcome.ret.injEq, ih]
    constructor
    · rintro ⟨a, h1, l', ⟨h2, h3⟩, rfl⟩
      exact ⟨by simp [h2], by simp [h1]; exact h3⟩
    · rintro ⟨h1, h2⟩
      cases l with
      | nil => simp at h1
      | cons a l =>
        exact ⟨a, h2 a (by simp), l, ⟨by simpa using h1, fun x hx => h2 x (by simp [hx])⟩, rfl⟩

theorem panic_mem_vec {s : Gen α} {n : ℕ} (h : .panic ∈ Gen.vec s n) : .panic ∈ s := by
  induction n with
  | zero => rw [Gen.vec, mem_pure] at h; simp at h
  | succ n ih =>
    rw [Gen.vec, panic_mem_bind] at h
    rcases h with h | ⟨a, -, h⟩
    · exact h
    · rw [panic_mem_bind] at h
      rcases h with h | ⟨l, -, h⟩
      · exact ih h
      · simp at h

end Gen

open Testing

theorem toNat_padded (b : Bytes 32) : (padded b).toNat = b.toNat := by
  unfold padded Bytes.toNat
  rw [Bytes.toList_append, leNat_append]
  have : leNat (Bytes.replicate 32 0).toList = 0 := by decide +kernel
  rw [this]; omega

theorem yields_ofNat {lo hi : ℕ} (hhi : hi < 2 ^ 64) (h : lo < hi) :
    Spec.Yields (Gen.range lo hi >>= fun v => pure (⟨UInt64.ofNat v⟩ : NoteValue))
      fun v => lo ≤ v.inner.toNat ∧ v.inner.toNat < hi := by
  refine Gen.yields_map (Gen.yields_range h) _ fun v => ?_
  constructor
  · intro hv
    exact ⟨v.inner.toNat, hv, by cases v; simp⟩
  · rintro ⟨a, ⟨h1, h2⟩, rfl⟩
    have : (UInt64.ofNat a).toNat = a := by
      rw [UInt64.toNat_ofNat']; exact Nat.mod_eq_of_lt (by omega)
    simp only [this]; exact ⟨h1, h2⟩

end Orchard
