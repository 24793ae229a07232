import Verif.Crypto.Compute
import Verif.Model.Sinsemilla

/-!
# Evaluating sums and multiples of points in the kernel

Nothing here models code.
-/

namespace Orchard.Compute

/-! ### Additions, in continuation-passing style -/

/-- The third point, given the slope. -/
noncomputable def addWithK {α : Type} (l x₁ y₁ x₂ : ℕ) (k : ℕ → ℕ → α) : α :=
  force (sub (mul l l) (Nat.add x₁ x₂)) fun x₃ => force (sub (mul l (sub x₁ x₃)) y₁) fun y₃ => k x₃ y₃

/-- Sum of points with different `x` coordinates. -/
noncomputable def addK {α : Type} (x₁ y₁ x₂ y₂ : ℕ) (k : ℕ → ℕ → Option α) : Option α :=
  bif eq x₁ x₂ then none
  else force (mul (sub y₁ y₂) (inv (sub x₁ x₂))) fun l => addWithK l x₁ y₁ x₂ k

/-- Double of a point. -/
noncomputable def dblK {α : Type} (x y : ℕ) (k : ℕ → ℕ → Option α) : Option α :=
  bif eq (Nat.add y y) 0 then none
  else force (mul (Nat.add (Nat.mul 3 (mul x x)) 0) (inv (Nat.mul 2 y))) fun l => addWithK l x y x k

theorem addWithK_eq {α : Type} (l x₁ y₁ x₂ : ℕ) (k : ℕ → ℕ → α) :
    ∃ x₃ y₃, addWith l x₁ y₁ x₂ = some (x₃, y₃) ∧ addWithK l x₁ y₁ x₂ k = k x₃ y₃ := by
  unfold addWith addWithK
  simp only [force_eq]
  exact ⟨_, _, rfl, rfl⟩

theorem addK_sound {α : Type} {x₁ y₁ x₂ y₂ : ℕ} {A B : Point} (hA : Rep (some (x₁, y₁)) A)
    (hB : Rep (some (x₂, y₂)) B) {k : ℕ → ℕ → Option α} {r : α} (h : addK x₁ y₁ x₂ y₂ k = some r) :
    ∃ x₃ y₃, Rep (some (x₃, y₃)) (A + B) ∧ k x₃ y₃ = some r ∧ incompleteAdd A B = some (A + B) := by
  have hadd := rep_add hA hB
  obtain ⟨h1, rfl⟩ := rep_ofXY.1 hA
  obtain ⟨h2, rfl⟩ := rep_ofXY.1 hB
  unfold addK at h
  dsimp only [addPt] at hadd
  cases hx : eq x₁ x₂ with
  | true => rw [hx, cond_true] at h; exact absurd h (by simp)
  | false =>
    rw [hx, cond_false, force_eq] at h
    rw [hx, cond_false, force_eq] at hadd
    obtain ⟨x₃, y₃, e1, e2⟩ := addWithK_eq (mul (sub y₁ y₂) (inv (sub x₁ x₂))) x₁ y₁ x₂ k
    rw [e1] at hadd
    rw [e2] at h
    refine ⟨x₃, y₃, hadd, h, ?_⟩
    rw [eq_false_iff] at hx
    unfold incompleteAdd
    rw [if_neg]
    rintro (c | c | c | c)
    · exact Point.ofXY_ne_zero _ _ _ c
    · exact Point.ofXY_ne_zero _ _ _ c
    · rw [Point.ofXY_inj] at c; exact hx c.1
    · rw [Point.neg_ofXY, Point.ofXY_inj] at c; exact hx c.1

theorem dblK_sound {α : Type} {x y : ℕ} {A : Point} (hA : Rep (some (x, y)) A) {k : ℕ → ℕ → Option α} {r : α}
    (h : dblK x y k = some r) : ∃ x₃ y₃, Rep (some (x₃, y₃)) (A + A) ∧ k x₃ y₃ = some r := by
  have hadd := rep_add hA hA
  unfold dblK at h
  dsimp only [addPt] at hadd
  have hxx : eq x x = true := (eq_iff x x).2 rfl
  cases hy : eq (Nat.add y y) 0 with
  | true => rw [hy, cond_true] at h; exact absurd h (by simp)
  | false =>
    rw [hy, cond_false, force_eq] at h
    rw [hxx, cond_true, hy, cond_false, force_eq] at hadd
    obtain ⟨x₃, y₃, e1, e2⟩ := addWithK_eq (mul (Nat.add (Nat.mul 3 (mul x x)) 0) (inv (Nat.mul 2 y))) x y x k
    rw [e1] at hadd
    rw [e2] at h
    exact ⟨x₃, y₃, hadd, h⟩

/-! ### Multiples -/

/-- Double and add, from the highest of `fuel` bits of `n`. -/
noncomputable def mulAuxK (x y n fuel : ℕ) : ℕ → ℕ → Option (ℕ × ℕ) :=
  Nat.rec (motive := fun _ => ℕ → ℕ → Option (ℕ × ℕ)) (fun a b => some (a, b))
    (fun i ih a b =>
      dblK a b fun a b => bif Nat.testBit n i then addK a b x y fun a b => ih a b else ih a b) fuel

/-- `[n] (x, y)` for a number `n` whose highest bit is bit `fuel`. -/
noncomputable def mulK (x y n fuel : ℕ) : Option (ℕ × ℕ) := mulAuxK x y n fuel x y

theorem mulAuxK_sound {x y : ℕ} {P : Point} (hP : Rep (some (x, y)) P) (n fuel : ℕ) : ∀ (a b k : ℕ) (r : ℕ × ℕ),
    Rep (some (a, b)) (k • P) → mulAuxK x y n fuel a b = some r →
    Rep (some r) ((2 ^ fuel * k + n % 2 ^ fuel) • P) := by
  induction fuel with
  | zero =>
    intro a b k r hk h
    have h' : some (a, b) = some r := h
    rw [← h', pow_zero, one_mul, Nat.mod_one, add_zero]
    exact hk
  | succ i ih =>
    intro a b k r hk h
    have e : mulAuxK x y n (i + 1) a b = dblK a b fun a b => bif Nat.testBit n i then
      addK a b x y fun a b => mulAuxK x y n i a b else mulAuxK x y n i a b := rfl
    rw [e] at h
    obtain ⟨c, d, hd, h⟩ := dblK_sound hk h
    rw [← add_nsmul, ← two_mul] at hd
    have hm : n % 2 ^ (i + 1) = (if n.testBit i then 2 ^ i else 0) + n % 2 ^ i := by
      rw [Nat.mod_pow_succ, add_comm, ← Nat.toNat_testBit]
      cases n.testBit i <;> simp
    rw [hm]
    cases hb : n.testBit i with
    | true =>
      rw [hb, cond_true] at h
      rw [if_pos rfl]
      obtain ⟨a', b', ha, h, -⟩ := addK_sound hd hP h
      have := ih a' b' (2 * k + 1) r (by rw [add_nsmul, one_nsmul]; exact ha) h
      rw [show 2 ^ (i + 1) * k + (2 ^ i + n % 2 ^ i) = 2 ^ i * (2 * k + 1) + n % 2 ^ i by rw [pow_succ]; ring]
      exact this
    | false =>
      rw [hb, cond_false] at h
      rw [if_neg (by simp)]
      have := ih c d (2 * k) r hd h
      rw [show 2 ^ (i + 1) * k + (0 + n % 2 ^ i) = 2 ^ i * (2 * k) + n % 2 ^ i by rw [pow_succ]; ring]
      exact this

theorem mulK_sound {x y n fuel : ℕ} {P : Point} (hP : Rep (some (x, y)) P) (h1 : 2 ^ fuel ≤ n)
    (h2 : n < 2 ^ (fuel + 1)) {r : ℕ × ℕ} (h : mulK x y n fuel = some r) : Rep (some r) ((n : Fq) • P) := by
  have := mulAuxK_sound hP n fuel x y 1 r (by rw [one_nsmul]; exact hP) h
  rw [natCast_smul]
  rw [show 2 ^ fuel * 1 + n % 2 ^ fuel = n by
    rw [Nat.mod_eq_sub_mod h1, Nat.mod_eq_of_lt (by rw [pow_succ] at h2; omega)]; omega] at this
  exact this

end Orchard.Compute
