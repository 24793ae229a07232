import Verif.Model.Arrays

/-!
# C60: the arrays from which bits are made
-/

namespace Orchard

theorem genConstArray_loop {m : Type → Type} [Monad m] [LawfulMonad m] {A : Type} (d : A) (f : ℕ → m A) (n : ℕ) :
    ∀ done : List A, (List.range' done.length n).foldlM (fun ret i => do
        let val ← f i
        pure (ret.set i val)) (done ++ List.replicate n d) =
      (List.range' done.length n).mapM f >>= fun l => pure (done ++ l) := by
  induction n with
  | zero => intro done; simp
  | succ n ih =>
    intro done
    have key : ∀ val : A, (done ++ List.replicate (n + 1) d).set done.length val =
        (done ++ [val]) ++ List.replicate n d := by
      intro val
      rw [List.set_append_right _ _ le_rfl, List.replicate_succ]
      simp
    rw [List.range'_succ, List.foldlM_cons, List.mapM_cons]
    simp only [bind_assoc, pure_bind]
    congr 1
    funext val
    rw [key]
    have := ih (done ++ [val])
    rw [List.length_append, List.length_singleton] at this
    rw [this]
    congr 1
    funext l
    simp

/-- **C60** (arrays). The closure is called once for each of the positions `0, 1, …`, in this order, whatever its effects
are, and the array consists of what it returned; the default value does not appear. -/
theorem C60_const_array {m : Type → Type} [Monad m] [LawfulMonad m] {A : Type} [Inhabited A] (n : ℕ) (d : A)
    (f : ℕ → m A) :
    genConstArrayWithDefault n d f = (List.range n).mapM f ∧ genConstArray n f = (List.range n).mapM f := by
  have h : ∀ d : A, genConstArrayWithDefault n d f = (List.range n).mapM f := by
    intro d
    have := genConstArray_loop d f n []
    simp only [List.length_nil, List.nil_append, bind_pure] at this
    rw [← List.range_eq_range'] at this
    exact this
  exact ⟨h d, h _⟩

/-- **C60** (bits). `i2lebsp` with the loop of the code: the bits of the integer, from the least significant. -/
theorem C60_bits (n : ℕ) (int : UInt64) (hn : n ≤ 64) :
    i2lebsp n int = .ret (Id.run (genConstArray n fun mask =>
      pure ((int &&& ((1 : UInt64) <<< (UInt64.ofNat mask))) != 0))) ∧
    Id.run (genConstArray n fun mask => pure ((int &&& ((1 : UInt64) <<< (UInt64.ofNat mask))) != 0)) =
      (List.range n).map int.toNat.testBit := by
  have h : Id.run (genConstArray n fun mask => pure ((int &&& ((1 : UInt64) <<< (UInt64.ofNat mask))) != 0)) =
      (List.range n).map fun mask => (int &&& ((1 : UInt64) <<< (UInt64.ofNat mask))) != 0 := by
    rw [(C60_const_array n default _).2]
    generalize List.range n = l
    induction l with
    | nil => rfl
    | cons a l ih =>
      rw [List.mapM_cons]
      simp
  rw [h]
  refine ⟨?_, ?_⟩
  · unfold i2lebsp
    simp [hn]
  · refine List.map_congr_left fun i hi => ?_
    have hi : i < 64 := by have := List.mem_range.1 hi; omega
    have h1 : ((1 : UInt64) <<< (UInt64.ofNat i)).toNat = 2 ^ i := by
      rw [UInt64.toNat_shiftLeft, UInt64.toNat_ofNat_of_lt' (by norm_num [UInt64.size]; omega), Nat.mod_eq_of_lt hi]
      simp only [UInt64.toNat_one, Nat.shiftLeft_eq, one_mul]
      exact Nat.mod_eq_of_lt (Nat.pow_lt_pow_right (by norm_num) hi)
    rw [Bool.eq_iff_iff, bne_iff_ne, ne_eq, ← UInt64.toNat_inj, UInt64.toNat_and, h1, UInt64.toNat_zero]
    constructor
    · intro h2
      by_contra h3
      refine h2 (Nat.eq_of_testBit_eq fun j => ?_)
      rw [Nat.testBit_and, Nat.zero_testBit, Nat.testBit_two_pow]
      by_cases hj : i = j
      · subst hj; simpa using h3
      · simp [hj]
    · intro h2 h3
      have h4 : (int.toNat &&& 2 ^ i).testBit i = true := by
        rw [Nat.testBit_and, h2, Nat.testBit_two_pow_self]; rfl
      rw [h3, Nat.zero_testBit] at h4
      cases h4

/-- Five in four bits; a closure that counts its calls. -/
example : Id.run (genConstArray 4 fun mask => pure ((5 &&& ((1 : UInt64) <<< (UInt64.ofNat mask))) != 0)) =
    [true, false, true, false] ∧
    (genConstArray (m := StateM ℕ) 3 fun i => do modify (· + 1); pure (10 * i + (← get))).run 0 = ([1, 12, 23], 3) :=
  ⟨by decide +kernel, rfl⟩

end Orchard
