import Verif.Lemmas.Value

/-!
# C01–C04: values, value sums, value commitments
-/

namespace Orchard

/-- Specification: an integer a `ValueSum` may hold. -/
def ValueInRange (z : ℤ) : Prop := -(2 ^ 64 - 1) ≤ z ∧ z ≤ 2 ^ 64 - 1

/-- **C01** (subtraction). `a - b` never panics and is the exact signed difference, which is in
range. -/
theorem C01_sub_exact (a b : NoteValue) :
    ∃ s, a.sub b = some s ∧ s.inner = (a.inner.toNat : ℤ) - (b.inner.toNat : ℤ) ∧
      ValueInRange s.inner := by
  refine ⟨_, NoteValue.sub_eq a b, rfl, ?_⟩
  have h1 := u64_lt a.inner
  have h2 := u64_lt b.inner
  constructor <;> simp only <;> omega

/-- Extreme case of `C01_sub_exact`: `0 - u64::MAX`. -/
example : NoteValue.sub ⟨0⟩ ⟨18446744073709551615⟩ = some ⟨-18446744073709551615⟩ := by
  decide +kernel

/-- **C01** (addition). `a + b` is the exact sum when that is in range and `None` otherwise. -/
theorem C01_add_exact (a b : ValueSum) :
    (ValueInRange (a.inner + b.inner) → a.add b = some ⟨a.inner + b.inner⟩) ∧
    (¬ ValueInRange (a.inner + b.inner) → a.add b = none) := by
  rw [ValueSum.add_eq]
  exact ⟨fun h => if_pos h, fun h => if_neg h⟩

/-- Both branches of `C01_add_exact` occur. -/
example : ValueSum.add ⟨18446744073709551614⟩ ⟨1⟩ = some ⟨18446744073709551615⟩ ∧
    ValueSum.add ⟨18446744073709551615⟩ ⟨1⟩ = none := by
  constructor <;> decide +kernel

/-- **C01** (sums). A sum over a list is the exact total if every partial sum is in range, and the
overflow error if some partial sum is not. -/
theorem C01_sum_exact (l : List ValueSum) :
    ((∀ k ≤ l.length, ValueInRange ((l.take k).map ValueSum.inner).sum) →
      ValueSum.sum l = .ok ⟨(l.map ValueSum.inner).sum⟩) ∧
    ((∃ k ≤ l.length, ¬ ValueInRange ((l.take k).map ValueSum.inner).sum) →
      ValueSum.sum l = .error .overflow) := by
  have key : PartialsOk 0 (l.map ValueSum.inner) ↔
      ∀ k ≤ l.length, ValueInRange ((l.take k).map ValueSum.inner).sum := by
    unfold PartialsOk ValueInRange
    simp only [List.length_map, zero_add, List.map_take]
    constructor
    · intro h k hk
      rcases Nat.eq_zero_or_pos k with rfl | hpos
      · simp
      · exact h k hk hpos
    · intro h k hk _
      exact h k hk
  constructor
  · intro h
    exact (ValueSum.sum_ok_iff l ⟨_⟩).2 ⟨key.2 h, rfl⟩
  · rintro ⟨k, hk, h⟩
    exact (ValueSum.sum_error_iff l).2 (fun hp => h (key.1 hp k hk))

/-- A returned sum is always the exact total. -/
theorem C01_sum_sound (l : List ValueSum) (s : ValueSum) (h : ValueSum.sum l = .ok s) :
    s.inner = (l.map ValueSum.inner).sum := ((ValueSum.sum_ok_iff l s).1 h).2

/-- Both branches of `C01_sum_exact`; in the second the total itself would be in range. -/
example : ValueSum.sum [⟨2 ^ 64 - 1⟩, ⟨-1⟩, ⟨1⟩] = .ok ⟨2 ^ 64 - 1⟩ ∧
    ValueSum.sum [⟨2 ^ 64 - 1⟩, ⟨1⟩, ⟨-1⟩] = .error .overflow := by
  constructor <;> decide +kernel

/-- **C01** (conversion). `i64::try_from` succeeds exactly on values that fit and preserves them. -/
theorem C01_toI64_exact (v : ValueSum) :
    (∀ z : I64, v.toI64 = .ok z ↔ z.1 = v.inner) ∧
    (v.toI64 = .error .overflow ↔ ¬ (-(2 ^ 63) ≤ v.inner ∧ v.inner ≤ 2 ^ 63 - 1)) := by
  unfold ValueSum.toI64 I64.ofInt?
  split_ifs with h
  · refine ⟨fun z => ⟨fun hz => ?_, fun hz => ?_⟩, ?_⟩
    · simp only [Except.ok.injEq] at hz; rw [← hz]
    · simp only [Except.ok.injEq]; exact I64.ext hz.symm
    · simp only [false_iff, not_not]; constructor <;> omega
  · refine ⟨fun z => ⟨fun hz => by simp at hz, fun hz => ?_⟩, ?_⟩
    · exact absurd (hz ▸ z.2) h
    · simp only [true_iff]; intro hh; apply h; constructor <;> omega

/-- Values a program can hold in a `ValueSum`: the field is private, so these are the ones obtained
from the constructors and operators of `value.rs`. -/
inductive ValueSum.Constructible : ValueSum → Prop
  | zero : Constructible ValueSum.zero
  | fromRaw (z : I64) : Constructible (ValueSum.fromRaw z)
  | sub {a b : NoteValue} {s : ValueSum} : a.sub b = some s → Constructible s
  | add {a b s : ValueSum} : Constructible a → Constructible b → a.add b = some s → Constructible s
  | sum {l : List ValueSum} {s : ValueSum} : (∀ v ∈ l, Constructible v) → ValueSum.sum l = .ok s →
      Constructible s

/-- Every constructible value sum is in range. -/
theorem C02_constructible_inRange {s : ValueSum} (h : s.Constructible) : ValueInRange s.inner := by
  induction h with
  | zero => constructor <;> simp [ValueSum.zero]
  | fromRaw z =>
    have := z.2
    constructor <;> simp only [ValueSum.fromRaw] <;> omega
  | sub h =>
    obtain ⟨s', h', -, hr⟩ := C01_sub_exact _ _
    rw [h] at h'; cases h'; exact hr
  | add _ _ h _ _ =>
    rw [ValueSum.add_eq] at h
    split_ifs at h with hr
    · cases h; exact hr
  | @sum l s _ h _ =>
    obtain ⟨hp, hs⟩ := (ValueSum.sum_ok_iff _ _).1 h
    rcases l.eq_nil_or_concat with rfl | ⟨l', v, rfl⟩
    · simp at hs; rw [hs]; constructor <;> norm_num
    · have := hp ((l'.concat v).map ValueSum.inner).length le_rfl (by simp)
      rw [List.take_length, zero_add, ← hs] at this
      exact this

/-- Specification: the integer denoted by a sign. -/
def Sign.factor : Sign → ℤ
  | .positive => 1
  | .negative => -1

/-- **C02.** Splitting a constructible value sum never panics, `sign · magnitude` is the value, and
zero is reported as positive. -/
theorem C02_magnitude_sign (s : ValueSum) (h : s.Constructible) :
    ∃ m sg, s.magnitudeSign = some (m, sg) ∧ sg.factor * (m.toNat : ℤ) = s.inner ∧
      (s.inner = 0 → sg = .positive) := by
  obtain ⟨h1, h2⟩ := C02_constructible_inRange h
  unfold ValueSum.magnitudeSign
  split_ifs with hneg
  · obtain ⟨m, hm, hv⟩ := u64OfInt?_eq_some (z := -s.inner) (by omega) (by omega)
    refine ⟨m, .negative, ?_, ?_, fun h0 => by omega⟩
    · have : i128Check (-s.inner) = some (-s.inner) := by
        unfold i128Check; rw [if_pos]; constructor <;> omega
      rw [this]; simp [hm]
    · simp only [Sign.factor]; omega
  · obtain ⟨m, hm, hv⟩ := u64OfInt?_eq_some (z := s.inner) (by omega) (by omega)
    exact ⟨m, .positive, by rw [hm]; rfl, by simp only [Sign.factor]; omega, fun _ => rfl⟩

/-- A constructible negative extreme for `C02_magnitude_sign`. -/
example : ValueSum.Constructible ⟨-18446744073709551615⟩ ∧
    ValueSum.magnitudeSign ⟨-18446744073709551615⟩ = some (18446744073709551615, .negative) :=
  ⟨.sub (a := ⟨0⟩) (b := ⟨18446744073709551615⟩) (by decide +kernel), by decide +kernel⟩

/-- Specification (protocol spec § 5.4.8.3): the Pedersen commitment to an integer. -/
noncomputable def valueCommitSpec (v : ℤ) (r : Fq) : Point :=
  (v : Fq) • Constants.valueCommitV + r • Constants.valueCommitR

/-- **C03** (no panic, formula). Deriving a commitment to an in-range value gives the Pedersen
commitment to it. -/
theorem C03_derive (v : ValueSum) (h : ValueInRange v.inner) (r : ValueCommitTrapdoor) :
    ValueCommitment.derive v r = some ⟨valueCommitSpec v.inner r.inner⟩ :=
  ValueCommitment.derive_eq h r

/-- **C03** (homomorphism). If every value and the total are in range, then the sum of the
commitments is the commitment to the checked sum with the summed trapdoors. -/
theorem C03_homomorphic (l : List (ValueSum × ValueCommitTrapdoor)) (cs : List ValueCommitment)
    (total : ValueSum) (hl : ∀ a ∈ l, ValueInRange a.1.inner)
    (hc : l.map (fun a => ValueCommitment.derive a.1 a.2) = cs.map some)
    (ht : ValueSum.sum (l.map Prod.fst) = .ok total) :
    ValueCommitment.derive total (ValueCommitTrapdoor.sum (l.map Prod.snd)) =
      some (ValueCommitment.sum cs) := by
  have hcs : cs.map ValueCommitment.inner =
      l.map (fun a => valueCommitSpec a.1.inner a.2.inner) := by
    have h1 : l.map (fun a => ValueCommitment.derive a.1 a.2) =
        l.map (fun a => some (⟨valueCommitSpec a.1.inner a.2.inner⟩ : ValueCommitment)) :=
      List.map_congr_left (fun a ha => C03_derive _ (hl a ha) _)
    rw [h1] at hc
    have h2 : l.map (fun a => (⟨valueCommitSpec a.1.inner a.2.inner⟩ : ValueCommitment)) = cs := by
      apply List.map_injective_iff.2 (Option.some_injective ValueCommitment)
      rw [List.map_map]; exact hc
    rw [← h2, List.map_map]; rfl
  have htot := C01_sum_sound _ _ ht
  have hr : ValueInRange total.inner := by
    rcases (ValueSum.sum_ok_iff _ _).1 ht with ⟨hp, -⟩
    rcases (l.map Prod.fst).eq_nil_or_concat with hnil | ⟨l', v, hl'⟩
    · rw [hnil] at htot; simp at htot; rw [htot]; constructor <;> norm_num
    · have := hp ((l.map Prod.fst).map ValueSum.inner).length le_rfl (by rw [hl']; simp)
      rw [List.take_length, zero_add, ← htot] at this
      exact this
  rw [C03_derive _ hr]
  congr 1
  rw [show ValueCommitment.sum cs = ⟨(ValueCommitment.sum cs).inner⟩ from rfl]
  congr 1
  rw [ValueCommitment.sum_inner, hcs, htot, ValueCommitTrapdoor.sum_inner]
  clear hc ht hl hcs htot hr
  induction l with
  | nil => simp [valueCommitSpec]
  | cons a l ih =>
    simp only [List.map_cons, List.sum_cons, ← ih]
    simp only [valueCommitSpec]
    push_cast
    module

/-- Instance of `C03_homomorphic`: values `u64::MAX` and `-1`. -/
example (r₁ r₂ : ValueCommitTrapdoor) :
    ∃ c₁ c₂, ValueCommitment.derive ⟨2 ^ 64 - 1⟩ r₁ = some c₁ ∧
      ValueCommitment.derive ⟨-1⟩ r₂ = some c₂ ∧
      ValueCommitment.derive ⟨2 ^ 64 - 2⟩ (ValueCommitTrapdoor.sum [r₁, r₂]) =
        some (ValueCommitment.sum [c₁, c₂]) := by
  have h1 := C03_derive ⟨2 ^ 64 - 1⟩ ⟨by norm_num, by norm_num⟩ r₁
  have h2 := C03_derive ⟨-1⟩ ⟨by norm_num, by norm_num⟩ r₂
  refine ⟨_, _, h1, h2, ?_⟩
  refine C03_homomorphic [(⟨2 ^ 64 - 1⟩, r₁), (⟨-1⟩, r₂)] _ _ ?_ ?_ ?_
  · intro a ha
    simp only [List.mem_cons, List.not_mem_nil, or_false] at ha
    rcases ha with rfl | rfl <;> constructor <;> norm_num
  · rw [List.map_cons, List.map_cons, h1, h2]; rfl
  · rfl

/-- A discrete-logarithm relation between two points: coefficients, not both zero, of a linear
combination that vanishes. -/
def DLogRelation (a b : Fq) (A B : Point) : Prop := (a ≠ 0 ∨ b ≠ 0) ∧ a • A + b • B = 0

/-- **C04.** Suppose the net values of at most `2^190` actions, each of magnitude below `2^64`, are
committed with known trapdoors, and the sum of the commitments minus the unblinded commitment to a
claimed balance `v` is `[bsk] R` (which is what knowing a binding signing key for the validating
key means).  Then either `v` is the true total over the integers, or a discrete-logarithm relation
between the two commitment generators is exhibited. -/
theorem C04_balance_binding (l : List (ValueSum × ValueCommitTrapdoor))
    (hlen : l.length ≤ 2 ^ 190) (hl : ∀ a ∈ l, ValueInRange a.1.inner)
    (cs : List ValueCommitment)
    (hc : l.map (fun a => ValueCommitment.derive a.1 a.2) = cs.map some)
    (v : I64) (cv : ValueCommitment)
    (hv : ValueCommitment.derive (ValueSum.fromRaw v) ValueCommitTrapdoor.zero = some cv)
    (bsk : Fq)
    (hbal : ((ValueCommitment.sum cs).sub cv).inner = bsk • Constants.valueCommitR) :
    v.1 = (l.map fun a => a.1.inner).sum ∨
      DLogRelation (((l.map fun a => a.1.inner).sum - v.1 : ℤ) : Fq)
        ((l.map fun a => a.2.inner).sum - bsk) Constants.valueCommitV Constants.valueCommitR := by
  by_cases heq : v.1 = (l.map fun a => a.1.inner).sum
  · exact Or.inl heq
  right
  have hcs : cs.map ValueCommitment.inner =
      l.map (fun a => valueCommitSpec a.1.inner a.2.inner) := by
    have h1 : l.map (fun a => ValueCommitment.derive a.1 a.2) =
        l.map (fun a => some (⟨valueCommitSpec a.1.inner a.2.inner⟩ : ValueCommitment)) :=
      List.map_congr_left (fun a ha => C03_derive _ (hl a ha) _)
    rw [h1] at hc
    have h2 : l.map (fun a => (⟨valueCommitSpec a.1.inner a.2.inner⟩ : ValueCommitment)) = cs := by
      apply List.map_injective_iff.2 (Option.some_injective ValueCommitment)
      rw [List.map_map]; exact hc
    rw [← h2, List.map_map]; rfl
  have hvr : ValueInRange (ValueSum.fromRaw v).inner := C02_constructible_inRange (.fromRaw v)
  rw [C03_derive _ hvr] at hv
  cases hv
  have hsum : (l.map fun a => valueCommitSpec a.1.inner a.2.inner).sum =
      valueCommitSpec (l.map fun a => a.1.inner).sum (l.map fun a => a.2.inner).sum := by
    clear hc hl hcs hbal heq hlen
    induction l with
    | nil => simp [valueCommitSpec]
    | cons a l ih =>
      simp only [List.map_cons, List.sum_cons, ih]
      simp only [valueCommitSpec]
      push_cast
      module
  constructor
  · left
    intro h0
    rw [ZMod.intCast_zmod_eq_zero_iff_dvd] at h0
    have hb : |(l.map fun a => a.1.inner).sum| ≤ 2 ^ 190 * (2 ^ 64 - 1) := by
      have h1 : ∀ a ∈ l, |a.1.inner| ≤ 2 ^ 64 - 1 := by
        intro a ha
        obtain ⟨h3, h4⟩ := hl a ha
        rw [abs_le]; constructor <;> omega
      have h2 : |(l.map fun a => a.1.inner).sum| ≤ l.length * (2 ^ 64 - 1) := by
        clear hc hl hcs hbal heq hlen hsum h0
        induction l with
        | nil => simp
        | cons a l ih =>
          simp only [List.map_cons, List.sum_cons, List.length_cons]
          have h3 := h1 a (by simp)
          have h4 := ih (fun b hb => h1 b (by simp [hb]))
          have := abs_add_le a.1.inner (l.map fun a => a.1.inner).sum
          push_cast
          linarith
      have h3 : (l.length : ℤ) ≤ 2 ^ 190 := by exact_mod_cast hlen
      nlinarith
    have hv2 := v.2
    have hne : (l.map fun a => a.1.inner).sum - v.1 ≠ 0 := fun h => heq (by omega)
    have := Int.le_of_dvd (abs_pos.2 hne) ((dvd_abs _ _).2 h0)
    have hq : (2:ℤ) ^ 190 * (2 ^ 64 - 1) + 2 ^ 63 < (q : ℤ) := by decide +kernel
    have h5 := abs_sub (l.map fun a => a.1.inner).sum v.1
    have h6 : |v.1| ≤ 2 ^ 63 := by rw [abs_le]; constructor <;> omega
    have h7 : |(l.map fun a => a.1.inner).sum - v.1| ≤
        |(l.map fun a => a.1.inner).sum| + |v.1| := by
      simpa [sub_eq_add_neg, abs_neg] using abs_add_le (l.map fun a => a.1.inner).sum (-v.1)
    omega
  · simp only [ValueCommitment.sub, ValueCommitment.sum_inner, hcs, hsum] at hbal
    simp only [valueCommitSpec, ValueSum.fromRaw, ValueCommitTrapdoor.zero, zero_smul, add_zero]
      at hbal
    rw [sub_smul, ← hbal]
    push_cast
    module

/-- Hypotheses of `C04_balance_binding` met by an honest pair of actions: net values `5` and `-2`
with trapdoors `3` and `4`, claimed balance `3`, binding key `7`. -/
example : ∃ (cs : List ValueCommitment) (cv : ValueCommitment),
    [((⟨5⟩ : ValueSum), (⟨3⟩ : ValueCommitTrapdoor)), (⟨-2⟩, ⟨4⟩)].map
      (fun a => ValueCommitment.derive a.1 a.2) = cs.map some ∧
    ValueCommitment.derive (ValueSum.fromRaw ⟨3, by norm_num, by norm_num⟩)
      ValueCommitTrapdoor.zero = some cv ∧
    ((ValueCommitment.sum cs).sub cv).inner = (7 : Fq) • Constants.valueCommitR := by
  refine ⟨[⟨valueCommitSpec 5 3⟩, ⟨valueCommitSpec (-2) 4⟩], ⟨valueCommitSpec 3 0⟩, ?_, ?_, ?_⟩
  · rw [List.map_cons, List.map_cons, C03_derive _ ⟨by norm_num, by norm_num⟩,
      C03_derive _ ⟨by norm_num, by norm_num⟩]; rfl
  · rw [C03_derive _ ⟨by norm_num [ValueSum.fromRaw], by norm_num [ValueSum.fromRaw]⟩]; rfl
  · change (ValueCommitment.sum _).inner - _ = _
    rw [ValueCommitment.sum_inner]
    simp only [List.map_cons, List.map_nil, List.sum_cons, List.sum_nil, valueCommitSpec]
    push_cast
    module

end Orchard
