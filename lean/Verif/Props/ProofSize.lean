import Verif.Model.ProofSize
import Mathlib.RingTheory.RootsOfUnity.PrimitiveRoots

/-!
# Property C105: sizes of proofs
-/

namespace Orchard

open Pinned

theorem Pinned.degree_eq : degree = 9 := by decide +kernel

theorem Pinned.permutationSets_eq : permutationSets = 3 := by
  unfold permutationSets
  rw [degree_eq]
  rfl

theorem mem_pointsOf {F : Type} [DecidableEq F] {qs : List (F × ℤ)} {f : F} {r : ℤ} :
    r ∈ pointsOf qs f ↔ (f, r) ∈ qs := by
  unfold pointsOf
  simp only [List.mem_toFinset, List.mem_map, List.mem_filter, decide_eq_true_eq]
  constructor
  · rintro ⟨⟨_, _⟩, ⟨h, rfl⟩, rfl⟩; exact h
  · intro h; exact ⟨(f, r), ⟨h, rfl⟩, rfl⟩

theorem mem_openings_circuit {n i : ℕ} {f : CircuitPoly} {r : ℤ} :
    (Poly.circuit i f, r) ∈ openings n ↔ i < n ∧ (f, r) ∈ circuitOpenings := by
  unfold openings
  simp only [List.mem_append, List.mem_flatMap, List.mem_range, List.mem_map, Prod.mk.injEq,
    Poly.circuit.injEq, reduceCtorEq, false_and, and_false, exists_false, or_false]
  constructor
  · rintro ⟨_, h, ⟨_, _⟩, h', ⟨rfl, rfl⟩, rfl⟩; exact ⟨h, h'⟩
  · rintro ⟨h, h'⟩; exact ⟨i, h, (f, r), h', ⟨rfl, rfl⟩, rfl⟩

theorem mem_openings_common {n : ℕ} {f : CommonPoly} {r : ℤ} :
    (Poly.common f, r) ∈ openings n ↔ (f, r) ∈ commonOpenings := by
  unfold openings
  simp only [List.mem_append, List.mem_flatMap, List.mem_range, List.mem_map, Prod.mk.injEq,
    Poly.common.injEq, reduceCtorEq, false_and, and_false, exists_false, false_or]
  constructor
  · rintro ⟨⟨_, _⟩, h', rfl, rfl⟩; exact h'
  · intro h; exact ⟨(f, r), h, rfl, rfl⟩

theorem pointSets_openings {n : ℕ} (hn : 0 < n) :
    pointSets (openings n) = pointSets circuitOpenings ∪ pointSets commonOpenings := by
  have h1 : ∀ i < n, ∀ f, pointsOf (openings n) (.circuit i f) = pointsOf circuitOpenings f := by
    intro i hi f
    ext r
    rw [mem_pointsOf, mem_pointsOf, mem_openings_circuit]
    simp [hi]
  have h2 : ∀ f, pointsOf (openings n) (.common f) = pointsOf commonOpenings f := by
    intro f
    ext r
    rw [mem_pointsOf, mem_pointsOf, mem_openings_common]
  ext s
  unfold pointSets
  simp only [Finset.mem_union, List.mem_toFinset, List.mem_map]
  constructor
  · rintro ⟨⟨f, r⟩, h, rfl⟩
    cases f with
    | circuit i f =>
      rw [mem_openings_circuit] at h
      exact Or.inl ⟨(f, r), h.2, (h1 i h.1 f).symm⟩
    | common f => exact Or.inr ⟨(f, r), mem_openings_common.1 h, (h2 f).symm⟩
  · rintro (⟨⟨f, r⟩, h, rfl⟩ | ⟨⟨f, r⟩, h, rfl⟩)
    · exact ⟨(.circuit 0 f, r), mem_openings_circuit.2 ⟨hn, h⟩, h1 0 hn f⟩
    · exact ⟨(.common f, r), mem_openings_common.2 h, h2 f⟩

theorem Pinned.lastRotation_eq : lastRotation = -6 := by decide +kernel

/-- **C105** (openings). Whatever the number of circuits, the polynomials of a proof are opened at five different
sets of points: the challenge alone, with its successor, with its predecessor, with both, and with its successor
and the last usable row. -/
theorem C105_point_sets (n : ℕ) (hn : 0 < n) :
    pointSets (openings n) = {{0}, {0, 1}, {-1, 0}, {-1, 0, 1}, {-6, 0, 1}} := by
  rw [pointSets_openings hn]
  unfold circuitOpenings
  rw [permutationSets_eq, lastRotation_eq]
  decide +kernel

theorem card_pointSets {n : ℕ} (hn : 0 < n) : (pointSets (openings n)).card = 5 := by
  rw [C105_point_sets n hn]
  decide +kernel

theorem sum_const {n c : ℕ} : ((List.range n).map fun _ => c).sum = n * c := by simp

/-- **C105** (size). A proof for `n > 0` actions has `2720 + 2272 n` bytes. -/
theorem C105_size (n : ℕ) (hn : 0 < n) : proofSize n = 2720 + 2272 * n := by
  unfold proofSize writtenProof writtenMultiopen writtenIpa
  rw [permutationSets_eq, degree_eq]
  simp only [List.length_append, List.length_flatMap, List.length_replicate, List.length_map,
    List.length_cons, List.length_nil, card_pointSets hn, sum_const]
  have e1 : lookups.length = 3 := rfl
  have e2 : (lookups.map fun _ => 0 + 1 + 1).sum = 6 := rfl
  have e3 : (lookups.map fun _ => 5).sum = 15 := rfl
  have e4 : ((List.range 3).map fun s => (if s + 1 < 3 then [Written.scalar, .scalar, .scalar] else
    [.scalar, .scalar]).length).sum = 8 := rfl
  have e5 : adviceQueries.length = 25 := rfl
  have e6 : fixedQueries.length = 29 := rfl
  have e7 : permutation.length = 15 := rfl
  have e8 : instanceQueries.length = 1 := rfl
  have e9 : numAdviceColumns = 10 := rfl
  have e10 : rowsLog = 11 := rfl
  rw [e1, e2, e3, e4, e5, e6, e7, e8, e9, e10]
  ring

/-- **C105** (the numbers in the test). -/
theorem C105_test : proofSize 1 = 4992 ∧ proofSize 2 = 7264 :=
  ⟨C105_size 1 (by norm_num), C105_size 2 (by norm_num)⟩

/-- **C105** (unambiguous). The size of a proof determines the number of actions. -/
theorem C105_unambiguous (m n : ℕ) (hm : 0 < m) (hn : 0 < n) (h : proofSize m = proofSize n) : m = n := by
  rw [C105_size m hm, C105_size n hn] at h
  omega

/-- The advice column, if it is one. -/
def adviceOf : AnyColumn → Option ℕ
  | .advice c => some c
  | _ => none

/-- The fixed column, if it is one. -/
def fixedOf : AnyColumn → Option ℕ
  | .fixed c => some c
  | _ => none

/-- The instance column, if it is one. -/
def instanceOf : AnyColumn → Option ℕ
  | .instance c => some c
  | _ => none

/-- Columns of one kind in the permutation argument, at rotation 0. -/
def columnQueries (g : AnyColumn → Option ℕ) : List (ℕ × ℤ) :=
  (permutation.filterMap g).map fun c => (c, 0)

theorem mem_columnQueries {g : AnyColumn → Option ℕ} {mk : ℕ → AnyColumn}
    (h : ∀ x c, g x = some c ↔ x = mk c) (q : ℕ × ℤ) :
    q ∈ columnQueries g ↔ ∃ c, mk c ∈ permutation ∧ q = (c, 0) := by
  unfold columnQueries
  simp only [List.mem_map, List.mem_filterMap, h]
  constructor
  · rintro ⟨c, ⟨_, h1, rfl⟩, rfl⟩; exact ⟨c, h1, rfl⟩
  · rintro ⟨c, h1, rfl⟩; exact ⟨c, ⟨_, h1, rfl⟩, rfl⟩

/-- **C105** (queries). The pinned lists of queries are what gates, lookups and the permutation argument need:
no query is missing, none is superfluous, and none is listed twice. -/
theorem C105_queries :
    (∀ q, q ∈ adviceQueries ↔ (∃ g ∈ gates, q ∈ g.adviceQ) ∨
      (∃ l ∈ lookups, ∃ e ∈ l.1 ++ l.2, q ∈ e.adviceQ) ∨ ∃ c, .advice c ∈ permutation ∧ q = (c, 0)) ∧
    (∀ q, q ∈ fixedQueries ↔ (∃ g ∈ gates, q ∈ g.fixedQ) ∨
      (∃ l ∈ lookups, ∃ e ∈ l.1 ++ l.2, q ∈ e.fixedQ) ∨ ∃ c, .fixed c ∈ permutation ∧ q = (c, 0)) ∧
    (∀ q, q ∈ instanceQueries ↔ ∃ c, .instance c ∈ permutation ∧ q = (c, 0)) ∧
    adviceQueries.Nodup ∧ fixedQueries.Nodup ∧ instanceQueries.Nodup := by
  have a1 : ∀ q ∈ adviceQueries, q ∈ gates.flatMap Expr.adviceQ ++
      lookups.flatMap (fun l => (l.1 ++ l.2).flatMap Expr.adviceQ) ++ columnQueries adviceOf := by
    decide +kernel
  have a2 : ∀ q ∈ gates.flatMap Expr.adviceQ ++
      lookups.flatMap (fun l => (l.1 ++ l.2).flatMap Expr.adviceQ) ++ columnQueries adviceOf,
      q ∈ adviceQueries := by
    decide +kernel
  have f1 : ∀ q ∈ fixedQueries, q ∈ gates.flatMap Expr.fixedQ ++
      lookups.flatMap (fun l => (l.1 ++ l.2).flatMap Expr.fixedQ) ++ columnQueries fixedOf := by
    decide +kernel
  have f2 : ∀ q ∈ gates.flatMap Expr.fixedQ ++
      lookups.flatMap (fun l => (l.1 ++ l.2).flatMap Expr.fixedQ) ++ columnQueries fixedOf,
      q ∈ fixedQueries := by
    decide +kernel
  have i1 : ∀ q ∈ instanceQueries, q ∈ columnQueries instanceOf := by decide +kernel
  have i2 : ∀ q ∈ columnQueries instanceOf, q ∈ instanceQueries := by decide +kernel
  have ca : ∀ q, q ∈ columnQueries adviceOf ↔ ∃ c, .advice c ∈ permutation ∧ q = (c, 0) :=
    mem_columnQueries fun x c => by cases x <;> simp [adviceOf]
  have cf : ∀ q, q ∈ columnQueries fixedOf ↔ ∃ c, .fixed c ∈ permutation ∧ q = (c, 0) :=
    mem_columnQueries fun x c => by cases x <;> simp [fixedOf]
  have ci : ∀ q, q ∈ columnQueries instanceOf ↔ ∃ c, .instance c ∈ permutation ∧ q = (c, 0) :=
    mem_columnQueries fun x c => by cases x <;> simp [instanceOf]
  refine ⟨fun q => ?_, fun q => ?_, fun q => ?_, by decide +kernel, by decide +kernel, by decide +kernel⟩
  · rw [← ca]
    have h : q ∈ adviceQueries ↔ _ := ⟨a1 q, a2 q⟩
    rw [h]
    simp only [List.mem_append, List.mem_flatMap, or_assoc]
  · rw [← cf]
    have h : q ∈ fixedQueries ↔ _ := ⟨f1 q, f2 q⟩
    rw [h]
    simp only [List.mem_append, List.mem_flatMap, or_assoc]
  · rw [← ci]
    exact ⟨i1 q, i2 q⟩

/-- **C105** (lookups). The constraint on the product of a lookup, `(1 - l) (z' a' s' - z (a + β) (t + γ))`, has degree two
more than input and table expressions together; this is within the degree that the lookup asks for, and within that of
the constraint system. -/
theorem C105_lookups : ∀ l ∈ lookups, (∀ e ∈ l.1, ∀ t ∈ l.2, 2 + e.degree + t.degree ≤ lookupDegree l) ∧
    lookupDegree l ≤ degree := by
  rw [degree_eq]
  decide +kernel

/-- **C105** (domain). The pinned fields are those of Pallas and Vesta; the domain has as many elements as the
circuit has rows, generated by the pinned root of unity; the extended one is the least with room for a
quotient of the gates' degree. -/
theorem C105_domain : scalarModulus = p ∧ baseModulus = q ∧
    IsPrimitiveRoot (rootOfUnity : Fp) (2 ^ rowsLog) ∧
    degree = 9 ∧ (∀ g ∈ gates, g.degree ≤ degree) ∧ (∃ g ∈ gates, g.degree = degree) ∧
    pinnedExtendedK = extendedK ∧ 2 ^ rowsLog * (degree - 1) ≤ 2 ^ pinnedExtendedK ∧
    ∀ e, 2 ^ rowsLog * (degree - 1) ≤ 2 ^ e → pinnedExtendedK ≤ e := by
  refine ⟨rfl, rfl, ?_, degree_eq, ?_, ?_, ?_, ?_, ?_⟩
  · have h := orderOf_eq_prime_pow (p := 2) (n := 10) (x := (rootOfUnity : Fp)) (by decide +kernel)
      (by decide +kernel)
    change IsPrimitiveRoot _ (2 ^ (10 + 1))
    rw [← h]
    exact IsPrimitiveRoot.orderOf _
  · rw [degree_eq]
    decide +kernel
  · rw [degree_eq]
    decide +kernel
  · unfold extendedK
    rw [degree_eq]
    decide +kernel
  · rw [degree_eq]
    decide +kernel
  · intro e h
    rw [degree_eq] at h
    have h' : 2 ^ 14 ≤ 2 ^ e := h
    exact (Nat.pow_le_pow_iff_right (by norm_num)).1 h'

/-- Ten actions. Without any circuit the formula does not hold: all that is left is opened at one point. -/
example : proofSize 10 = 25440 ∧ proofSize 0 = 2592 := by
  refine ⟨C105_size 10 (by norm_num), ?_⟩
  have h : (pointSets (openings 0)).card = 1 := by decide +kernel
  unfold proofSize writtenProof writtenMultiopen
  rw [permutationSets_eq, degree_eq, h]
  decide +kernel

end Orchard
