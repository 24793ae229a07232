import Verif.Lemmas.Pinned
import Verif.Spec.Pinned

/-!
# Lemmas on the pinned constraint system: selectors and rows
-/

namespace Orchard.Pinned

open Halo2 Layout

theorem lookups_eval (r : Row) :
    lookups.map (fun l => (l.1.map (Expr.eval r), l.2.map (Expr.eval r))) = circuitLookups r := by
  simp only [lookups, circuitLookups, rangeLookup, sinsemillaLookup, List.map_cons, List.map_nil, Expr.eval,
    List.cons.injEq, and_true, Prod.mk.injEq, HashRow.yP, HashRow.twiceYA, HashRow.xR, hashRow,
    sinsemillaWord, qS3, Nat.cast_ofNat, half_eq, Row.cur, Row.next, Nat.cast_one, Nat.reduceAdd]
  refine ⟨by ring1, ⟨by ring1, by ring1, by ring1⟩, by ring1, by ring1, by ring1⟩

theorem eval_eq_zero (c : SelectorCode) (q : Fp) :
    c.eval q = 0 ↔ q = 0 ∨ ∃ j : ℕ, 1 ≤ j ∧ j ≤ c.size ∧ j ≠ c.index ∧ q = j := by
  unfold SelectorCode.eval
  rw [mul_eq_zero, List.prod_eq_zero_iff, List.mem_map]
  refine or_congr Iff.rfl (exists_congr fun j => ?_)
  rw [List.mem_filter, List.mem_range'_1, sub_eq_zero, decide_eq_true_eq]
  constructor
  · rintro ⟨⟨⟨h1, h2⟩, h3⟩, h4⟩
    exact ⟨h1, by omega, h3, h4.symm⟩
  · rintro ⟨h1, h2, h3, h4⟩
    exact ⟨⟨⟨h1, by omega⟩, h3⟩, h4.symm⟩

theorem forall_circuitPolys (r : Row) : (∀ g ∈ gates, g.eval r = 0) ↔
    ∀ g ∈ gateCodes.zip (circuitGates r), g.1.eval (r.fixed g.1.column 0) = 0 ∨ Gate g.2 := by
  have h : (∀ g ∈ gates, g.eval r = 0) ↔ ∀ x ∈ gates.map (Expr.eval r), x = 0 := by
    rw [List.forall_mem_map]
  rw [h, gates_eval]
  unfold circuitPolys
  constructor
  · intro hx g hg
    by_cases h0 : g.1.eval (r.fixed g.1.column 0) = 0
    · exact Or.inl h0
    · refine Or.inr fun e he => ?_
      have := hx _ (List.mem_flatMap.2 ⟨g, hg, List.mem_map.2 ⟨e, he, rfl⟩⟩)
      exact (mul_eq_zero.1 this).resolve_left h0
  · intro hx x hm
    obtain ⟨g, hg, hm⟩ := List.mem_flatMap.1 hm
    obtain ⟨e, he, rfl⟩ := List.mem_map.1 hm
    rcases hx g hg with h0 | h1
    · rw [h0, zero_mul]
    · rw [h1 e he, mul_zero]

theorem codes_ok : gateCodes.Nodup ∧ (gateCodes.map fun c => (c.column, c.index)).Nodup ∧
    (∀ c ∈ gateCodes, 1 ≤ c.index ∧ c.index ≤ c.size ∧ c.column < numFixedColumns ∧ c.size ≤ 7) ∧
    ∀ c ∈ gateCodes, ∀ c' ∈ gateCodes, c.column = c'.column → c.size = c'.size := by
  decide +kernel

theorem cast_inj_small {m n : ℕ} (hm : m < 8) (hn : n < 8) (h : (m : Fp) = n) : m = n := by
  have hp : 8 < p := by decide +kernel
  have := congrArg ZMod.val h
  rwa [ZMod.val_natCast_of_lt (by omega), ZMod.val_natCast_of_lt (by omega)] at this

theorem eval_eq_zero_iff {c : SelectorCode} (hc : c ∈ gateCodes) {q : ℕ} (hq : q ≤ c.size) :
    c.eval (q : Fp) = 0 ↔ (q : Fp) ≠ c.index := by
  obtain ⟨h1, h2, _, h7⟩ := codes_ok.2.2.1 c hc
  rw [eval_eq_zero]
  constructor
  · rintro (h | ⟨j, h3, h4, h5, h⟩) he
    · have h' : (q : Fp) = ((0 : ℕ) : Fp) := by rw [h, Nat.cast_zero]
      have e0 := cast_inj_small (by omega) (by omega) h'
      have e1 := cast_inj_small (by omega) (by omega) he
      omega
    · have e0 := cast_inj_small (by omega) (by omega) h
      have e1 := cast_inj_small (by omega) (by omega) he
      omega
  · intro h
    by_cases h0 : q = 0
    · exact Or.inl (by rw [h0, Nat.cast_zero])
    · exact Or.inr ⟨q, by omega, hq, fun e => h (by rw [e]), rfl⟩

theorem crateGates_fst : configured.2.gates.map Prod.fst = List.range 25 := by
  eval_configured
  rfl

theorem crateGates_length (r : Row) : (crateGates r).length = 25 := by
  have := congrArg List.length crateGates_fst
  rw [List.length_map, List.length_range] at this
  rw [crateGates, List.length_map, this]

theorem zip_crate (r : Row) : ∃ mid, gateCodes.zip (circuitGates r) =
    (crateCodes.take 2).zip ((crateGates r).take 2) ++ mid ++
      (crateCodes.drop 2).zip ((crateGates r).drop 2) := by
  have hA : (crateCodes.take 2).length = ((crateGates r).take 2).length := by
    rw [List.length_take, List.length_take, crateGates_length]; rfl
  have h1 : eccCodes.length = (eccGates r).length := rfl
  have h2 : poseidonCodes.length = (poseidonGates r).length := rfl
  have h3 : hash1Codes.length = (sinsemillaGates r 0 0 12).length := rfl
  have h4 : hash2Codes.length = (sinsemillaGates r 5 1 13).length := rfl
  refine ⟨eccCodes.zip (eccGates r) ++ poseidonCodes.zip (poseidonGates r) ++
    hash1Codes.zip (sinsemillaGates r 0 0 12) ++ hash2Codes.zip (sinsemillaGates r 5 1 13), ?_⟩
  rw [gateCodes, circuitGates, List.zip_append, List.zip_append, List.zip_append, List.zip_append,
    List.zip_append]
  · simp only [List.append_assoc]
  all_goals simp only [List.length_append, hA, h1, h2, h3, h4]

theorem mem_zip_crate (r : Row) {s : ℕ} {c : SelectorCode} {ps : List Fp} (hc : crateCodes[s]? = some c)
    (hp : (crateGates r)[s]? = some ps) : (c, ps) ∈ gateCodes.zip (circuitGates r) := by
  obtain ⟨mid, h⟩ := zip_crate r
  have hz : (crateCodes.zip (crateGates r))[s]? = some (c, ps) := by
    rw [List.getElem?_zip_eq_some]
    exact ⟨hc, hp⟩
  have hm := List.mem_of_getElem? hz
  have e : crateCodes.zip (crateGates r) = (crateCodes.take 2).zip ((crateGates r).take 2) ++
      (crateCodes.drop 2).zip ((crateGates r).drop 2) := by
    rw [← List.zip_append, List.take_append_drop, List.take_append_drop]
    rw [List.length_take, List.length_take, crateGates_length]; rfl
  rw [e, List.mem_append] at hm
  rw [h]
  simp only [List.mem_append]
  rcases hm with hm | hm
  · exact Or.inl (Or.inl hm)
  · exact Or.inr hm

theorem gatesOf_mem {cs : ConstraintSystem} {n s : ℕ} (hn : cs.gates.map Prod.fst = List.range n)
    {polys : Query → List Fp} (h : polys ∈ cs.gatesOf s) : cs.gates[s]? = some (s, polys) := by
  unfold ConstraintSystem.gatesOf at h
  obtain ⟨g, hg, rfl⟩ := List.mem_map.1 h
  obtain ⟨hg, hs⟩ := List.mem_filter.1 hg
  have hs := eq_of_beq hs
  obtain ⟨j, hj⟩ := List.mem_iff_getElem?.1 hg
  have h2 : (cs.gates.map Prod.fst)[j]? = some g.1 := by rw [List.getElem?_map, hj]; rfl
  rw [hn] at h2
  have h3 : j = g.1 := by
    have := (List.getElem?_eq_some_iff.1 h2).1
    rw [List.length_range] at this
    rw [List.getElem?_range this] at h2
    exact Option.some.inj h2
  rw [← hs, ← h3, hj, h3]

theorem gatesOf_get {cs : ConstraintSystem} {n s : ℕ} (hn : cs.gates.map Prod.fst = List.range n)
    {g : Selector × (Query → List Fp)} (hg : cs.gates[s]? = some g) : g.2 ∈ cs.gatesOf s := by
  have h2 : (cs.gates.map Prod.fst)[s]? = some g.1 := by rw [List.getElem?_map, hg]; rfl
  rw [hn] at h2
  have := (List.getElem?_eq_some_iff.1 h2).1
  rw [List.length_range] at this
  rw [List.getElem?_range this] at h2
  unfold ConstraintSystem.gatesOf
  refine List.mem_map.2 ⟨g, List.mem_filter.2 ⟨List.mem_of_getElem? hg, ?_⟩, rfl⟩
  rw [Option.some.inj h2]
  exact beq_self_eq_true g.1

theorem rowAt_query (T : Table) (F : Spec.FixedTable) {row : ℕ} (h : row + 1 < Spec.numRows) :
    (Spec.rowAt T F row).query = fun c rot => T (c, row + rot.rows) := by
  funext c rot
  have h0 : (((row : ℤ) + ((0 : ℕ) : ℤ)) % (Spec.numRows : ℤ)).toNat = row + 0 := by
    rw [Int.emod_eq_of_lt] <;> omega
  have h1 : (((row : ℤ) + ((1 : ℕ) : ℤ)) % (Spec.numRows : ℤ)).toNat = row + 1 := by
    rw [Int.emod_eq_of_lt] <;> omega
  cases rot
  · exact congrArg (fun x => T (c, x)) h0
  · exact congrArg (fun x => T (c, x)) h1

theorem rowAt_fixed (T : Table) (F : Spec.FixedTable) {row : ℕ} (h : row < Spec.numRows) (c : ℕ) :
    (Spec.rowAt T F row).fixed c 0 = F c row := by
  have h0 : (((row : ℤ) + 0) % (Spec.numRows : ℤ)).toNat = row := by
    rw [Int.emod_eq_of_lt] <;> omega
  exact congrArg (F c) h0

/-- An entry of a list of pairs is determined by its key if the keys are distinct. -/
theorem zip_unique {α β : Type} {k : List α} {v : List β} (hk : k.Nodup) {c : α} {p p' : β}
    (h : (c, p) ∈ k.zip v) (h' : (c, p') ∈ k.zip v) : p = p' := by
  obtain ⟨i, hi⟩ := List.mem_iff_getElem?.1 h
  obtain ⟨j, hj⟩ := List.mem_iff_getElem?.1 h'
  rw [List.getElem?_zip_eq_some] at hi hj
  have : i = j := (List.getElem?_inj (List.getElem?_eq_some_iff.1 hi.1).1 hk).1 (hi.1.trans hj.1.symm)
  subst this
  exact Option.some.inj (hi.2.symm.trans hj.2)

end Orchard.Pinned
