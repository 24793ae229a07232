import Verif.Lemmas.PinnedRows

/-!
# The pinned gates and lookups on a row of a table
-/

namespace Orchard.Pinned

open Halo2 Layout Spec

variable {T : Table} {F : FixedTable} {row : ℕ}

theorem rowAt_cur (h : row < numRows) (c : ℕ) : (rowAt T F row).cur c = T (c, row) := by
  have h0 : (((row : ℤ) + 0) % (Spec.numRows : ℤ)).toNat = row := by
    rw [Int.emod_eq_of_lt] <;> omega
  exact congrArg (fun x => T (c, x)) h0

theorem rowAt_next (h : row + 1 < numRows) (c : ℕ) : (rowAt T F row).next c = T (c, row + 1) := by
  have h0 : (((row : ℤ) + 1) % (Spec.numRows : ℤ)).toNat = row + 1 := by
    rw [Int.emod_eq_of_lt] <;> omega
  exact congrArg (fun x => T (c, x)) h0

theorem rowAt_prev (h : row + 1 < numRows) (c : ℕ) : (rowAt T F (row + 1)).prev c = T (c, row) := by
  have h0 : ((((row + 1 : ℕ) : ℤ) + (-1)) % (Spec.numRows : ℤ)).toNat = row := by
    rw [Int.emod_eq_of_lt] <;> omega
  exact congrArg (fun x => T (c, x)) h0

theorem gate_at (hT : GatesHold T F) (hr : row < numRows) {c : SelectorCode} {ps : List Fp}
    (hz : (c, ps) ∈ gateCodes.zip (circuitGates (rowAt T F row))) (hF : On F c row) : Gate ps := by
  have hc : c ∈ gateCodes := (List.of_mem_zip hz).1
  have h := (forall_circuitPolys _).1 (hT row hr) _ hz
  rw [rowAt_fixed T F hr] at h
  refine h.resolve_left fun h0 => ?_
  rw [On] at hF
  rw [hF] at h0
  exact (eval_eq_zero_iff hc (codes_ok.2.2.1 c hc).2.1).1 h0 rfl

theorem zip_gadgets (r : Row) : ∃ l l', gateCodes.zip (circuitGates r) =
    l ++ (eccCodes.zip (eccGates r) ++ poseidonCodes.zip (poseidonGates r) ++
      hash1Codes.zip (sinsemillaGates r 0 0 12) ++ hash2Codes.zip (sinsemillaGates r 5 1 13)) ++ l' := by
  have hA : (crateCodes.take 2).length = ((crateGates r).take 2).length := by
    rw [List.length_take, List.length_take, crateGates_length]; rfl
  have h1 : eccCodes.length = (eccGates r).length := rfl
  have h2 : poseidonCodes.length = (poseidonGates r).length := rfl
  have h3 : hash1Codes.length = (sinsemillaGates r 0 0 12).length := rfl
  have h4 : hash2Codes.length = (sinsemillaGates r 5 1 13).length := rfl
  refine ⟨(crateCodes.take 2).zip ((crateGates r).take 2),
    (crateCodes.drop 2).zip ((crateGates r).drop 2), ?_⟩
  rw [gateCodes, circuitGates, List.zip_append, List.zip_append, List.zip_append, List.zip_append,
    List.zip_append]
  · simp only [List.append_assoc]
  all_goals simp only [List.length_append, hA, h1, h2, h3, h4]

theorem ecc_at (hT : GatesHold T F) (hr : row < numRows) (i : ℕ) {c : SelectorCode} {ps : List Fp}
    (hc : eccCodes[i]? = some c) (hp : (eccGates (rowAt T F row))[i]? = some ps) (hF : On F c row) :
    Gate ps := by
  obtain ⟨l, l', h⟩ := zip_gadgets (rowAt T F row)
  refine gate_at hT hr ?_ hF
  have hm := List.mem_of_getElem? ((List.getElem?_zip_eq_some (z := (c, ps))).2 ⟨hc, hp⟩)
  rw [h]
  simp only [List.mem_append]
  exact Or.inl (Or.inr (Or.inl (Or.inl (Or.inl hm))))

theorem poseidon_at (hT : GatesHold T F) (hr : row < numRows) (i : ℕ) {c : SelectorCode} {ps : List Fp}
    (hc : poseidonCodes[i]? = some c) (hp : (poseidonGates (rowAt T F row))[i]? = some ps)
    (hF : On F c row) : Gate ps := by
  obtain ⟨l, l', h⟩ := zip_gadgets (rowAt T F row)
  refine gate_at hT hr ?_ hF
  have hm := List.mem_of_getElem? ((List.getElem?_zip_eq_some (z := (c, ps))).2 ⟨hc, hp⟩)
  rw [h]
  simp only [List.mem_append]
  exact Or.inl (Or.inr (Or.inl (Or.inl (Or.inr hm))))

theorem hash1_at (hT : GatesHold T F) (hr : row < numRows) (i : ℕ) {c : SelectorCode} {ps : List Fp}
    (hc : hash1Codes[i]? = some c) (hp : (sinsemillaGates (rowAt T F row) 0 0 12)[i]? = some ps)
    (hF : On F c row) : Gate ps := by
  obtain ⟨l, l', h⟩ := zip_gadgets (rowAt T F row)
  refine gate_at hT hr ?_ hF
  have hm := List.mem_of_getElem? ((List.getElem?_zip_eq_some (z := (c, ps))).2 ⟨hc, hp⟩)
  rw [h]
  simp only [List.mem_append]
  exact Or.inl (Or.inr (Or.inl (Or.inr hm)))

theorem hash2_at (hT : GatesHold T F) (hr : row < numRows) (i : ℕ) {c : SelectorCode} {ps : List Fp}
    (hc : hash2Codes[i]? = some c) (hp : (sinsemillaGates (rowAt T F row) 5 1 13)[i]? = some ps)
    (hF : On F c row) : Gate ps := by
  obtain ⟨l, l', h⟩ := zip_gadgets (rowAt T F row)
  refine gate_at hT hr ?_ hF
  have hm := List.mem_of_getElem? ((List.getElem?_zip_eq_some (z := (c, ps))).2 ⟨hc, hp⟩)
  rw [h]
  simp only [List.mem_append]
  exact Or.inl (Or.inr (Or.inr hm))

/-! ### Lookups -/

theorem usableRows_eq : usableRows = 2042 := by decide

theorem usable_le : usableRows ≤ numRows := by decide

theorem usable_lt (h : row < usableRows) : row < numRows := by
  rw [usableRows_eq] at h
  rw [numRows]
  omega

theorem lookup_at (hT : LookupsHold T F) (hr : row < usableRows) (i : ℕ) {a b : List Fp}
    (h : (circuitLookups (rowAt T F row))[i]? = some (a, b)) :
    ∃ row' < usableRows, (circuitLookups (rowAt T F row'))[i]? =
      some (((circuitLookups (rowAt T F row'))[i]?.getD (a, b)).1, a) := by
  rw [← lookups_eval, List.getElem?_map, Option.map_eq_some_iff] at h
  obtain ⟨l, hl, he⟩ := h
  rw [Prod.mk.injEq] at he
  obtain ⟨row', hr', h'⟩ := hT row hr l (List.mem_of_getElem? hl)
  refine ⟨row', hr', ?_⟩
  rw [← lookups_eval, List.getElem?_map, hl, Option.map_some, Option.getD_some, ← h', he.1]

theorem range_at {P : Prims} (hT : LookupsHold T F) (hL : TableLoaded P F) (hr : row < usableRows) :
    InTable (F 14 row * (F 15 row * ((rowAt T F row).cur 9 - (rowAt T F row).next 9 * 2 ^ 10) +
      (1 - F 15 row) * (rowAt T F row).cur 9)) := by
  obtain ⟨row', hr', h⟩ := lookup_at hT hr 0 rfl
  obtain ⟨j, hj, h0, -, -⟩ := hL row' hr'
  have h2 : [(rowAt T F row').fixed 0 0] = rangeLookup (rowAt T F row) :=
    congrArg Prod.snd (Option.some.inj h)
  rw [rowAt_fixed T F (usable_lt hr'), rangeLookup, rowAt_fixed T F (usable_lt hr), rowAt_fixed T F (usable_lt hr), h0] at h2
  exact ⟨j, hj, (List.cons.inj h2).1.symm⟩

/-- The Sinsemilla columns of a row of the table. -/
def tableRow (T : Table) (c row : ℕ) : HashRow :=
  ⟨T (c, row), T (c + 1, row), T (c + 2, row), T (c + 3, row), T (c + 4, row)⟩

theorem hashRow_cur (h : row < numRows) (c : ℕ) : hashRow (rowAt T F row) c 0 = tableRow T c row := by
  have e := fun c => rowAt_cur (T := T) (F := F) h c
  simp only [Row.cur] at e
  simp only [hashRow, tableRow, e]

theorem hashRow_next (h : row + 1 < numRows) (c : ℕ) :
    hashRow (rowAt T F row) c 1 = tableRow T c (row + 1) := by
  have e := fun c => rowAt_next (T := T) (F := F) h c
  simp only [Row.next] at e
  simp only [hashRow, tableRow, e]

theorem word_at {P : Prims} (hT : LookupsHold T F) (hL : TableLoaded P F) (hr : row + 1 < usableRows)
    {c qS1 qS2 : ℕ} (hc : c = 0 ∧ qS1 = 16 ∧ qS2 = 12 ∨ c = 5 ∧ qS1 = 17 ∧ qS2 = 13) (h1 : F qS1 row = 1) :
    ∃ j < 2 ^ 10, sinsemillaWord (F qS2 row) (tableRow T c row).bits (tableRow T c (row + 1)).bits = (j : ℕ) ∧
      (tableRow T c row).xP = extractP (P.sinsemillaS j) ∧
      (tableRow T c row).yP = cellY (P.sinsemillaS j) := by
  have hr0 : row < usableRows := by omega
  have key : ∃ row' < usableRows, [F 0 row', F 1 row', F 2 row'] =
      sinsemillaLookup (rowAt T F row) c qS1 qS2 := by
    rcases hc with ⟨rfl, rfl, rfl⟩ | ⟨rfl, rfl, rfl⟩
    · obtain ⟨row', hr', h⟩ := lookup_at hT hr0 1 rfl
      refine ⟨row', hr', ?_⟩
      have := congrArg Prod.snd (Option.some.inj h)
      rw [← rowAt_fixed T F (usable_lt hr'), ← rowAt_fixed T F (usable_lt hr'), ← rowAt_fixed T F (usable_lt hr')]
      exact this
    · obtain ⟨row', hr', h⟩ := lookup_at hT hr0 2 rfl
      refine ⟨row', hr', ?_⟩
      have := congrArg Prod.snd (Option.some.inj h)
      rw [← rowAt_fixed T F (usable_lt hr'), ← rowAt_fixed T F (usable_lt hr'), ← rowAt_fixed T F (usable_lt hr')]
      exact this
  obtain ⟨row', hr', h⟩ := key
  obtain ⟨j, hj, h0, hx, hy⟩ := hL row' hr'
  simp only [sinsemillaLookup] at h
  rw [rowAt_fixed T F (usable_lt hr0), rowAt_fixed T F (usable_lt hr0), h1, h0, hx, hy, hashRow_cur (usable_lt hr0), hashRow_next (usable_lt hr)] at h
  simp only [List.cons.injEq, one_mul, sub_self, zero_mul, add_zero, and_true] at h
  exact ⟨j, hj, h.1.symm, h.2.1.symm, h.2.2.symm⟩

end Orchard.Pinned
