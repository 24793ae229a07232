import Verif.Lemmas.PatchBasic

/-!
# Regions that honest provers fill: fixed-base multiplication
-/

namespace Orchard.Regions

open Halo2 Layout Pinned Spec

variable {P : Prims} {T : Table} {F : FixedTable}

/-- The rows of the windows, without the last addition.  `m` and `zs` are what column 4 contains. -/
noncomputable def windowsPatch (B : FixedBase) (n s m : ℕ) (zs : ℕ → Fp) (code : SelectorCode) (c : WindowCells) : Patch :=
  ⟨[⟨0, s, n, fun w => (c.point w).1⟩, ⟨1, s, n, fun w => (c.point w).2⟩, ⟨2, s + 1, n - 1, fun w => (c.acc w).1⟩,
      ⟨3, s + 1, n - 1, fun w => (c.acc w).2⟩, ⟨4, s, m, zs⟩, ⟨5, s, n, c.u⟩],
    (List.range fixedBaseH).map (fun i => ⟨3 + i, s, n, fun w => lagrangeCoeffs B.generator n w i⟩) ++
      [⟨11, s, n, fun w => (B.z.getD w 0 : ℕ)⟩],
    [(⟨19, 3, 4⟩, s + 1, n - 2), (code, s, n)], []⟩

section

variable {B : FixedBase} {n s m : ℕ} {zs : ℕ → Fp} {code : SelectorCode} {c : WindowCells}

theorem windowsPatch_cells (h : Contains T F (windowsPatch B n s m zs code c)) :
    (∀ w < n, pointAt T 0 (s + w) = c.point w) ∧ (∀ w, w + 1 < n → pointAt T 2 (s + w + 1) = c.acc w) ∧
      (∀ w < m, T (4, s + w) = zs w) ∧ (∀ w < n, T (5, s + w) = c.u w) ∧
      (∀ w < n, ∀ i < fixedBaseH, F (3 + i) (s + w) = lagrangeCoeffs B.generator n w i) ∧
      ∀ w < n, F 11 (s + w) = (B.z.getD w 0 : ℕ) := by
  have h1 := h.advice
  have h2 := h.fixed
  simp only [windowsPatch, List.forall_mem_cons, List.forall_mem_append, List.forall_mem_map, List.mem_range] at h1 h2
  obtain ⟨k0, k1, k2, k3, k4, k5, -⟩ := h1
  refine ⟨fun w hw => Prod.ext (k0 w hw) (k1 w hw), fun w hw => ?_, k4, k5, fun w hw i hi => h2.1 i hi w hw, h2.2.1⟩
  have e : s + w + 1 = s + 1 + w := by omega
  rw [e]
  exact Prod.ext (k2 w (show w < n - 1 by omega)) (k3 w (show w < n - 1 by omega))

theorem windowsPatch_region (hn : 3 ≤ n) (hs : s + n < usableRows) (h : Contains T F (windowsPatch B n s m zs code c))
    (h0 : c.acc 0 = c.point 0) {e : ℕ} (hl : AddRegion T F e (c.point (n - 1)) (c.acc (n - 2))) :
    WindowsRegion T F B n s e := by
  obtain ⟨k0, k2, k4, k5, f1, f2⟩ := windowsPatch_cells h
  refine ⟨hs, f1, f2, ?_, fun w hw1 hw2 => ?_, ?_⟩
  · have a0 := k2 0 (by omega)
    have b0 := k0 0 (by omega)
    rw [Nat.add_zero] at a0 b0
    rw [a0, b0, h0]
  · have := h.on (i := w - 1) (List.mem_cons_self ..) (by omega)
    rwa [show s + 1 + (w - 1) = s + w by omega] at this
  · rw [k0 (n - 1) (by omega), show s + (n - 1) = s + (n - 2) + 1 by omega, k2 (n - 2) (by omega)]
    exact hl

theorem windowsPatch_on (h : Contains T F (windowsPatch B n s m zs code c)) {w : ℕ} (hw : w < n) :
    On F code (s + w) := h.on (List.mem_cons_of_mem _ (List.mem_cons_self ..)) hw

theorem windowsPatch_ok (hn : 3 ≤ n) (hs : s + n < usableRows) (hcode : code ∈ gateCodes) (hc : 18 ≤ code.column)
    (h0 : c.acc 0 = c.point 0)
    (hadd : ∀ w, 0 < w → w + 1 < n → Gate (addIncomplete (c.point w) (c.acc (w - 1)) (c.acc w)))
    (hg : ∀ T F, Contains T F (windowsPatch B n s m zs code c) → ∀ w < n, GateAt T F code (s + w)) :
    (windowsPatch B n s m zs code c).Ok P where
  cols st h := by
    simp only [windowsPatch, List.mem_append, List.mem_map, List.mem_range, List.mem_singleton] at h
    rcases h with ⟨i, hi, rfl⟩ | rfl
    · have h8 : fixedBaseH = 8 := rfl
      exact ⟨by dsimp only; omega, by dsimp only; omega⟩
    · exact ⟨by norm_num, by norm_num⟩
  codes x h := by
    simp only [windowsPatch, List.mem_cons, List.not_mem_nil, or_false] at h
    rcases h with rfl | rfl
    · exact mem_gateCodes rfl
    · exact hcode
  gates T F hC x h i hi := by
    have hu := usable_le
    obtain ⟨k0, k2, k4, k5, f1, f2⟩ := windowsPatch_cells hC
    simp only [windowsPatch, List.mem_cons, List.not_mem_nil, or_false] at h
    rcases h with rfl | rfl
    · dsimp only at hi ⊢
      refine ⟨by omega, ecc_gateAt 3 rfl rfl ?_, by simp, by simp⟩
      have hr : s + 1 + i < numRows := by omega
      simp only [rowAt_cur hr, rowAt_next (show s + 1 + i + 1 < numRows by omega)]
      have := hadd (i + 1) (by omega) (by omega)
      have e0 : s + 1 + i = s + (i + 1) := by omega
      have e1 := k0 (i + 1) (by omega)
      have e2 := k2 i (by omega)
      have e3 := k2 (i + 1) (by omega)
      rw [e0]
      rw [show i + 1 - 1 = i by omega, ← e1, ← e2, ← e3] at this
      exact this
    · dsimp only at hi ⊢
      exact ⟨by omega, hg T F hC i hi, fun h => by omega, fun h => by omega⟩
  lookups T F _ x h := by cases h

end

theorem fullWidth_gateAt {row : ℕ} (hr : row < numRows)
    (h : Gate (fullWidthGate (fun i => F (3 + i) row) (F 11 row) (T (4, row)) (T (5, row)) (pointAt T 0 row))) :
    GateAt T F ⟨23, 1, 1⟩ row := by
  refine ecc_gateAt 15 rfl rfl ?_
  have e : (rowAt T F row).lagrange = fun i => F (3 + i) row := by
    funext i
    exact rowAt_fixed T F hr _
  simp only [rowAt_cur hr, rowAt_fixed T F hr]
  rw [e]
  exact h

theorem runningSum_gateAt {row : ℕ} (hr : row + 1 < numRows)
    (h : Gate (runningSumCoordsGate (fun i => F (3 + i) row) (F 11 row) (T (4, row)) (T (4, row + 1)) (T (5, row))
      (pointAt T 0 row))) :
    GateAt T F ⟨22, 1, 1⟩ row := by
  refine ecc_gateAt 14 rfl rfl ?_
  have hr' : row < numRows := by omega
  have e : (rowAt T F row).lagrange = fun i => F (3 + i) row := by
    funext i
    exact rowAt_fixed T F hr' _
  simp only [rowAt_cur hr', rowAt_next hr, rowAt_fixed T F hr']
  rw [e]
  exact h

/-! ### Full-width scalars -/

noncomputable def mulFullPatch (B : FixedBase) (s e : ℕ) (window : ℕ → Fp) (c : WindowCells) (out : Fp × Fp)
    (w : AddCells) : Patch :=
  windowsPatch B numWindows s numWindows window ⟨23, 1, 1⟩ c ++ addPatch e (c.point (numWindows - 1)) (c.acc (numWindows - 2)) out w

theorem numWindows_eq : numWindows = 85 := rfl

theorem mulFullPatch_ok {B : FixedBase} {s e : ℕ} (hs : s + 85 < usableRows) (he : e + 1 < usableRows) {window : ℕ → Fp}
    {c : WindowCells} {out : Fp × Fp} (h : MulFixedGates B window c out) :
    ∃ w, (mulFullPatch B s e window c out w).Ok P := by
  obtain ⟨hr, hw, h0, hadd, l, α, β, γ, δ, hl⟩ := h
  have hu := usable_le
  refine ⟨⟨l, α, β, γ, δ⟩, (windowsPatch_ok (by decide) (by rw [numWindows_eq]; exact hs) (mem_gateCodes rfl) (by decide) h0 hadd
    fun T F hC w hwn => ?_).append (addPatch_ok he hl)⟩
  obtain ⟨k0, k2, k4, k5, f1, f2⟩ := windowsPatch_cells hC
  rw [numWindows_eq] at hwn
  refine fullWidth_gateAt (by omega) ?_
  rw [← numWindows_eq] at hwn
  rw [fullWidthGate, k0 w hwn, k4 w hwn, k5 w hwn, f2 w hwn, coordsCheck_congr (f1 w hwn)]
  intro x hx
  rcases List.mem_append.1 hx with hx | hx
  · exact hw w hwn x hx
  · exact hr w hwn x hx

theorem mulFullPatch_region {B : FixedBase} {s e : ℕ} (hs : s + 85 < usableRows) (he : e + 1 < usableRows)
    {window : ℕ → Fp} {c : WindowCells} {out : Fp × Fp} {w : AddCells} (h0 : c.acc 0 = c.point 0)
    (h : Contains T F (mulFullPatch B s e window c out w)) :
    MulFullRegion T F B s e ∧ pointAt T 2 (e + 1) = out ∧ ∀ i < 85, T (4, s + i) = window i := by
  obtain ⟨h1, h2⟩ := contains_append.1 h
  exact ⟨⟨windowsPatch_region (by decide) (by rw [numWindows_eq]; exact hs) h1 h0 (addPatch_region he h2),
    fun w hw => windowsPatch_on h1 hw⟩, (addPatch_cells h2).2.2.1, (windowsPatch_cells h1).2.2.1⟩

/-! ### Short signed scalars -/

noncomputable def mulShortPatch (B : FixedBase) (s e : ℕ) (sign : Fp) (z : ℕ → Fp) (c : WindowCells)
    (mid out : Fp × Fp) (w : AddCells) : Patch :=
  windowsPatch B numWindowsShort s (numWindowsShort + 1) z ⟨22, 1, 1⟩ c ++
    addPatch e (c.point (numWindowsShort - 1)) (c.acc (numWindowsShort - 2)) mid w ++
    ⟨cellsAt (e + 1) [(1, out.2), (4, sign), (5, z (numWindowsShort - 1))], [], [(⟨21, 2, 4⟩, e + 1, 1)], []⟩

theorem numWindowsShort_eq : numWindowsShort = 22 := rfl

theorem running_windows_ok {B : FixedBase} {n s : ℕ} (hn : 3 ≤ n) (hs : s + n < usableRows) {z : ℕ → Fp} {c : WindowCells}
    {out : Fp × Fp} (hd : Decompose n z) (h : MulWindows B n (windowOf z) c out) :
    (windowsPatch B n s (n + 1) z ⟨22, 1, 1⟩ c).Ok P := by
  obtain ⟨hw, h0, hadd, -⟩ := h
  have hu := usable_le
  refine windowsPatch_ok hn hs (mem_gateCodes rfl) (by decide) h0 hadd fun T F hC w hwn => ?_
  obtain ⟨k0, k2, k4, k5, f1, f2⟩ := windowsPatch_cells hC
  refine runningSum_gateAt (by omega) ?_
  have e4 := k4 (w + 1) (by omega)
  rw [← Nat.add_assoc] at e4
  rw [runningSumCoordsGate, k0 w hwn, k4 w (by omega), e4, k5 w hwn, f2 w hwn, coordsCheck_congr (f1 w hwn), gate_cons]
  exact ⟨hd.1 w hwn _ (List.mem_singleton_self _), hw w hwn⟩

theorem running_region {B : FixedBase} {n s : ℕ} {z : ℕ → Fp} {c : WindowCells} (hd : Decompose n z)
    (h : Contains T F (windowsPatch B n s (n + 1) z ⟨22, 1, 1⟩ c)) : DecomposeRegion T F n s (z 0) := by
  obtain ⟨k0, k2, k4, k5, f1, f2⟩ := windowsPatch_cells h
  exact ⟨fun w hw => windowsPatch_on h hw, k4 0 (by omega), (k4 n (by omega)).trans hd.2⟩

theorem mulShortPatch_ok {B : FixedBase} {s e : ℕ} (hs : s + 22 < usableRows) (he : e + 1 < usableRows)
    {magnitude sign : Fp} {z : ℕ → Fp} {c : WindowCells} {mid out : Fp × Fp}
    (h : MulFixedShortGates B magnitude sign z c mid out) :
    ∃ w, (mulShortPatch B s e sign z c mid out w).Ok P ∧ ∀ T F, Contains T F (mulShortPatch B s e sign z c mid out w) →
      MulShortRegion T F B s e magnitude sign ∧ (T (2, e + 1), T (1, e + 1)) = out := by
  obtain ⟨hz, hd, hm, hx, hg⟩ := h
  have hm' := hm
  obtain ⟨hw, h0, hadd, l, α, β, γ, δ, hl⟩ := hm
  have hu := usable_le
  have hun := usableRows_eq
  have hnr : numRows = 2048 := rfl
  have key : ∀ T F, Contains T F (mulShortPatch B s e sign z c mid out ⟨l, α, β, γ, δ⟩) →
      (windowsPatch B numWindowsShort s (numWindowsShort + 1) z ⟨22, 1, 1⟩ c |> Contains T F) ∧
      (addPatch e (c.point (numWindowsShort - 1)) (c.acc (numWindowsShort - 2)) mid ⟨l, α, β, γ, δ⟩ |> Contains T F) ∧
      pointAt T 2 (e + 1) = mid ∧ T (1, e + 1) = out.2 ∧ T (4, e + 1) = sign ∧
      T (5, e + 1) = z (numWindowsShort - 1) ∧ On F ⟨21, 2, 4⟩ (e + 1) := by
    intro T F hC
    obtain ⟨hC1, hC2⟩ := contains_append.1 hC
    obtain ⟨hC1, hC3⟩ := contains_append.1 hC1
    have k := cellsAt_iff.1 hC2.advice
    exact ⟨hC1, hC3, (addPatch_cells hC3).2.2.1, k (1, out.2) (by simp), k (4, sign) (by simp), k (5, z (numWindowsShort - 1)) (by simp),
      hC2.on (i := 0) (List.mem_singleton_self _) (by norm_num)⟩
  have hok1 : (windowsPatch B numWindowsShort s (numWindowsShort + 1) z ⟨22, 1, 1⟩ c).Ok P :=
    running_windows_ok (by decide) (by rw [numWindowsShort_eq]; exact hs) hd hm'
  have hok2 : (addPatch e (c.point (numWindowsShort - 1)) (c.acc (numWindowsShort - 2)) mid ⟨l, α, β, γ, δ⟩).Ok P :=
    addPatch_ok he hl
  refine ⟨⟨l, α, β, γ, δ⟩, ⟨?_, ?_, ?_, ?_⟩, ?_⟩
  · intro st hst
    rcases List.mem_append.1 hst with hst | hst
    · exact (hok1.append hok2).cols st hst
    · cases hst
  · intro x hx
    rcases List.mem_append.1 hx with hx | hx
    · exact (hok1.append hok2).codes x hx
    · rw [List.mem_singleton.1 hx]
      exact mem_gateCodes rfl
  · intro T F hC x hx' i hi
    obtain ⟨c1, c2, k1, k2, k3, k4, k5⟩ := key T F hC
    rcases List.mem_append.1 hx' with hx' | hx'
    · exact (hok1.append hok2).gates T F (contains_append.2 ⟨c1, c2⟩) x hx' i hi
    · obtain rfl := List.mem_singleton.1 hx'
      dsimp only at hi ⊢
      obtain rfl : i = 0 := by omega
      refine ⟨by omega, ecc_gateAt 16 rfl rfl ?_, by simp, by simp⟩
      rw [Nat.add_zero]
      simp only [rowAt_cur (show e + 1 < numRows by omega)]
      have k6 : T (3, e + 1) = mid.2 := congrArg Prod.snd k1
      rw [k2, k3, k4, k6]
      exact hg
  · intro T F hC x hx
    rcases List.mem_append.1 hx with hx | hx
    · rcases List.mem_append.1 hx with hx | hx <;> cases hx
    · cases hx
  · intro T F hC
    obtain ⟨c1, c2, k1, k2, k3, k4, k5⟩ := key T F hC
    have k6 : T (2, e + 1) = mid.1 := congrArg Prod.fst k1
    have hdr := running_region hd c1
    rw [hz] at hdr
    refine ⟨⟨windowsPatch_region (by decide) (by rw [numWindowsShort_eq]; exact hs) c1 h0 (addPatch_region he c2), hdr, k5, k3, ?_⟩,
      Prod.ext (k6.trans hx.symm) k2⟩
    rw [k4, (windowsPatch_cells c1).2.2.1 _ (by decide)]

/-! ### Base field elements -/

noncomputable def mulBasePatch (B : FixedBase) (s e k t : ℕ) (z : ℕ → Fp) (cc : CanonCells) (c : WindowCells)
    (out : Fp × Fp) (w : AddCells) : Patch :=
  windowsPatch B numWindows s (numWindows + 1) z ⟨22, 1, 1⟩ c ++
    addPatch e (c.point (numWindows - 1)) (c.acc (numWindows - 2)) out w ++ rangePatch 13 t cc.zPrime ++
    ⟨cellsAt k [(6, z 0), (8, z 84)] ++ cellsAt (k + 1) [(6, cc.zPrime 0), (7, cc.α₁), (8, cc.α₂)] ++
      cellsAt (k + 2) [(6, cc.zPrime 13), (7, z 44), (8, z 43)], [], [(⟨21, 3, 4⟩, k + 1, 1)], []⟩

theorem mulBasePatch_ok {B : FixedBase} {s e k t : ℕ} (hs : s + 85 < usableRows) (he : e + 1 < usableRows)
    (hk : k + 2 < usableRows) (ht : t + 13 < usableRows)
    {scalar : Fp} {z : ℕ → Fp} {cc : CanonCells} {c : WindowCells} {out : Fp × Fp}
    (h : MulFixedBaseGates B scalar z cc c out) :
    ∃ w, (mulBasePatch B s e k t z cc c out w).Ok P ∧ ∀ T F, Contains T F (mulBasePatch B s e k t z cc c out w) →
      MulBaseRegion T F B s e k t scalar ∧ pointAt T 2 (e + 1) = out := by
  obtain ⟨hz, hd, hm, hr, hg⟩ := h
  have hm' := hm
  obtain ⟨hw, h0, hadd, l, α, β, γ, δ, hl⟩ := hm
  have hu := usable_le
  have key : ∀ T F, Contains T F (mulBasePatch B s e k t z cc c out ⟨l, α, β, γ, δ⟩) →
      (windowsPatch B numWindows s (numWindows + 1) z ⟨22, 1, 1⟩ c |> Contains T F) ∧
      (addPatch e (c.point (numWindows - 1)) (c.acc (numWindows - 2)) out ⟨l, α, β, γ, δ⟩ |> Contains T F) ∧
      (rangePatch 13 t cc.zPrime |> Contains T F) ∧
      T (6, k) = z 0 ∧ T (8, k) = z 84 ∧ T (6, k + 1) = cc.zPrime 0 ∧ T (7, k + 1) = cc.α₁ ∧ T (8, k + 1) = cc.α₂ ∧
      T (6, k + 2) = cc.zPrime 13 ∧ T (7, k + 2) = z 44 ∧ T (8, k + 2) = z 43 ∧ On F ⟨21, 3, 4⟩ (k + 1) := by
    intro T F hC
    obtain ⟨hC1, hC2⟩ := contains_append.1 hC
    obtain ⟨hC1, hC3⟩ := contains_append.1 hC1
    obtain ⟨hC1, hC4⟩ := contains_append.1 hC1
    have q := hC2.advice
    simp only [cellsAt, List.map_cons, List.map_nil, List.cons_append, List.nil_append,
      List.forall_mem_cons, hasStrip_one] at q
    obtain ⟨q1, q2, q3, q4, q5, q6, q7, q8, -⟩ := q
    exact ⟨hC1, hC4, hC3, q1, q2, q3, q4, q5, q6, q7, q8, hC2.on (i := 0) (List.mem_singleton_self _) (by norm_num)⟩
  have hok1 : (windowsPatch B numWindows s (numWindows + 1) z ⟨22, 1, 1⟩ c).Ok P :=
    running_windows_ok (by decide) (by rw [numWindows_eq]; exact hs) hd hm'
  have hok2 : (addPatch e (c.point (numWindows - 1)) (c.acc (numWindows - 2)) out ⟨l, α, β, γ, δ⟩).Ok P :=
    addPatch_ok he hl
  have hok := (hok1.append hok2).append (rangePatch_ok (P := P) ht hr.1)
  refine ⟨⟨l, α, β, γ, δ⟩, ⟨?_, ?_, ?_, ?_⟩, ?_⟩
  · intro st hst
    rcases List.mem_append.1 hst with hst | hst
    · exact hok.cols st hst
    · cases hst
  · intro x hx
    rcases List.mem_append.1 hx with hx | hx
    · exact hok.codes x hx
    · rw [List.mem_singleton.1 hx]
      exact mem_gateCodes rfl
  · intro T F hC x hx' i hi
    obtain ⟨c1, c2, c3, k1, k2, k3, k4, k5, k6, k7, k8, k9⟩ := key T F hC
    rcases List.mem_append.1 hx' with hx' | hx'
    · exact hok.gates T F (contains_append.2 ⟨contains_append.2 ⟨c1, c2⟩, c3⟩) x hx' i hi
    · obtain rfl := List.mem_singleton.1 hx'
      dsimp only at hi ⊢
      obtain rfl : i = 0 := by omega
      refine ⟨by omega, ecc_gateAt 17 rfl rfl ?_, by simp, by simp⟩
      rw [Nat.add_zero]
      simp only [rowAt_cur (show k + 1 < numRows by omega), rowAt_prev (show k + 1 < numRows by omega),
        rowAt_next (show k + 1 + 1 < numRows by omega)]
      rw [show k + 1 + 1 = k + 2 from rfl, k1, k2, k3, k4, k5, k6, k7, k8]
      simp only [canonicityGate, baseFieldCanonicity, gate_cons] at hg ⊢
      obtain ⟨g1, g2, g3, g4, g5, g6, g7, g8, g9⟩ := hg
      exact ⟨g5, g6, g7, g8, g1, g2, g3, g4, g9⟩
  · intro T F hC x hx
    obtain ⟨c1, c2, c3, -⟩ := key T F hC
    rcases List.mem_append.1 hx with hx | hx
    · exact hok.lookups T F (contains_append.2 ⟨contains_append.2 ⟨c1, c2⟩, c3⟩) x hx
    · cases hx
  · intro T F hC
    obtain ⟨c1, c2, c3, k1, k2, k3, k4, k5, k6, k7, k8, k9⟩ := key T F hC
    have hdr := running_region hd c1
    rw [hz] at hdr
    have hc4 := (windowsPatch_cells c1).2.2.1
    have hr9 := fun i (hi : i ≤ 13) => rangePatch_cells c3 hi
    refine ⟨⟨windowsPatch_region (by decide) (by rw [numWindows_eq]; exact hs) c1 h0 (addPatch_region he c2), hdr, hk, k9,
      ?_, ?_, ?_, ?_, rangePatch_region ht c3, ?_, ?_⟩, (addPatch_cells c2).2.2.1⟩
    · rw [k1]
      exact (hc4 0 (by decide)).symm
    · rw [k2, hc4 _ (by decide)]
    · rw [k7, hc4 _ (by decide)]
    · rw [k8, hc4 _ (by decide)]
    · rw [k3]
      exact (hr9 0 (by omega)).symm
    · rw [k6, hr9 13 le_rfl]

end Orchard.Regions
