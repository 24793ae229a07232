import Verif.Model.UnitTests
import Verif.Lemmas.MulFixed
import Verif.Props.Circuit
import Verif.Props.Constants
import Verif.Props.Encodings
import Verif.Props.FixedBase
import Verif.Props.Generators
import Verif.Props.Spec
import Verif.Props.Zip32

/-!
# Lemmas about the crate's unit tests
-/

namespace Orchard

open Tests Zip32 Testing

theorem assertEqO_self {α : Type} [DecidableEq α] (a : α) : assertEqO a a = .ret () := by
  unfold assertEqO
  rw [decide_eq_true rfl, assertO_true]

theorem assertO_ret {b : Bool} {u : Unit} : assertO b = .ret u ↔ b = true := by
  cases b <;> simp

theorem lebs2ipOf_passes (int : UInt64) : lebs2ipOf int = .ret () := by
  obtain ⟨bits, h1, -, m, h2, h3⟩ := (C60_round_trip 64 le_rfl).1 int
  unfold lebs2ipOf
  rw [h1, Outcome.ret_bind, h2, Outcome.ret_bind]
  have : m = int := by
    apply UInt64.toNat_inj.1
    rw [h3, Nat.mod_eq_of_lt int.toNat_lt]
  rw [this, assertEqO_self]

theorem i2lebspOf_passes (bits : List Bool) (h : bits.length ≤ 64) : i2lebspOf bits = .ret () := by
  obtain ⟨m, h1, h2⟩ := (C60_round_trip bits.length h).2 bits rfl
  unfold i2lebspOf
  rw [h1, Outcome.ret_bind, h2, Outcome.ret_bind, assertEqO_self]

theorem lebs2ipKOf_passes (int : UInt64) (h : int.toNat < 1024) : lebs2ipKOf int = .ret () := by
  obtain ⟨bits, n, h1, -, h2, h3⟩ := C60_k_round_trip.2.1 int h
  unfold lebs2ipKOf
  rw [h1, Outcome.ret_bind, h2, Outcome.ret_bind]
  have : n.toUInt64 = int := by
    apply UInt64.toNat_inj.1
    rw [UInt32.toNat_toUInt64, h3]
  rw [this, assertEqO_self]

theorem i2lebspKOf_passes (bits : List Bool) (h : bits.length = 10) : i2lebspKOf bits = .ret () := by
  obtain ⟨n, h1, -, h2⟩ := C60_k_round_trip.1 bits h
  unfold i2lebspKOf
  rw [h1, Outcome.ret_bind]
  have : n.toUInt64 = UInt64.ofNat n.toNat := by
    apply UInt64.toNat_inj.1
    rw [UInt32.toNat_toUInt64, UInt64.toNat_ofNat_of_lt']
    exact n.toNat_lt.trans (by norm_num [UInt64.size])
  rw [this, h2, Outcome.ret_bind, assertEqO_self]

/-- The entries of a table decode to the coordinates of the point. -/
theorem coordinatesTest_passes {A : Point} {t : Bytes 32 × Bytes 32} (h : pointFromTable t = some A) :
    coordinatesTest A t = .ret () := by
  unfold pointFromTable at h
  split at h
  · rename_i x y hx hy
    split at h
    · rename_i hc
      cases h
      change (do
        let tx ← Option.unwrapO (Fp.fromRepr t.1)
        assertEqO x tx
        let ty ← Option.unwrapO (Fp.fromRepr t.2)
        assertEqO y ty) = _
      rw [hx, hy, Option.unwrapO_some, Option.unwrapO_some, Outcome.ret_bind, assertEqO_self,
        Outcome.ret_bind, Outcome.ret_bind, assertEqO_self]
    · exact absurd h (by simp)
  · exact absurd h (by simp)

/-! ### Tables -/

theorem coordinatesTest_decodes {A : Point} {t : Bytes 32 × Bytes 32}
    (h : coordinatesTest A t = .ret ()) : pointFromTable t = some A := by
  rcases Point.cases_xy A with rfl | ⟨x, y, hc, rfl⟩
  · exact absurd h (by simp [coordinatesTest, show (0 : Point) = .zero from rfl])
  · change (do
      let tx ← Option.unwrapO (Fp.fromRepr t.1)
      assertEqO x tx
      let ty ← Option.unwrapO (Fp.fromRepr t.2)
      assertEqO y ty) = _ at h
    unfold pointFromTable
    cases h1 : Fp.fromRepr t.1 with
    | none => rw [h1] at h; exact absurd h (by simp)
    | some tx =>
      cases h2 : Fp.fromRepr t.2 with
      | none =>
        rw [h1, h2] at h
        simp [Outcome.bind_eq_ret] at h
      | some ty =>
        rw [h1, h2] at h
        simp only [Option.unwrapO_some, Outcome.ret_bind, Outcome.bind_eq_ret, assertEqO,
          assertO_ret, decide_eq_true_eq] at h
        obtain ⟨_, rfl, rfl⟩ := h
        simp only
        rw [dif_pos hc]

theorem zuTest_passes {A : Point} {z u : ℕ} (h : Spec.EntryFits A z u) : zuTest A z u = .ret () := by
  obtain ⟨hu, -, x, y, hc, rfl, h1, h2⟩ := h
  change (do
    assertO (decide (u < p))
    assertEqO ((z : Fp) + y) ((u : Fp) * u)
    assertO (Point.fpSqrt ((z : Fp) - y)).isNone) = _
  have h3 : (z : Fp) + y = (u : Fp) * u := by rw [← sq, h1, add_comm]
  have h4 : Point.fpSqrt ((z : Fp) - y) = none := by
    unfold Point.fpSqrt
    rw [dif_neg]
    rintro ⟨s, hs⟩
    exact h2 s (by rw [hs]; ring)
  rw [decide_eq_true hu, assertO_true, Outcome.ret_bind, h3, assertEqO_self, Outcome.ret_bind, h4]
  rfl

theorem forM_passes {α : Type} {f : α → Outcome Unit} :
    ∀ {l : List α}, (∀ x ∈ l, f x = .ret ()) → l.forM f = .ret () := by
  intro l
  induction l with
  | nil => intro _; rfl
  | cons a l ih =>
    intro h
    change (f a >>= fun _ => l.forM f) = _
    rw [h a (by simp), Outcome.ret_bind]
    exact ih fun x hx => h x (by simp [hx])

theorem forM_passes_iff {α : Type} {f : α → Outcome Unit} :
    ∀ {l : List α}, l.forM f = .ret () ↔ ∀ x ∈ l, f x = .ret () := by
  intro l
  refine ⟨?_, forM_passes⟩
  induction l with
  | nil => simp
  | cons a l ih =>
    intro h x hx
    change (f a >>= fun _ => l.forM f) = _ at h
    rw [Outcome.bind_eq_ret] at h
    obtain ⟨_, h1, h2⟩ := h
    rcases List.mem_cons.1 hx with rfl | hx
    · exact h1
    · exact ih h2 x hx

theorem zuTest_fits {A : Point} {z u : ℕ} (hz : z < 2 ^ 64) (h : zuTest A z u = .ret ()) :
    Spec.EntryFits A z u := by
  rcases Point.cases_xy A with rfl | ⟨x, y, hc, rfl⟩
  · exact absurd h (by simp [zuTest, show (0 : Point) = .zero from rfl])
  · change (do
      assertO (decide (u < p))
      assertEqO ((z : Fp) + y) ((u : Fp) * u)
      assertO (Point.fpSqrt ((z : Fp) - y)).isNone) = _ at h
    simp only [Outcome.bind_eq_ret, assertEqO, assertO_ret, decide_eq_true_eq] at h
    obtain ⟨_, h1, _, h2, h3⟩ := h
    refine ⟨h1, hz, x, y, hc, rfl, by rw [sq, ← h2, add_comm], fun s hs => ?_⟩
    obtain ⟨w, hw⟩ := Point.fpSqrt_complete (show s ^ 2 = (z : Fp) - y by rw [hs]; ring)
    rw [hw] at h3
    exact absurd h3 (by simp)

theorem sum_map_range (w : ℕ) :
    ((((List.range w).map fun j => 2 * 8 ^ j).sum : ℕ) : ℤ) = ∑ j ∈ Finset.range w, 2 * 8 ^ j := by
  induction w with
  | zero => simp
  | succ w ih =>
    rw [List.range_succ, List.map_append, List.sum_append, Finset.sum_range_succ, ← ih]
    simp

theorem windowTable_get (B : Point) (n w : ℕ) (hw : w < n) (k : ℕ) (hk : k < 8) :
    ((windowTable B n).getD w []).getD k 0 = Spec.windowScalar n w k • B := by
  unfold windowTable Spec.windowScalar
  have hH : fixedBaseH = 8 := rfl
  rw [hH]
  by_cases h : w + 1 < n
  · rw [if_pos h, List.getD_append _ _ _ _ (by simp; omega)]
    simp only [List.getD_eq_getElem?_getD, List.getElem?_map, List.getElem?_range (show w < n - 1 by omega),
      List.getElem?_range hk, Option.map_some, Option.getD_some]
    rw [← natCast_zsmul]
    push_cast
    rfl
  · obtain rfl : n = w + 1 := by omega
    rw [if_neg h, List.getD_append_right _ _ _ _ (by simp)]
    simp only [List.length_map, List.length_range, Nat.add_sub_cancel, Nat.sub_self,
      List.getD_eq_getElem?_getD, List.getElem?_cons_zero, Option.getD_some, List.getElem?_map,
      List.getElem?_range hk, Option.map_some]
    rw [← natCast_zsmul, ← natCast_zsmul, sum_map_range, sub_smul]
    push_cast
    rfl

theorem windowTable_length (B : Point) (n : ℕ) (hn : 0 < n) : (windowTable B n).length = n := by
  unfold windowTable
  simp
  omega

theorem mem_zip_getD {α β : Type} (a : α) (b : β) {l : List α} {l' : List β} {x : α × β}
    (h : x ∈ l.zip l') : ∃ i, i < l.length ∧ i < l'.length ∧ x.1 = l.getD i a ∧ x.2 = l'.getD i b := by
  obtain ⟨i, hi, rfl⟩ := List.getElem_of_mem h
  rw [List.length_zip] at hi
  refine ⟨i, by omega, by omega, ?_, ?_⟩
  · rw [List.getElem_zip, List.getD_eq_getElem _ _ (by omega)]
  · rw [List.getElem_zip, List.getD_eq_getElem _ _ (by omega)]

theorem zsAndUs_passes {b : FixedBase} {n : ℕ} (h : Spec.TablesFit b.generator n b.z b.u) :
    zsAndUsTest b n = .ret () := by
  obtain ⟨hz, hu, h⟩ := h
  unfold zsAndUsTest
  apply forM_passes
  intro x hx
  apply forM_passes
  intro y hy
  apply zuTest_passes
  obtain ⟨w, hw, hw', e1, e2⟩ := mem_zip_getD ([], 0) [] hx
  have hw : w < n := by rw [List.length_zip] at hw; omega
  have e3 : x.1.1 = b.u.getD w [] := by
    rw [e1, List.getD_eq_getElem _ _ (by rw [List.length_zip]; omega), List.getElem_zip,
      List.getD_eq_getElem _ _ (by omega)]
  have e4 : x.1.2 = b.z.getD w 0 := by
    rw [e1, List.getD_eq_getElem _ _ (by rw [List.length_zip]; omega), List.getElem_zip,
      List.getD_eq_getElem _ _ (by omega)]
  obtain ⟨k, hk, -, f1, f2⟩ := mem_zip_getD 0 0 hy
  obtain ⟨h1, h2⟩ := h w hw
  rw [e3, h1] at hk
  have := h2 k hk
  rw [f1, f2, e2, e3, e4, windowTable_get _ _ _ hw _ hk]
  exact this

theorem zip_getElem_mem {α β : Type} (a : α) (b : β) {l : List α} {l' : List β} {i : ℕ} (h : i < l.length)
    (h' : i < l'.length) : (l.getD i a, l'.getD i b) ∈ l.zip l' := by
  rw [List.getD_eq_getElem _ _ h, List.getD_eq_getElem _ _ h', ← List.getElem_zip]
  · exact List.getElem_mem _
  · rw [List.length_zip]; omega

theorem windowTable_row (B : Point) (n w : ℕ) (hw : w < n) : ((windowTable B n).getD w []).length = 8 := by
  unfold windowTable
  have hH : fixedBaseH = 8 := rfl
  rw [hH]
  by_cases h : w + 1 < n
  · rw [List.getD_append _ _ _ _ (by simp; omega)]
    simp [List.getD_eq_getElem?_getD, List.getElem?_range (show w < n - 1 by omega)]
  · obtain rfl : n = w + 1 := by omega
    rw [List.getD_append_right _ _ _ _ (by simp)]
    simp

theorem zsAndUs_fits {b : FixedBase} {n : ℕ} (hz : b.z.length = n) (hu : b.u.length = n)
    (hr : ∀ w < n, (b.u.getD w []).length = 8) (hz64 : ∀ w < n, b.z.getD w 0 < 2 ^ 64)
    (h : zsAndUsTest b n = .ret ()) : Spec.TablesFit b.generator n b.z b.u := by
  refine ⟨hz, hu, fun w hw => ⟨hr w hw, fun k hk => ?_⟩⟩
  unfold zsAndUsTest at h
  rw [forM_passes_iff] at h
  have hlen : w < (b.u.zip b.z).length := by rw [List.length_zip]; omega
  have h2 := zip_getElem_mem (l := b.u.zip b.z) (l' := windowTable b.generator n) ([], 0) [] (i := w) hlen
    (by rw [windowTable_length _ _ (by omega)]; exact hw)
  have h3 := h _ h2
  have e3 : (b.u.zip b.z).getD w ([], 0) = (b.u.getD w [], b.z.getD w 0) := by
    rw [List.getD_eq_getElem _ _ hlen, List.getElem_zip, List.getD_eq_getElem _ _ (by omega),
      List.getD_eq_getElem _ _ (by omega)]
  rw [e3, forM_passes_iff] at h3
  have h4 := h3 _ (zip_getElem_mem 0 0 (i := k) (by rw [hr w hw]; exact hk)
    (by rw [windowTable_row _ _ _ hw]; exact hk))
  have h5 := zuTest_fits (hz64 w hw) h4
  rw [windowTable_get _ _ _ hw _ hk] at h5
  exact h5

theorem lagrangeCoeffsTest_iff (B : Point) (n : ℕ) :
    lagrangeCoeffsTest B n = .ret () ↔ ∀ w < n, ∀ k < 8, Spec.windowScalar n w k • B ≠ 0 := by
  unfold lagrangeCoeffsTest
  rw [forM_passes_iff]
  simp only [List.mem_range]
  refine forall_congr' fun w => forall_congr' fun hw => ?_
  rw [forM_passes_iff]
  simp only [List.mem_range]
  refine forall_congr' fun k => forall_congr' fun hk => ?_
  have hk : k < 8 := hk
  rw [windowTable_get B n w hw k hk, Halo2.interpolate_eval hk, Halo2.windowTable_eq hw]
  rcases Point.cases_xy (Spec.windowScalar n w k • B) with e | ⟨x, y, hc, e⟩
  · rw [e]
    simp [show (0 : Point) = .zero from rfl]
  · rw [e]
    change assertEqO x (extractP (Point.ofXY x y hc)) = _ ↔ _
    rw [show extractP (Point.ofXY x y hc) = x from rfl, assertEqO_self]
    simp [Point.ofXY_ne_zero]

/-! ### `zip32.rs` -/

section

open ExtendedSpendingKey

theorem fromPath_nil (P : Prims) (seed : List UInt8) : fromPath P seed [] = master P seed := by
  unfold fromPath
  cases master P seed with
  | panic => rfl
  | ret r => cases r <;> rfl

theorem fromPath_concat (P : Prims) (seed : List UInt8) (l : List ChildIndex) (i : ChildIndex)
    (y : ExtendedSpendingKey) : fromPath P seed (l ++ [i]) = .ret (.ok y) ↔
      ∃ x, fromPath P seed l = .ret (.ok x) ∧ deriveChild P x i = .ret (.ok y) := by
  obtain ⟨h1, h2, h3⟩ := C50_composition P seed l [i] i
  constructor
  · intro h
    cases hl : fromPath P seed l with
    | panic => rw [h3 hl] at h; exact absurd h (by simp)
    | ret r =>
      cases r with
      | error e => rw [h1 _ hl] at h; exact absurd h (by simp)
      | ok x => exact ⟨x, rfl, (h2 x hl) ▸ h⟩
  · rintro ⟨x, hx, h⟩
    rw [h2 x hx, h]

theorem unwrapResult_ret {E α : Type} {r : Except E α} {a : α} : unwrapResult r = .ret a ↔ r = .ok a := by
  cases r <;> simp [unwrapResult]

theorem mkHardened_ret {i : UInt32} (h : i.toNat < 2 ^ 31) :
    ∃ c, ChildIndex.mkHardened i = .ret c ∧ c.index.toNat = 2 ^ 31 + i.toNat := by
  unfold ChildIndex.mkHardened
  rw [dif_pos h]
  refine ⟨_, rfl, ?_⟩
  simp only
  rw [UInt32.toNat_ofNat_of_lt' (by norm_num [UInt32.size]; omega)]
  omega

theorem deriveChildTest_iff (P : Prims) (seed : List UInt8) {i : UInt32} {c : ChildIndex}
    (h : ChildIndex.mkHardened i = .ret c) :
    deriveChildTest P seed i = .ret () ↔ ∃ y, fromPath P seed [c] = .ret (.ok y) := by
  unfold deriveChildTest
  simp only [Outcome.bind_eq_ret, unwrapResult_ret, h, Outcome.ret.injEq, ← fromPath_nil]
  constructor
  · rintro ⟨r, h1, x, rfl, c', rfl, y, h2, h3⟩
    cases y with
    | error e => exact absurd h3 (by simp [Except.toBool])
    | ok y => exact ⟨y, (fromPath_concat P seed [] c y).2 ⟨x, h1, h2⟩⟩
  · rintro ⟨y, hy⟩
    obtain ⟨x, h1, h2⟩ := (fromPath_concat P seed [] c y).1 hy
    exact ⟨_, h1, x, rfl, c, rfl, _, h2, rfl⟩

theorem pathTest_iff (P : Prims) (seed : List UInt8) {i j : UInt32} {c d : ChildIndex}
    (hi : ChildIndex.mkHardened i = .ret c) (hj : ChildIndex.mkHardened j = .ret d) :
    pathTest P seed i j = .ret () ↔ ∃ y, fromPath P seed [c, d] = .ret (.ok y) := by
  unfold pathTest
  simp only [Outcome.bind_eq_ret, unwrapResult_ret, hi, hj, Outcome.ret.injEq, ← fromPath_nil]
  constructor
  · rintro ⟨r, h1, x, rfl, c', rfl, r, h2, x1, rfl, r, h3, y, rfl, _, h4, d', rfl, r, h5, x2, rfl, -⟩
    exact ⟨x2, (fromPath_concat P seed [c] d x2).2
      ⟨x1, (fromPath_concat P seed [] c x1).2 ⟨x, h1, h2⟩, h5⟩⟩
  · rintro ⟨y, hy⟩
    obtain ⟨x1, h1, h2⟩ := (fromPath_concat P seed [c] d y).1 hy
    obtain ⟨x, h3, h4⟩ := (fromPath_concat P seed [] c x1).1 h1
    have e1 : ctEq x1 x1 = true := (C50_ct_eq _ _).2 rfl
    have e2 : ctEq y y = true := (C50_ct_eq _ _).2 rfl
    exact ⟨_, h3, x, rfl, c, rfl, _, h4, x1, rfl, _, h1, x1, rfl, (), by rw [e1]; rfl, d, rfl, _, h2, y,
      rfl, _, hy, y, rfl, by rw [e2]; rfl⟩

end

/-! ### Circuits -/

open Classical in
theorem commitIvkTest_iff (P : Prims) (ak nk : Fp) (rivk : Fq) :
    commitIvkTest P ak nk rivk = .ret () ↔ ∃ ivk, commitIvk P ak nk rivk = some ivk := by
  unfold commitIvkTest
  change (Option.unwrapO (commitIvk P ak nk rivk) >>= fun _ => _) = _ ↔ _
  cases h : commitIvk P ak nk rivk with
  | none => simp
  | some ivk =>
    rw [Option.unwrapO_some, Outcome.ret_bind,
      decide_eq_true ⟨ivk, C52_complete P ak nk rivk ivk h, rfl⟩, assertO_true]
    simp

theorem signed_root {y z : Fp} (hy : y ≠ 0) (h : z ^ 2 = y ^ 2) (s : ℕ) (hs : s = Point.sgn y) :
    (if xor (decide (z.val % 2 = 1)) (decide (s = 1)) = true then -z else z) = y := by
  have hz : z ≠ 0 := by
    rintro rfl
    exact hy (pow_eq_zero_iff two_ne_zero |>.1 (h.symm.trans (by ring)))
  have h1 := Point.sgn_lt z
  have h2 := Point.sgn_lt y
  have h3 := Point.sgn_neg hz
  have e1 : z.val % 2 = Point.sgn z := rfl
  rw [e1]
  have hd : z = y ∨ z = -y := sq_eq_sq_iff_eq_or_eq_neg.1 h
  have h4 := Point.sgn_neg hy
  rcases hd with rfl | rfl
  · rw [hs]; simp
  · rw [hs, h4]
    rcases (show Point.sgn y = 0 ∨ Point.sgn y = 1 by omega) with e | e <;> rw [e] <;> simp

theorem pointWithX_ofXY {x y : Fp} (h : y ^ 2 = x ^ 3 + 5) :
    pointWithX x ((Point.sgn y : ℕ) : Fp) = .ret (Point.ofXY x y h) := by
  have e : x ^ 2 * x + 5 = x ^ 3 + 5 := by ring
  obtain ⟨z, hz⟩ := Point.fpSqrt_complete h
  have hs : ((Point.sgn y : ℕ) : Fp).val % 2 = Point.sgn y := by
    have := Point.sgn_lt y
    rw [ZMod.val_natCast, Nat.mod_eq_of_lt (this.trans (by decide +kernel)), Nat.mod_eq_of_lt this]
  have key := signed_root (y_ne_zero_of_onCurve h) ((Point.fpSqrt_sound hz).trans h.symm) _ hs
  unfold pointWithX
  rw [e, hz, Option.unwrapO_some, Outcome.ret_bind]
  simp only [key]
  rw [dif_pos h]

theorem pointWithX_panic {x lsb : Fp} (h : ¬ ∃ y : Fp, y ^ 2 = x ^ 3 + 5) :
    pointWithX x lsb = .panic := by
  have e : x ^ 2 * x + 5 = x ^ 3 + 5 := by ring
  unfold pointWithX Point.fpSqrt
  rw [e, dif_neg h]
  rfl

theorem point_bits {x y : Fp} (h : y ^ 2 = x ^ 3 + 5) :
    leBits 256 (Point.ofXY x y h).toBytes.toNat =
      Fp.toLeBits 255 x ++ [decide (((Point.sgn y : ℕ) : Fp) = 1)] := by
  rw [Point.toNat_toBytes_ofXY]
  have h1 := leBits_add (m := 255) (n := 1) (lo := x.val) (hi := Point.sgn y)
    ((ZMod.val_lt x).trans p_lt_two_pow_255)
  rw [h1]
  congr 1
  have h2 := Point.sgn_lt y
  generalize Point.sgn y = b at h2
  rcases (show b = 0 ∨ b = 1 by omega) with rfl | rfl
  · simp [leBits]
  · simp [leBits]

open Classical in
theorem noteCommitTest_iff (P : Prims) {gx gy kx ky : Fp} (hg : gy ^ 2 = gx ^ 3 + 5)
    (hk : ky ^ 2 = kx ^ 3 + 5) (v : NoteValue) (rho psi : Fp) (rcm : Fq) :
    noteCommitTest P gx ((Point.sgn gy : ℕ) : Fp) kx ((Point.sgn ky : ℕ) : Fp) v rho psi rcm = .ret () ↔
      ∃ cm, Spec.noteCommit P (Point.ofXY gx gy hg) (Point.ofXY kx ky hk) v.inner.toNat rho psi rcm =
        some cm ∧ cm ≠ 0 := by
  have hm : sinsemillaCommit P Constants.qNoteCommit Constants.noteCommitR
      (Fp.toLeBits 255 gx ++ [decide (((Point.sgn gy : ℕ) : Fp) = 1)] ++
        (Fp.toLeBits 255 kx ++ [decide (((Point.sgn ky : ℕ) : Fp) = 1)]) ++
        v.toLeBits ++ Fp.toLeBits 255 rho ++ Fp.toLeBits 255 psi) rcm =
      Spec.noteCommit P (Point.ofXY gx gy hg) (Point.ofXY kx ky hk) v.inner.toNat rho psi rcm := by
    rw [← point_bits hg, ← point_bits hk]
    unfold sinsemillaCommit Spec.noteCommit
    change Option.map _ (sinsemillaHashToPoint P Constants.qNoteCommit (Spec.noteBits (Point.ofXY gx gy hg)
      (Point.ofXY kx ky hk) v.inner.toNat rho psi)) = _
    cases sinsemillaHashToPoint P Constants.qNoteCommit (Spec.noteBits (Point.ofXY gx gy hg)
      (Point.ofXY kx ky hk) v.inner.toNat rho psi) <;> rfl
  unfold noteCommitTest
  rw [pointWithX_ofXY hg, pointWithX_ofXY hk, Outcome.ret_bind, Outcome.ret_bind, hm]
  have hlt : v.inner.toNat < 2 ^ 64 := v.inner.toNat_lt
  have hv : ((v.inner.toNat : ℕ) : Fp).val = v.inner.toNat := by
    rw [ZMod.val_natCast, Nat.mod_eq_of_lt (hlt.trans (by decide +kernel))]
  cases h : Spec.noteCommit P (Point.ofXY gx gy hg) (Point.ofXY kx ky hk) v.inner.toNat rho psi rcm with
  | none => simp
  | some cm =>
    have hgad := C53_complete P (Point.ofXY gx gy hg) (Point.ofXY kx ky hk) (v.inner.toNat : Fp) rho psi rcm cm
      (by rw [hv]; exact hlt) (by rw [hv]; exact h)
    rw [Option.unwrapO_some, Outcome.ret_bind]
    by_cases h0 : cm = 0
    · subst h0
      simp
    · rw [decide_eq_true h0, assertO_true, Outcome.ret_bind]
      simp only
      rw [show Halo2.cells cm = (extractP cm, Halo2.cellY cm) from rfl, decide_eq_true hgad, assertO_true]
      exact ⟨fun _ => ⟨cm, rfl, h0⟩, fun _ => rfl⟩

end Orchard
