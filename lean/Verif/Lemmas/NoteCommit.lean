import Verif.Lemmas.Halo2
import Verif.Model.NoteCommit
import Verif.Spec.Note

/-! # Soundness and completeness of the `note_commit` gadget -/

namespace Orchard

open Halo2

theorem toNat_toBytes_cells (A : Point) :
    A.toBytes.toNat = (extractP A).val + 2 ^ 255 * ((cellY A).val % 2) := by
  rcases Point.cases_xy A with rfl | ⟨x, y, h, rfl⟩
  · rw [Point.toBytes_zero]; decide +kernel
  · rw [Point.toNat_toBytes_ofXY]; rfl

theorem leBits_toBytes (A : Point) :
    leBits 256 A.toBytes.toNat = leBits 255 (extractP A).val ++ leBits 1 (cellY A).val := by
  have h := Fp.val_lt (extractP A)
  have hp := p_lt_two_pow_255
  rw [toNat_toBytes_cells, show 256 = 255 + 1 from rfl, leBits_add (by omega)]
  congr 1
  simp [leBits]

namespace NoteCommit

/-- The `y` check pins down the parity. -/
theorem yCanonicity_spec {k : YCells} {y : Fp} {b : ℕ} (hb : b < 2)
    (h : yCanonicity k y (b : Fp)) : y.val % 2 = b := by
  obtain ⟨h0, h2, hj, hjp, hg⟩ := h
  simp only [Gate, gateY, List.forall_mem_cons, List.not_mem_nil, IsEmpty.forall_iff,
    implies_true, and_true] at hg
  obtain ⟨g1, g2, g3, g4, g5, -, g7⟩ := hg
  obtain ⟨k0, hk0, e0⟩ := (shortCheck_iff (by norm_num) _).1 h0
  obtain ⟨k2, hk2, e2⟩ := (shortCheck_iff (by norm_num) _).1 h2
  obtain ⟨k3, hk3, e3⟩ := boolCheck_eq_zero g1
  obtain ⟨N, hN, hjN⟩ := runningSum_spec hj.1 (hj.2 rfl)
  have j0 : k.j 0 = (N : Fp) := by simpa using hjN 0 (by omega)
  have j1 : k.j 1 = ((N / 2 ^ 10 : ℕ) : Fp) := hjN 1 (by omega)
  norm_num only at hN
  rw [j0, e0, j1] at g2
  rw [j0, e2, e3] at g3
  rw [j0] at g4
  rw [e3, e2] at g5
  rw [e3] at g7
  have hpe := p_eq_T_P
  have hN' : N = b + 2 * k0 + 2 ^ 10 * (N / 2 ^ 10) := by
    refine Fp.natCast_inj ?_ ?_ ?_
    · omega
    · omega
    · rw [Nat.cast_add, Nat.cast_add, Nat.cast_mul, Nat.cast_mul, Nat.cast_pow]
      linear_combination g2
  have hy : y.val = N + 2 ^ 250 * (k2 + 2 ^ 4 * k3) :=
    canonical_mid (s := 250) (n := 13) le_rfl (by omega) hk2 hk3 (by omega)
      (by linear_combination -g3) hjp g4 g5 g7
  omega

/-- The constraints that do not mention the hash. -/
def Constraints (k : Cells) (gd pkd : Point) (value rho psi : Fp) : Prop :=
  ShortCheck 4 k.b0 ∧ ShortCheck 4 k.b3 ∧ ShortCheck 8 k.d2 ∧ ShortCheck 6 k.e0 ∧
  ShortCheck 4 k.e1 ∧ ShortCheck 9 k.g1 ∧ ShortCheck 5 k.h0 ∧
  yCanonicity k.yGd (cellY gd) k.b2 ∧
  yCanonicity k.yPkd (cellY pkd) k.d1 ∧
  (∀ m ∈ k.message, m.Ok) ∧
  RangeCheck 13 false k.aPrime ∧
  RangeCheck 14 false k.b3cPrime ∧
  RangeCheck 14 false k.e1fPrime ∧
  RangeCheck 13 false k.g1g2Prime ∧
  Gate (gateB (k.b 0) k.b0 k.b1 k.b2 k.b3) ∧
  Gate (gateD (k.d 0) k.d0 k.d1 k.d2 (k.d 1)) ∧
  Gate (gateE (k.e 0) k.e0 k.e1) ∧
  Gate (gateG (k.g 0) k.g0 k.g1 (k.g 1)) ∧
  Gate (gateH (k.h 0) k.h0 k.h1) ∧
  Gate (gateGd (extractP gd) k.b0 k.b1 (k.a 0) (k.aPrime 0) (k.a 13) (k.aPrime 13)) ∧
  Gate (gatePkd (extractP pkd) k.b3 k.d0 (k.c 0) (k.b3cPrime 0) (k.c 13) (k.b3cPrime 14)) ∧
  Gate (gateValue value k.d2 (k.d 1) k.e0) ∧
  Gate (gateRho rho k.e1 k.g0 (k.f 0) (k.e1fPrime 0) (k.f 13) (k.e1fPrime 14)) ∧
  Gate (gatePsi psi k.h0 k.g1 k.h1 (k.g 1) (k.g1g2Prime 0) (k.g 13) (k.g1g2Prime 13))

theorem gadget_iff (P : Prims) (strict : Bool) (k : Cells) (gd pkd : Point) (value rho psi : Fp)
    (rcm : Fq) (cm : Fp × Fp) :
    gadget P strict k gd pkd value rho psi rcm cm ↔ Constraints k gd pkd value rho psi ∧
      Returns strict (((messageWords k.message).foldlM (sinsemillaStep P)
        Constants.qNoteCommit).map fun h => h + rcm • Constants.noteCommitR) cm := by
  constructor
  · rintro ⟨h1, h2, h3, h4, h5, h6, h7, h8, h9, ⟨h10, h11⟩, h12⟩
    exact ⟨⟨h1, h2, h3, h4, h5, h6, h7, h8, h9, h10, h12⟩, h11⟩
  · rintro ⟨⟨h1, h2, h3, h4, h5, h6, h7, h8, h9, h10, h12⟩, h11⟩
    exact ⟨h1, h2, h3, h4, h5, h6, h7, h8, h9, ⟨h10, h11⟩, h12⟩

theorem words_eq {k : Cells} {gd pkd : Point} {value rho psi : Fp}
    (h : Constraints k gd pkd value rho psi) :
    value.val < 2 ^ 64 ∧
      messageWords k.message = chunks (Spec.noteBits gd pkd value.val rho psi) := by
  obtain ⟨sb0, sb3, sd2, se0, se1, sg1, sh0, hy1, hy2, hok, ra, rbc, ref, rgg, gb, gD, ge, gg, gh,
    ggd, gpkd, gv, grho, gpsi⟩ := h
  simp only [Cells.message, List.forall_mem_cons, List.not_mem_nil, IsEmpty.forall_iff,
    implies_true, and_true] at hok
  obtain ⟨oka, okb, okc, okd, oke, okf, okg, okh⟩ := hok
  simp only [Gate, gateB, gateD, gateE, gateG, gateH, gateGd, gatePkd, gateValue, gateRho, gatePsi,
    List.forall_mem_cons, List.not_mem_nil, IsEmpty.forall_iff, implies_true, and_true]
    at gb gD ge gg gh ggd gpkd gv grho gpsi
  obtain ⟨gb1, gb2, gb3⟩ := gb
  obtain ⟨gd1, gd2, gd3⟩ := gD
  obtain ⟨gg1, gg2⟩ := gg
  obtain ⟨gh1, gh2⟩ := gh
  obtain ⟨ggd1, ggd2, ggd3, -, ggd5⟩ := ggd
  obtain ⟨gpkd1, gpkd2, gpkd3, gpkd4⟩ := gpkd
  obtain ⟨grho1, grho2, grho3, grho4⟩ := grho
  obtain ⟨gpsi1, gpsi2, gpsi3, -, gpsi5⟩ := gpsi
  obtain ⟨Na, hNa, ja, wa⟩ := oka.spec (by norm_num [p])
  obtain ⟨Nb, hNb, jb, wb⟩ := okb.spec (by norm_num [p])
  obtain ⟨Nc, hNc, jc, wc⟩ := okc.spec (by norm_num [p])
  obtain ⟨Nd, hNd, jd, wd⟩ := okd.spec (by norm_num [p])
  obtain ⟨Ne, hNe, je, we⟩ := oke.spec (by norm_num [p])
  obtain ⟨Nf, hNf, jf, wf⟩ := okf.spec (by norm_num [p])
  obtain ⟨Ng, hNg, jg, wg⟩ := okg.spec (by norm_num [p])
  obtain ⟨Nh, hNh, jh, wh⟩ := okh.spec (by norm_num [p])
  have a0 : k.a 0 = (Na : Fp) := by simpa using ja 0 (by omega)
  have b0' : k.b 0 = (Nb : Fp) := by simpa using jb 0 (by omega)
  have c0 : k.c 0 = (Nc : Fp) := by simpa using jc 0 (by omega)
  have d0' : k.d 0 = (Nd : Fp) := by simpa using jd 0 (by omega)
  have e0' : k.e 0 = (Ne : Fp) := by simpa using je 0 (by omega)
  have f0 : k.f 0 = (Nf : Fp) := by simpa using jf 0 (by omega)
  have g0' : k.g 0 = (Ng : Fp) := by simpa using jg 0 (by omega)
  have h0' : k.h 0 = (Nh : Fp) := by simpa using jh 0 (by omega)
  have c13 : k.c 13 = ((Nc / 2 ^ 130 : ℕ) : Fp) := jc 13 (by norm_num)
  have f13 : k.f 13 = ((Nf / 2 ^ 130 : ℕ) : Fp) := jf 13 (by norm_num)
  have d1' : k.d 1 = ((Nd / 2 ^ 10 : ℕ) : Fp) := jd 1 (by norm_num)
  have g1' : k.g 1 = ((Ng / 2 ^ 10 : ℕ) : Fp) := jg 1 (by norm_num)
  norm_num only at hNa hNb hNc hNd hNe hNf hNg hNh wa wb wc wd we wf wg wh
  clear oka okb okc okd oke okf okg okh ja jb jc jd je jf jg jh
  obtain ⟨b0, hb0, eb0⟩ := (shortCheck_iff (by norm_num) _).1 sb0
  obtain ⟨b3, hb3, eb3⟩ := (shortCheck_iff (by norm_num) _).1 sb3
  obtain ⟨d2, hd2, ed2⟩ := (shortCheck_iff (by norm_num) _).1 sd2
  obtain ⟨e0, he0, ee0⟩ := (shortCheck_iff (by norm_num) _).1 se0
  obtain ⟨e1, he1, ee1⟩ := (shortCheck_iff (by norm_num) _).1 se1
  obtain ⟨g1, hg1, eg1⟩ := (shortCheck_iff (by norm_num) _).1 sg1
  obtain ⟨h0, hh0, eh0⟩ := (shortCheck_iff (by norm_num) _).1 sh0
  obtain ⟨b1, hb1, eb1⟩ := boolCheck_eq_zero gb1
  obtain ⟨b2, hb2, eb2⟩ := boolCheck_eq_zero gb2
  obtain ⟨d0, hd0, ed0⟩ := boolCheck_eq_zero gd1
  obtain ⟨d1, hd1, ed1⟩ := boolCheck_eq_zero gd2
  obtain ⟨g0, hg0, eg0⟩ := boolCheck_eq_zero gg1
  obtain ⟨h1, hh1, eh1⟩ := boolCheck_eq_zero gh1
  clear sb0 sb3 sd2 se0 se1 sg1 sh0 gb1 gb2 gd1 gd2 gg1 gh1
  obtain ⟨d3, hd3⟩ : ∃ d3, d3 = Nd / 2 ^ 10 := ⟨_, rfl⟩
  obtain ⟨g2, hg2⟩ : ∃ g2, g2 = Ng / 2 ^ 10 := ⟨_, rfl⟩
  rw [← hd3] at d1'
  rw [← hg2] at g1'
  rw [eb2] at hy1
  rw [ed1] at hy2
  have y1 := yCanonicity_spec hb2 hy1
  have y2 := yCanonicity_spec hd1 hy2
  rw [b0', eb0, eb1, eb2, eb3] at gb3
  rw [d0', ed0, ed1, ed2, d1'] at gd3
  rw [e0', ee0, ee1] at ge
  rw [g0', eg0, eg1, g1'] at gg2
  rw [h0', eh0, eh1] at gh2
  rw [a0, eb0, eb1] at ggd1
  rw [a0] at ggd2
  rw [eb1, eb0] at ggd3
  rw [eb1] at ggd5
  rw [eb3, c0, ed0] at gpkd1
  rw [eb3, c0] at gpkd2
  rw [ed0, c13] at gpkd3
  rw [ed0] at gpkd4
  rw [ed2, d1', ee0] at gv
  rw [ee1, f0, eg0] at grho1
  rw [ee1, f0] at grho2
  rw [eg0, f13] at grho3
  rw [eg0] at grho4
  rw [eg1, g1', eh0, eh1] at gpsi1
  rw [eg1, g1'] at gpsi2
  rw [eh1, eh0] at gpsi3
  rw [eh1] at gpsi5
  have hd3' : d3 < 2 ^ 50 := by omega
  have hg2' : g2 < 2 ^ 240 := by omega
  have hpe := p_eq_T_P
  have hNb' : Nb = b0 + 2 ^ 4 * (b1 + 2 ^ 1 * (b2 + 2 ^ 1 * b3)) := by
    refine Fp.natCast_inj (by omega) (by omega) ?_
    push_cast; linear_combination gb3
  have hNd' : Nd = d0 + 2 ^ 1 * (d1 + 2 ^ 1 * (d2 + 2 ^ 8 * d3)) := by
    refine Fp.natCast_inj (by omega) (by omega) ?_
    push_cast; linear_combination gd3
  have hNe' : Ne = e0 + 2 ^ 6 * e1 := by
    refine Fp.natCast_inj (by omega) (by omega) ?_
    push_cast; linear_combination ge
  have hNg' : Ng = g0 + 2 ^ 1 * (g1 + 2 ^ 9 * g2) := by
    refine Fp.natCast_inj (by omega) (by omega) ?_
    push_cast; linear_combination gg2
  have hNh' : Nh = h0 + 2 ^ 5 * h1 := by
    refine Fp.natCast_inj (by omega) (by omega) ?_
    push_cast; linear_combination gh2
  have hgd : (extractP gd).val = Na + 2 ^ 250 * (b0 + 2 ^ 4 * b1) :=
    canonical_mid (s := 250) (n := 13) le_rfl (by omega) hb0 hb1 (by omega) ggd1 ra ggd2 ggd3 ggd5
  have hpkd : (extractP pkd).val = b3 + 2 ^ 4 * (Nc + 2 ^ 250 * d0) :=
    canonical_low hb3 (by omega) hd0 gpkd1 rbc gpkd2 gpkd3 gpkd4
  have hrho : rho.val = e1 + 2 ^ 4 * (Nf + 2 ^ 250 * g0) :=
    canonical_low he1 (by omega) hg0 grho1 ref grho2 grho3 grho4
  have hpsi : psi.val = (g1 + 2 ^ 9 * g2) + 2 ^ 249 * (h0 + 2 ^ 5 * h1) :=
    canonical_mid (s := 249) (n := 13) (by omega) (by omega) hh0 hh1 (by omega)
      (by push_cast; linear_combination gpsi1) rgg (by push_cast; linear_combination gpsi2) gpsi3 gpsi5
  have hval : value.val = d2 + 2 ^ 8 * (d3 + 2 ^ 50 * e0) := by
    have e : value = ((d2 + 2 ^ 8 * (d3 + 2 ^ 50 * e0) : ℕ) : Fp) := by
      push_cast; linear_combination -gv
    rw [e, ZMod.val_natCast_of_lt (by omega)]
  refine ⟨by omega, ?_⟩
  have w1 : leBits 255 (extractP gd).val = leBits 250 Na ++ (leBits 4 b0 ++ leBits 1 b1) := by
    rw [hgd, show 255 = 250 + (4 + 1) from rfl, leBits_add (by omega), leBits_add hb0]
  have w2 : leBits 1 (cellY gd).val = leBits 1 b2 := by
    rw [← y1]; simp [leBits]
  have w3 : leBits 255 (extractP pkd).val = leBits 4 b3 ++ (leBits 250 Nc ++ leBits 1 d0) := by
    rw [hpkd, show 255 = 4 + (250 + 1) from rfl, leBits_add hb3, leBits_add (by omega)]
  have w4 : leBits 1 (cellY pkd).val = leBits 1 d1 := by
    rw [← y2]; simp [leBits]
  have w5 : leBits 64 value.val = leBits 8 d2 ++ (leBits 50 d3 ++ leBits 6 e0) := by
    rw [hval, show 64 = 8 + (50 + 6) from rfl, leBits_add hd2, leBits_add hd3']
  have w6 : leBits 255 rho.val = leBits 4 e1 ++ (leBits 250 Nf ++ leBits 1 g0) := by
    rw [hrho, show 255 = 4 + (250 + 1) from rfl, leBits_add he1, leBits_add (by omega)]
  have w7 : leBits 255 psi.val = leBits 9 g1 ++ (leBits 240 g2 ++ (leBits 5 h0 ++ leBits 1 h1)) := by
    rw [hpsi, show 255 = 249 + (5 + 1) from rfl, leBits_add (by omega), leBits_add hh0,
      show 249 = 9 + 240 from rfl, leBits_add hg1, List.append_assoc]
  have vb : leBits 10 Nb = leBits 4 b0 ++ (leBits 1 b1 ++ (leBits 1 b2 ++ leBits 4 b3)) := by
    rw [hNb', show 10 = 4 + (1 + (1 + 4)) from rfl, leBits_add hb0, leBits_add (by omega),
      leBits_add (by omega)]
  have vd : leBits 60 Nd = leBits 1 d0 ++ (leBits 1 d1 ++ (leBits 8 d2 ++ leBits 50 d3)) := by
    rw [hNd', show 60 = 1 + (1 + (8 + 50)) from rfl, leBits_add (by omega), leBits_add (by omega),
      leBits_add hd2]
  have ve : leBits 10 Ne = leBits 6 e0 ++ leBits 4 e1 := by
    rw [hNe', show 10 = 6 + 4 from rfl, leBits_add he0]
  have vg : leBits 250 Ng = leBits 1 g0 ++ (leBits 9 g1 ++ leBits 240 g2) := by
    rw [hNg', show 250 = 1 + (9 + 240) from rfl, leBits_add (by omega), leBits_add hg1]
  have vh : chunks (leBits 10 Nh) = chunks (leBits 5 h0 ++ leBits 1 h1) := by
    rw [chunks_single (by rw [← List.length_pos_iff]; simp) (by simp),
      chunks_single (by rw [← List.length_pos_iff]; simp) (by simp), hNh', bitsNat_append,
      bitsNat_leBits_of_lt (by omega), bitsNat_leBits_of_lt hh0, bitsNat_leBits_of_lt (by omega),
      length_leBits]
  have e5 : Spec.noteBits gd pkd value.val rho psi =
      leBits 250 Na ++ (leBits 10 Nb ++ (leBits 250 Nc ++ (leBits 60 Nd ++ (leBits 10 Ne ++
        (leBits 250 Nf ++ (leBits 250 Ng ++ (leBits 5 h0 ++ leBits 1 h1))))))) := by
    unfold Spec.noteBits
    rw [leBits_toBytes, leBits_toBytes, w1, w2, w3, w4, w5, w6, w7, vb, vd, ve, vg]
    simp only [List.append_assoc]
  rw [e5, chunks_append _ 25 (by simp), chunks_append _ 1 (by simp), chunks_append _ 25 (by simp),
    chunks_append _ 6 (by simp), chunks_append _ 1 (by simp), chunks_append _ 25 (by simp),
    chunks_append _ 25 (by simp), ← vh, ← wa, ← wb, ← wc, ← wd, ← we, ← wf, ← wg, ← wh]
  simp only [messageWords, Cells.message, List.flatMap_cons, List.flatMap_nil, List.append_nil,
    Nat.reduceAdd, Nat.reduceDiv]

theorem noteCommit_eq (P : Prims) (gd pkd : Point) (v : ℕ) (rho psi : Fp) (rcm : Fq) :
    Spec.noteCommit P gd pkd v rho psi rcm =
      ((chunks (Spec.noteBits gd pkd v rho psi)).foldlM (sinsemillaStep P)
        Constants.qNoteCommit).map fun h => h + rcm • Constants.noteCommitR := by
  unfold Spec.noteCommit sinsemillaHashToPoint
  cases (chunks (Spec.noteBits gd pkd v rho psi)).foldlM (sinsemillaStep P)
        Constants.qNoteCommit <;> rfl

theorem value_eq {P : Prims} {strict : Bool} {k : Cells} {gd pkd : Point} {value rho psi : Fp}
    {rcm : Fq} {cm : Fp × Fp} (h : gadget P strict k gd pkd value rho psi rcm cm) :
    (∃ A, Spec.noteCommit P gd pkd value.val rho psi rcm = some A ∧ cm = cells A) ∨
      (strict = false ∧ Spec.noteCommit P gd pkd value.val rho psi rcm = none) := by
  obtain ⟨hc, hret⟩ := (gadget_iff _ _ _ _ _ _ _ _ _ _).1 h
  rw [(words_eq hc).2, ← noteCommit_eq] at hret
  exact hret

theorem complete_of_constraints {P : Prims} {k : Cells} {gd pkd : Point} {value rho psi : Fp}
    {rcm : Fq} {cm : Point} (hc : Constraints k gd pkd value rho psi)
    (h : Spec.noteCommit P gd pkd value.val rho psi rcm = some cm) :
    gadget P true k gd pkd value rho psi rcm (cells cm) := by
  rw [noteCommit_eq] at h
  exact (gadget_iff _ _ _ _ _ _ _ _ _ _).2 ⟨hc, Or.inl ⟨cm, by rw [(words_eq hc).2]; exact h, rfl⟩⟩

/-! ### Completeness -/

/-- Split of a field element at bits `250` and `254` (used for `x(g_d)`). -/
theorem split_250 (x : Fp) : ∃ A B0 B1 : ℕ, A < 2 ^ 250 ∧ B0 < 2 ^ 4 ∧ B1 < 2 ∧
    x = ((A + 2 ^ 250 * (B0 + 2 ^ 4 * B1) : ℕ) : Fp) ∧
    (B1 = 1 → B0 = 0 ∧ A < Constants.T_P) ∧ bitrange x 0 250 = (A : Fp) ∧
    bitrange x 250 254 = (B0 : Fp) ∧ bitrange x 254 255 = (B1 : Fp) := by
  have hT := T_P_lt
  have hpe := p_eq_T_P
  have hlt := Fp.val_lt x
  refine ⟨x.val % 2 ^ 250, x.val / 2 ^ 250 % 2 ^ 4, x.val / 2 ^ 254, by omega, by omega,
    by omega, ?_, by omega, ?_, ?_, ?_⟩
  · conv_lhs => rw [← Fp.natCast_val x]
    congr 1; omega
  · rw [bitrange_eq, pow_zero, Nat.div_one]
  · rw [bitrange_eq]
  · rw [bitrange_eq]; congr 1; omega

/-- Split of a field element at bits `4` and `254` (used for `x(pk_d)` and `ρ`). -/
theorem split_4 (x : Fp) : ∃ B C D : ℕ, B < 2 ^ 4 ∧ C < 2 ^ 250 ∧ D < 2 ∧
    x = ((B + 2 ^ 4 * (C + 2 ^ 250 * D) : ℕ) : Fp) ∧
    (D = 1 → B + 2 ^ 4 * C < Constants.T_P) ∧ bitrange x 0 4 = (B : Fp) ∧
    bitrange x 4 254 = (C : Fp) ∧ bitrange x 254 255 = (D : Fp) := by
  have hT := T_P_lt
  have hpe := p_eq_T_P
  have hlt := Fp.val_lt x
  refine ⟨x.val % 2 ^ 4, x.val / 2 ^ 4 % 2 ^ 250, x.val / 2 ^ 254, by omega, by omega,
    by omega, ?_, by omega, ?_, ?_, ?_⟩
  · conv_lhs => rw [← Fp.natCast_val x]
    congr 1; omega
  · rw [bitrange_eq, pow_zero, Nat.div_one]
  · rw [bitrange_eq]
  · rw [bitrange_eq]; congr 1; omega

/-- Split of a field element at bits `9`, `249` and `254` (used for `ψ`). -/
theorem split_9 (x : Fp) : ∃ G1 G2 H0 H1 : ℕ, G1 < 2 ^ 9 ∧ G2 < 2 ^ 240 ∧ H0 < 2 ^ 5 ∧ H1 < 2 ∧
    x = ((G1 + 2 ^ 9 * (G2 + 2 ^ 240 * (H0 + 2 ^ 5 * H1)) : ℕ) : Fp) ∧
    (H1 = 1 → H0 = 0 ∧ G1 + 2 ^ 9 * G2 < Constants.T_P) ∧ bitrange x 0 9 = (G1 : Fp) ∧
    bitrange x 9 249 = (G2 : Fp) ∧ bitrange x 249 254 = (H0 : Fp) ∧
    bitrange x 254 255 = (H1 : Fp) := by
  have hT := T_P_lt
  have hpe := p_eq_T_P
  have hlt := Fp.val_lt x
  refine ⟨x.val % 2 ^ 9, x.val / 2 ^ 9 % 2 ^ 240, x.val / 2 ^ 249 % 2 ^ 5, x.val / 2 ^ 254,
    by omega, by omega, by omega, by omega, ?_, by omega, ?_, ?_, ?_, ?_⟩
  · conv_lhs => rw [← Fp.natCast_val x]
    congr 1; omega
  · rw [bitrange_eq, pow_zero, Nat.div_one]
  · rw [bitrange_eq]
  · rw [bitrange_eq]
  · rw [bitrange_eq]; congr 1; omega

/-- Split of a 64-bit value at bits `8` and `58`. -/
theorem split_64 {x : Fp} (hx : x.val < 2 ^ 64) : ∃ D2 D3 E0 : ℕ, D2 < 2 ^ 8 ∧ D3 < 2 ^ 50 ∧
    E0 < 2 ^ 6 ∧ x = ((D2 + 2 ^ 8 * (D3 + 2 ^ 50 * E0) : ℕ) : Fp) ∧ bitrange x 0 8 = (D2 : Fp) ∧
    bitrange x 8 58 = (D3 : Fp) ∧ bitrange x 58 64 = (E0 : Fp) := by
  refine ⟨x.val % 2 ^ 8, x.val / 2 ^ 8 % 2 ^ 50, x.val / 2 ^ 58 % 2 ^ 6, by omega, by omega,
    by omega, ?_, ?_, ?_, ?_⟩
  · conv_lhs => rw [← Fp.natCast_val x]
    congr 1; omega
  · rw [bitrange_eq, pow_zero, Nat.div_one]
  · rw [bitrange_eq]
  · rw [bitrange_eq]

/-- With the top bit set, the low part has at most `13` words. -/
theorem z13_eq_zero (t N : ℕ) (ht : t < 2) (h : t = 1 → N < 2 ^ 130) :
    (t : Fp) * runningSumOf (N : Fp) 13 = 0 := by
  have hpe := p_eq_T_P
  interval_cases t
  · simp
  · rw [runningSumOf_eq_zero (by omega) (by have := h rfl; omega), mul_zero]

theorem mul_eq_zero_of_top {t m : ℕ} (ht : t < 2) (h : t = 1 → m = 0) : (t : Fp) * (m : Fp) = 0 := by
  interval_cases t
  · simp
  · rw [h rfl]; simp

theorem bitrange_one (y : Fp) : bitrange y 0 1 = ((y.val % 2 : ℕ) : Fp) := by
  rw [bitrange_eq, pow_zero, Nat.div_one, show (2 : ℕ) ^ (1 - 0) = 2 from rfl]

theorem yCanonicity_assign (y : Fp) :
    yCanonicity (assignY y (bitrange y 0 1)) y (bitrange y 0 1) := by
  have hT := T_P_lt
  have hpe := p_eq_T_P
  obtain ⟨A, K2, K3, hA, hK2, hK3, hy, hy1, eA, eK2, eK3⟩ := split_250 y
  obtain ⟨L, K0, K1, hL, hK0, hK1, hA', eL, eK0, eK1⟩ : ∃ L K0 K1 : ℕ, L < 2 ∧ K0 < 2 ^ 9 ∧
      K1 = A / 2 ^ 10 ∧ A = L + 2 * K0 + 2 ^ 10 * K1 ∧ bitrange y 0 1 = (L : Fp) ∧
      bitrange y 1 10 = (K0 : Fp) ∧ bitrange y 10 250 = (K1 : Fp) := by
    have hyv : y.val = A + 2 ^ 250 * (K2 + 2 ^ 4 * K3) := by
      rw [hy, ZMod.val_natCast_of_lt]
      interval_cases K3
      · omega
      · have := hy1 rfl; omega
    refine ⟨A % 2, A / 2 % 2 ^ 9, A / 2 ^ 10, by omega, by omega, rfl, by omega, ?_, ?_, ?_⟩
    · rw [bitrange_one, hyv]; congr 1; omega
    · rw [bitrange_eq, hyv]; congr 1; omega
    · rw [bitrange_eq, hyv]; congr 1; omega
  have ej : (L : Fp) + 2 * (K0 : Fp) + 2 ^ 10 * (K1 : Fp) = (A : Fp) := by
    rw [hA']; push_cast; ring
  have hassign : assignY y (bitrange y 0 1) =
      { k0 := K0, k2 := K2, k3 := K3, j := runningSumOf (A : Fp),
        jPrime := runningSumOf ((A : Fp) + 2 ^ (10 * 13) - (Constants.T_P : Fp)) } := by
    unfold assignY
    simp only [eL, eK0, eK1, eK2, eK3, ej]
  rw [hassign, eL]
  refine ⟨shortCheck_natCast (by norm_num) hK0, shortCheck_natCast (by norm_num) hK2,
    ⟨runningSum_runningSumOf _ _, fun _ => runningSumOf_eq_zero (by norm_num [p]) (by omega)⟩,
    rangeCheck_runningSumOf _ _, ?_⟩
  simp only [Gate, gateY, List.forall_mem_cons, List.not_mem_nil, IsEmpty.forall_iff,
    implies_true, and_true, runningSumOf_zero]
  refine ⟨boolCheck_natCast hK3, ?_, by rw [hy]; push_cast; ring, by ring,
    mul_eq_zero_of_top hK3 fun h => (hy1 h).1,
    z13_eq_zero _ _ hK3 fun h => by have := (hy1 h).2; omega,
    shifted_eq_zero (by norm_num) (by norm_num) (fun h => (hy1 h).2) hK3⟩
  rw [runningSumOf_natCast (by omega), mul_one, ← hK1, ← ej]
  ring

theorem constraints_assign (gd pkd : Point) (value rho psi : Fp) (hv : value.val < 2 ^ 64) :
    Constraints (assign gd pkd value rho psi) gd pkd value rho psi := by
  have hT := T_P_lt
  have hpe := p_eq_T_P
  have hyg := yCanonicity_assign (cellY gd)
  have hyp := yCanonicity_assign (cellY pkd)
  obtain ⟨A, B0, B1, hA, hB0, hB1, hgd, hgd1, ea, eb0, eb1⟩ := split_250 (extractP gd)
  obtain ⟨B3, C, D0, hB3, hC, hD0, hpkd, hpkd1, eb3, ec, ed0⟩ := split_4 (extractP pkd)
  obtain ⟨D2, D3, E0, hD2, hD3, hE0, hval, ed2, ed3, ee0⟩ := split_64 hv
  obtain ⟨E1, F, G0, hE1, hF, hG0, hrho, hrho1, ee1, ef, eg0⟩ := split_4 rho
  obtain ⟨G1, G2, H0, H1, hG1, hG2, hH0, hH1, hpsi, hpsi1, eg1, eg2, eh0, eh1⟩ := split_9 psi
  obtain ⟨B2, hB2, eb2⟩ : ∃ B2 : ℕ, B2 < 2 ∧ bitrange (cellY gd) 0 1 = (B2 : Fp) :=
    ⟨_, Nat.mod_lt _ (by norm_num), bitrange_one _⟩
  obtain ⟨D1, hD1, ed1⟩ : ∃ D1 : ℕ, D1 < 2 ∧ bitrange (cellY pkd) 0 1 = (D1 : Fp) :=
    ⟨_, Nat.mod_lt _ (by norm_num), bitrange_one _⟩
  have e00 : bitrange 0 0 4 = 0 := by
    rw [bitrange_eq, ZMod.val_zero, Nat.zero_div, Nat.zero_mod, Nat.cast_zero]
  have fa : fromSubpieces [(250, (A : Fp))] = (A : Fp) := by simp [fromSubpieces]
  have fb : fromSubpieces [(4, (B0 : Fp)), (1, (B1 : Fp)), (1, (B2 : Fp)), (4, (B3 : Fp))] =
      ((B0 + 2 ^ 4 * (B1 + 2 ^ 1 * (B2 + 2 ^ 1 * B3)) : ℕ) : Fp) := by
    simp only [fromSubpieces]; push_cast; ring
  have fc : fromSubpieces [(250, (C : Fp))] = (C : Fp) := by simp [fromSubpieces]
  have fd : fromSubpieces [(1, (D0 : Fp)), (1, (D1 : Fp)), (8, (D2 : Fp)), (50, (D3 : Fp))] =
      ((D0 + 2 ^ 1 * (D1 + 2 ^ 1 * (D2 + 2 ^ 8 * D3)) : ℕ) : Fp) := by
    simp only [fromSubpieces]; push_cast; ring
  have fe : fromSubpieces [(6, (E0 : Fp)), (4, (E1 : Fp))] = ((E0 + 2 ^ 6 * E1 : ℕ) : Fp) := by
    simp only [fromSubpieces]; push_cast; ring
  have ff : fromSubpieces [(250, (F : Fp))] = (F : Fp) := by simp [fromSubpieces]
  have fg : fromSubpieces [(1, (G0 : Fp)), (9, (G1 : Fp)), (240, (G2 : Fp))] =
      ((G0 + 2 ^ 1 * (G1 + 2 ^ 9 * G2) : ℕ) : Fp) := by
    simp only [fromSubpieces]; push_cast; ring
  have fh : fromSubpieces [(5, (H0 : Fp)), (1, (H1 : Fp)), (4, (0 : Fp))] =
      ((H0 + 2 ^ 5 * H1 : ℕ) : Fp) := by
    simp only [fromSubpieces]; push_cast; ring
  have z1g : runningSumOf ((G0 + 2 ^ 1 * (G1 + 2 ^ 9 * G2) : ℕ) : Fp) 1 = (G2 : Fp) := by
    rw [runningSumOf_natCast (by omega), show (G0 + 2 ^ 1 * (G1 + 2 ^ 9 * G2)) / 2 ^ (10 * 1) = G2 by
      omega]
  have z1d : runningSumOf ((D0 + 2 ^ 1 * (D1 + 2 ^ 1 * (D2 + 2 ^ 8 * D3)) : ℕ) : Fp) 1 =
      (D3 : Fp) := by
    rw [runningSumOf_natCast (by omega),
      show (D0 + 2 ^ 1 * (D1 + 2 ^ 1 * (D2 + 2 ^ 8 * D3))) / 2 ^ (10 * 1) = D3 by omega]
  have i1 : (B3 : Fp) + 2 ^ 4 * (C : Fp) + 2 ^ 140 - (Constants.T_P : Fp) =
      ((B3 + 2 ^ 4 * C : ℕ) : Fp) + 2 ^ (10 * 14) - (Constants.T_P : Fp) := by
    push_cast; ring
  have i2 : (E1 : Fp) + 2 ^ 4 * (F : Fp) + 2 ^ 140 - (Constants.T_P : Fp) =
      ((E1 + 2 ^ 4 * F : ℕ) : Fp) + 2 ^ (10 * 14) - (Constants.T_P : Fp) := by
    push_cast; ring
  have i3 : (G1 : Fp) + 2 ^ 9 * (G2 : Fp) + 2 ^ 130 - (Constants.T_P : Fp) =
      ((G1 + 2 ^ 9 * G2 : ℕ) : Fp) + 2 ^ (10 * 13) - (Constants.T_P : Fp) := by
    push_cast; ring
  have hassign : assign gd pkd value rho psi =
      { a := runningSumOf (A : Fp),
        b := runningSumOf ((B0 + 2 ^ 4 * (B1 + 2 ^ 1 * (B2 + 2 ^ 1 * B3)) : ℕ) : Fp),
        c := runningSumOf (C : Fp),
        d := runningSumOf ((D0 + 2 ^ 1 * (D1 + 2 ^ 1 * (D2 + 2 ^ 8 * D3)) : ℕ) : Fp),
        e := runningSumOf ((E0 + 2 ^ 6 * E1 : ℕ) : Fp), f := runningSumOf (F : Fp),
        g := runningSumOf ((G0 + 2 ^ 1 * (G1 + 2 ^ 9 * G2) : ℕ) : Fp),
        h := runningSumOf ((H0 + 2 ^ 5 * H1 : ℕ) : Fp),
        b0 := B0, b1 := B1, b2 := B2, b3 := B3, d0 := D0, d1 := D1, d2 := D2, e0 := E0, e1 := E1,
        g0 := G0, g1 := G1, h0 := H0, h1 := H1,
        yGd := assignY (cellY gd) (B2 : Fp), yPkd := assignY (cellY pkd) (D1 : Fp),
        aPrime := runningSumOf ((A : Fp) + 2 ^ (10 * 13) - (Constants.T_P : Fp)),
        b3cPrime := runningSumOf (((B3 + 2 ^ 4 * C : ℕ) : Fp) + 2 ^ (10 * 14) - (Constants.T_P : Fp)),
        e1fPrime := runningSumOf (((E1 + 2 ^ 4 * F : ℕ) : Fp) + 2 ^ (10 * 14) - (Constants.T_P : Fp)),
        g1g2Prime :=
          runningSumOf (((G1 + 2 ^ 9 * G2 : ℕ) : Fp) + 2 ^ (10 * 13) - (Constants.T_P : Fp)) } := by
    unfold assign
    simp only [ea, eb0, eb1, eb2, eb3, ec, ed0, ed1, ed2, ed3, ee0, ee1, ef, eg0, eg1, eg2, eh0, eh1,
      e00, fa, fb, fc, fd, fe, ff, fg, fh, z1g, i1, i2, i3]
  rw [eb2] at hyg
  rw [ed1] at hyp
  rw [hassign]
  refine ⟨shortCheck_natCast (by norm_num) hB0, shortCheck_natCast (by norm_num) hB3,
    shortCheck_natCast (by norm_num) hD2, shortCheck_natCast (by norm_num) hE0,
    shortCheck_natCast (by norm_num) hE1, shortCheck_natCast (by norm_num) hG1,
    shortCheck_natCast (by norm_num) hH0, hyg, hyp, ?_, rangeCheck_runningSumOf _ _,
    rangeCheck_runningSumOf _ _, rangeCheck_runningSumOf _ _, rangeCheck_runningSumOf _ _,
    ?_, ?_, ?_, ?_, ?_, ?_, ?_, ?_, ?_, ?_⟩
  · simp only [Cells.message, List.forall_mem_cons, List.not_mem_nil, IsEmpty.forall_iff,
      implies_true, and_true]
    refine ⟨?_, ?_, ?_, ?_, ?_, ?_, ?_, ?_⟩ <;> exact piece_ok (by norm_num [p]) (by omega)
  all_goals simp only [Gate, gateB, gateD, gateE, gateG, gateH, gateGd, gatePkd, gateValue, gateRho,
      gatePsi, List.forall_mem_cons, List.not_mem_nil, IsEmpty.forall_iff, implies_true, and_true,
      runningSumOf_zero, z1g, z1d]
  · exact ⟨boolCheck_natCast hB1, boolCheck_natCast hB2, by push_cast; ring⟩
  · exact ⟨boolCheck_natCast hD0, boolCheck_natCast hD1, by push_cast; ring⟩
  · push_cast; ring
  · exact ⟨boolCheck_natCast hG0, by push_cast; ring⟩
  · exact ⟨boolCheck_natCast hH1, by push_cast; ring⟩
  · exact ⟨by rw [hgd]; push_cast; ring, by ring, mul_eq_zero_of_top hB1 fun h => (hgd1 h).1,
      z13_eq_zero _ _ hB1 fun h => by have := (hgd1 h).2; omega,
      shifted_eq_zero (by norm_num) (by norm_num) (fun h => (hgd1 h).2) hB1⟩
  · exact ⟨by rw [hpkd]; push_cast; ring, by push_cast; ring,
      z13_eq_zero _ _ hD0 fun h => by have := hpkd1 h; omega,
      shifted_eq_zero (by norm_num) (by norm_num) hpkd1 hD0⟩
  · rw [hval]; push_cast; ring
  · exact ⟨by rw [hrho]; push_cast; ring, by push_cast; ring,
      z13_eq_zero _ _ hG0 fun h => by have := hrho1 h; omega,
      shifted_eq_zero (by norm_num) (by norm_num) hrho1 hG0⟩
  · exact ⟨by rw [hpsi]; push_cast; ring, by push_cast; ring,
      mul_eq_zero_of_top hH1 fun h => (hpsi1 h).1,
      z13_eq_zero _ _ hH1 fun h => by have := (hpsi1 h).2; omega,
      shifted_eq_zero (by norm_num) (by norm_num) (fun h => (hpsi1 h).2) hH1⟩

end NoteCommit

end Orchard
