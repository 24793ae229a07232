import Verif.Lemmas.Halo2
import Verif.Model.CommitIvk

/-! # Soundness and completeness of the `commit_ivk` gadget -/

namespace Orchard

open Halo2

namespace CommitIvk

/-- The constraints that do not mention the hash. -/
def Constraints (k : Cells) (ak nk : Fp) : Prop :=
  ShortCheck 4 k.b0 ∧ ShortCheck 5 k.b2 ∧ ShortCheck 9 k.d0 ∧
  (∀ m ∈ k.message, m.Ok) ∧
  RangeCheck 13 false k.aPrime ∧
  RangeCheck 14 false k.b2cPrime ∧
  Gate (gate ak (k.a 0) (k.b 0) k.b0 k.b1 k.b2 (k.a 13) (k.aPrime 0) (k.aPrime 13)
    nk (k.c 0) (k.d 0) k.d0 k.d1 (k.c 13) (k.b2cPrime 0) (k.b2cPrime 14))

theorem gadget_iff (P : Prims) (strict : Bool) (k : Cells) (ak nk : Fp) (rivk : Fq) (ivk : Fp) :
    gadget P strict k ak nk rivk ivk ↔ Constraints k ak nk ∧
      ∃ y, Returns strict (((messageWords k.message).foldlM (sinsemillaStep P)
        Constants.qCommitIvk).map fun h => h + rivk • Constants.commitIvkR) (ivk, y) := by
  constructor
  · rintro ⟨h1, h2, h3, ⟨out, ⟨h4, h5⟩, rfl⟩, h7, h8, h9⟩
    exact ⟨⟨h1, h2, h3, h4, h7, h8, h9⟩, out.2, h5⟩
  · rintro ⟨⟨h1, h2, h3, h4, h7, h8, h9⟩, y, h5⟩
    exact ⟨h1, h2, h3, ⟨(ivk, y), ⟨h4, h5⟩, rfl⟩, h7, h8, h9⟩

theorem words_eq {k : Cells} {ak nk : Fp} (h : Constraints k ak nk) :
    messageWords k.message = chunks (Fp.toLeBits 255 ak ++ Fp.toLeBits 255 nk) := by
  obtain ⟨hb0, hb2, hd0, hok, hap, hbcp, hgate⟩ := h
  simp only [Cells.message, List.forall_mem_cons, List.not_mem_nil, IsEmpty.forall_iff,
    implies_true, and_true] at hok
  obtain ⟨hoka, hokb, hokc, hokd⟩ := hok
  simp only [Gate, gate, List.forall_mem_cons, List.not_mem_nil, IsEmpty.forall_iff,
    implies_true, and_true] at hgate
  obtain ⟨g1, g2, g3, g4, g5, g6, g7, -, g9, g10, g11, -, g13, g14⟩ := hgate
  obtain ⟨Na, hNa, hja, hwa⟩ := hoka.spec (by norm_num [p])
  obtain ⟨Nb, hNb, hjb, hwb⟩ := hokb.spec (by norm_num [p])
  obtain ⟨Nc, hNc, hjc, hwc⟩ := hokc.spec (by norm_num [p])
  obtain ⟨Nd, hNd, hjd, hwd⟩ := hokd.spec (by norm_num [p])
  have ha0 : k.a 0 = (Na : Fp) := by simpa using hja 0 (by omega)
  have hb0' : k.b 0 = (Nb : Fp) := by simpa using hjb 0 (by omega)
  have hc0 : k.c 0 = (Nc : Fp) := by simpa using hjc 0 (by omega)
  have hd0' : k.d 0 = (Nd : Fp) := by simpa using hjd 0 (by omega)
  norm_num only at hNa hNb hNc hNd hwa hwb hwc hwd
  obtain ⟨b0, hb0, hb0e⟩ := (shortCheck_iff (by norm_num) _).1 hb0
  obtain ⟨b2, hb2, hb2e⟩ := (shortCheck_iff (by norm_num) _).1 hb2
  obtain ⟨d0, hd0, hd0e⟩ := (shortCheck_iff (by norm_num) _).1 hd0
  obtain ⟨b1, hb1, hb1e⟩ := boolCheck_eq_zero g1
  obtain ⟨d1, hd1, hd1e⟩ := boolCheck_eq_zero g2
  rw [hb0', hb0e, hb1e, hb2e] at g3
  rw [hd0', hd0e, hd1e] at g4
  rw [ha0, hb0e, hb1e] at g5
  rw [hb2e, hc0, hd0e, hd1e] at g6
  rw [hb1e, hb0e] at g7
  rw [ha0] at g9
  rw [hb1e] at g10
  rw [hd1e, hd0e] at g11
  rw [hb2e, hc0] at g13
  rw [hd1e] at g14
  have hNb' : Nb = b0 + 2 ^ 4 * (b1 + 2 ^ 1 * b2) := by
    refine Fp.natCast_inj ?_ ?_ ?_
    · have := p_eq_T_P; omega
    · have := p_eq_T_P; omega
    · push_cast; linear_combination g3
  have hNd' : Nd = d0 + 2 ^ 9 * d1 := by
    refine Fp.natCast_inj ?_ ?_ ?_
    · have := p_eq_T_P; omega
    · have := p_eq_T_P; omega
    · push_cast; linear_combination g4
  have hak : ak.val = Na + 2 ^ 250 * (b0 + 2 ^ 4 * b1) :=
    canonical_mid (s := 250) (n := 13) le_rfl (by omega) hb0 hb1 (by omega) g5 hap g9 g7 g10
  have hnk : nk.val = (b2 + 2 ^ 5 * Nc) + 2 ^ 245 * (d0 + 2 ^ 9 * d1) :=
    canonical_mid (s := 245) (n := 14) (by omega) (by omega) hd0 hd1 (by omega)
      (by push_cast; linear_combination g6) hbcp (by push_cast; linear_combination g13) g11 g14
  have e1 : Fp.toLeBits 255 ak = leBits 250 Na ++ (leBits 4 b0 ++ leBits 1 b1) := by
    unfold Fp.toLeBits
    rw [hak, show 255 = 250 + (4 + 1) from rfl, leBits_add (by omega), leBits_add hb0]
  have e2 : Fp.toLeBits 255 nk = leBits 5 b2 ++ (leBits 240 Nc ++ (leBits 9 d0 ++ leBits 1 d1)) := by
    unfold Fp.toLeBits
    rw [hnk, show 255 = 245 + (9 + 1) from rfl, leBits_add (by omega), leBits_add hd0,
      show 245 = 5 + 240 from rfl, leBits_add hb2, List.append_assoc]
  have e3 : leBits 10 Nb = leBits 4 b0 ++ (leBits 1 b1 ++ leBits 5 b2) := by
    rw [hNb', show 10 = 4 + (1 + 5) from rfl, leBits_add hb0, leBits_add (by omega)]
  have e4 : leBits 10 Nd = leBits 9 d0 ++ leBits 1 d1 := by
    rw [hNd', show 10 = 9 + 1 from rfl, leBits_add hd0]
  have e5 : Fp.toLeBits 255 ak ++ Fp.toLeBits 255 nk =
      leBits 250 Na ++ (leBits 10 Nb ++ (leBits 240 Nc ++ leBits 10 Nd)) := by
    rw [e1, e2, e3, e4]
    simp only [List.append_assoc]
  rw [e5, chunks_append _ 25 (by simp), chunks_append _ 1 (by simp), chunks_append _ 24 (by simp),
    ← hwa, ← hwb, ← hwc, ← hwd]
  simp only [messageWords, Cells.message, List.flatMap_cons, List.flatMap_nil, List.append_nil,
    Nat.reduceAdd, Nat.reduceDiv]

theorem commitIvk_eq (P : Prims) (ak nk : Fp) (rivk : Fq) :
    commitIvk P ak nk rivk =
      ((chunks (Fp.toLeBits 255 ak ++ Fp.toLeBits 255 nk)).foldlM (sinsemillaStep P)
        Constants.qCommitIvk).map fun h => extractP (h + rivk • Constants.commitIvkR) := by
  unfold commitIvk sinsemillaShortCommit sinsemillaCommit sinsemillaHashToPoint
  rw [Option.map_map]
  rfl

theorem value_eq {P : Prims} {strict : Bool} {k : Cells} {ak nk : Fp} {rivk : Fq} {ivk : Fp}
    (h : gadget P strict k ak nk rivk ivk) :
    commitIvk P ak nk rivk = some ivk ∨ (strict = false ∧ commitIvk P ak nk rivk = none) := by
  obtain ⟨hc, y, hret⟩ := (gadget_iff _ _ _ _ _ _ _).1 h
  rw [words_eq hc] at hret
  rw [commitIvk_eq]
  rcases hret with ⟨A, hret, hA⟩ | ⟨hs, hret⟩
  · left
    obtain ⟨B, hB, rfl⟩ := Option.map_eq_some_iff.1 hret
    rw [hB]
    exact congrArg some (congrArg Prod.fst hA).symm
  · right; exact ⟨hs, by rw [Option.map_eq_none_iff.1 hret]; rfl⟩

theorem complete_of_constraints {P : Prims} {k : Cells} {ak nk : Fp} {rivk : Fq} {ivk : Fp}
    (hc : Constraints k ak nk) (h : commitIvk P ak nk rivk = some ivk) :
    gadget P true k ak nk rivk ivk := by
  rw [commitIvk_eq, Option.map_eq_some_iff] at h
  obtain ⟨hh, h1, h2⟩ := h
  exact (gadget_iff _ _ _ _ _ _ _).2 ⟨hc, cellY (hh + rivk • Constants.commitIvkR),
    Or.inl ⟨_, by rw [words_eq hc, h1]; rfl, by rw [← h2]; rfl⟩⟩

theorem constraints_assign (ak nk : Fp) : Constraints (assign ak nk) ak nk := by
  have hT := T_P_lt
  have hpe := p_eq_T_P
  -- `ak`
  obtain ⟨A, B0, B1, hA, hB0, hB1, hak, hak1, ea, eb0, eb1⟩ :
      ∃ A B0 B1 : ℕ, A < 2 ^ 250 ∧ B0 < 2 ^ 4 ∧ B1 < 2 ∧ ak = ((A + 2 ^ 250 * (B0 + 2 ^ 4 * B1) : ℕ) : Fp) ∧
        (B1 = 1 → B0 = 0 ∧ A < Constants.T_P) ∧ bitrange ak 0 250 = (A : Fp) ∧
        bitrange ak 250 254 = (B0 : Fp) ∧ bitrange ak 254 255 = (B1 : Fp) := by
    have hlt := Fp.val_lt ak
    refine ⟨ak.val % 2 ^ 250, ak.val / 2 ^ 250 % 2 ^ 4, ak.val / 2 ^ 254, by omega, by omega,
      by omega, ?_, by omega, ?_, ?_, ?_⟩
    · conv_lhs => rw [← Fp.natCast_val ak]
      congr 1; omega
    · rw [bitrange_eq, pow_zero, Nat.div_one]
    · rw [bitrange_eq]
    · rw [bitrange_eq]; congr 1; omega
  obtain ⟨B2, C, D0, D1, hB2, hC, hD0, hD1, hnk, hnk1, eb2, ec, ed0, ed1⟩ :
      ∃ B2 C D0 D1 : ℕ, B2 < 2 ^ 5 ∧ C < 2 ^ 240 ∧ D0 < 2 ^ 9 ∧ D1 < 2 ∧
        nk = ((B2 + 2 ^ 5 * (C + 2 ^ 240 * (D0 + 2 ^ 9 * D1)) : ℕ) : Fp) ∧
        (D1 = 1 → D0 = 0 ∧ B2 + 2 ^ 5 * C < Constants.T_P) ∧ bitrange nk 0 5 = (B2 : Fp) ∧
        bitrange nk 5 245 = (C : Fp) ∧ bitrange nk 245 254 = (D0 : Fp) ∧
        bitrange nk 254 255 = (D1 : Fp) := by
    have hlt := Fp.val_lt nk
    refine ⟨nk.val % 2 ^ 5, nk.val / 2 ^ 5 % 2 ^ 240, nk.val / 2 ^ 245 % 2 ^ 9, nk.val / 2 ^ 254,
      by omega, by omega, by omega, by omega, ?_, by omega, ?_, ?_, ?_, ?_⟩
    · conv_lhs => rw [← Fp.natCast_val nk]
      congr 1; omega
    · rw [bitrange_eq, pow_zero, Nat.div_one]
    · rw [bitrange_eq]
    · rw [bitrange_eq]
    · rw [bitrange_eq]; congr 1; omega
  have fa : fromSubpieces [(250, (A : Fp))] = (A : Fp) := by simp [fromSubpieces]
  have fb : fromSubpieces [(4, (B0 : Fp)), (1, (B1 : Fp)), (5, (B2 : Fp))] =
      ((B0 + 2 ^ 4 * (B1 + 2 ^ 1 * B2) : ℕ) : Fp) := by
    simp only [fromSubpieces]; push_cast; ring
  have fc : fromSubpieces [(240, (C : Fp))] = (C : Fp) := by simp [fromSubpieces]
  have fd : fromSubpieces [(9, (D0 : Fp)), (1, (D1 : Fp))] = ((D0 + 2 ^ 9 * D1 : ℕ) : Fp) := by
    simp only [fromSubpieces]; push_cast; ring
  have hassign : assign ak nk =
      { a := runningSumOf (A : Fp), b := runningSumOf ((B0 + 2 ^ 4 * (B1 + 2 ^ 1 * B2) : ℕ) : Fp),
        c := runningSumOf (C : Fp), d := runningSumOf ((D0 + 2 ^ 9 * D1 : ℕ) : Fp),
        b0 := B0, b1 := B1, b2 := B2, d0 := D0, d1 := D1,
        aPrime := runningSumOf ((A : Fp) + 2 ^ (10 * 13) - (Constants.T_P : Fp)),
        b2cPrime := runningSumOf (((B2 + 2 ^ 5 * C : ℕ) : Fp) + 2 ^ (10 * 14) - (Constants.T_P : Fp)) } := by
    have e : (B2 : Fp) + C * 2 ^ 5 + 2 ^ 140 - (Constants.T_P : Fp) =
        ((B2 + 2 ^ 5 * C : ℕ) : Fp) + 2 ^ (10 * 14) - (Constants.T_P : Fp) := by
      push_cast; ring
    unfold assign
    simp only [ea, eb0, eb1, eb2, ec, ed0, ed1, fa, fb, fc, fd, e]
  rw [hassign]
  have hz : ∀ (t N : ℕ), t < 2 → N < p → (t = 1 → N < Constants.T_P) →
      (t : Fp) * runningSumOf (N : Fp) 13 = 0 := by
    intro t N ht hN h
    interval_cases t
    · simp
    · rw [runningSumOf_eq_zero (by omega) (by have := h rfl; omega), mul_zero]
  refine ⟨shortCheck_natCast (by norm_num) hB0, shortCheck_natCast (by norm_num) hB2,
    shortCheck_natCast (by norm_num) hD0, ?_, rangeCheck_runningSumOf _ _,
    rangeCheck_runningSumOf _ _, ?_⟩
  · simp only [Cells.message, List.forall_mem_cons, List.not_mem_nil, IsEmpty.forall_iff,
      implies_true, and_true]
    exact ⟨piece_ok (by norm_num [p]) (by omega), piece_ok (by norm_num [p]) (by omega),
      piece_ok (by norm_num [p]) (by omega), piece_ok (by norm_num [p]) (by omega)⟩
  · simp only [Gate, gate, List.forall_mem_cons, List.not_mem_nil, IsEmpty.forall_iff,
      implies_true, and_true, runningSumOf_zero]
    refine ⟨boolCheck_natCast hB1, boolCheck_natCast hD1, by push_cast; ring, by push_cast; ring,
      by rw [hak]; push_cast; ring, by rw [hnk]; push_cast; ring, ?_,
      hz _ _ hB1 (by omega) fun h => (hak1 h).2, by ring,
      shifted_eq_zero (by norm_num) (by norm_num) (fun h => (hak1 h).2) hB1, ?_, ?_,
      by push_cast; ring,
      shifted_eq_zero (by norm_num) (by norm_num) (fun h => (hnk1 h).2) hD1⟩
    · interval_cases B1
      · simp
      · rw [(hak1 rfl).1]; simp
    · interval_cases D1
      · simp
      · rw [(hnk1 rfl).1]; simp
    · exact hz _ _ hD1 (by omega) fun h => by have := (hnk1 h).2; omega

end CommitIvk

end Orchard
