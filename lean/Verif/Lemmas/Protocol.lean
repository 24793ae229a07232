import Verif.Lemmas.Keys
import Verif.Lemmas.Sinsemilla
import Verif.Spec.Protocol

/-!
# The model's primitives agree with the protocol specification's
-/

namespace Orchard

open Spec.Protocol

theorem leos2ip_eq (l : List UInt8) : leos2ip l = leNat l := by
  induction l with
  | nil => rfl
  | cons b bs ih => simp only [leos2ip, leNat, ih]

theorem leBytes_eq_map (n x : ℕ) :
    leBytes n x = (List.range n).map fun i => UInt8.ofNat (x / 256 ^ i % 256) := by
  induction n generalizing x with
  | zero => rfl
  | succ n ih =>
    rw [List.range_succ_eq_map, List.map_cons, List.map_map, leBytes, ih]
    congr 1
    · apply UInt8.toNat_inj.1
      simp
    · apply List.map_congr_left
      intro i _
      simp only [Function.comp, Nat.succ_eq_add_one]
      rw [Nat.div_div_eq_div_mul, pow_succ, mul_comm]

theorem i2leosp_eq (x : ℕ) : i2leosp x = leBytes 32 x := (leBytes_eq_map 32 x).symm

theorem i2lebsp_spec_eq (k n : ℕ) : Spec.Protocol.i2lebsp k n = leBits k n :=
  (leBits_eq_map_range k n).symm

theorem reprP_eq (A : Point) : reprP A = A.toBytes.toList := by
  cases A with
  | zero => rw [reprP, i2leosp_eq]; rfl
  | some x y h => rw [reprP, i2leosp_eq]; rfl

theorem extract_eq (A : Point) : extract A = extractP A := by cases A <;> rfl

theorem toScalar_spec_eq (x : Bytes 64) : Spec.Protocol.toScalar x.toList = Orchard.toScalar x := by
  unfold Spec.Protocol.toScalar Orchard.toScalar Fq.fromUniform Bytes.toNat
  rw [leos2ip_eq]

theorem toBase_spec_eq (x : Bytes 64) : Spec.Protocol.toBase x.toList = Orchard.toBase x := by
  unfold Spec.Protocol.toBase Orchard.toBase Fp.fromUniform Bytes.toNat
  rw [leos2ip_eq]

theorem prfExpand_spec_eq (P : Prims) (dst : UInt8) (sk : Bytes 32) (t : List UInt8) :
    Spec.Protocol.prfExpand P sk.toList (dst :: t) = (Orchard.prfExpand P dst sk t).toList := rfl

/-! ### Incomplete addition -/

theorem incompleteAdd_iff (A B : Point) (r : Option Point) :
    IncompleteAdd (some A) (some B) r ↔ r = incompleteAdd A B := by
  rcases Point.cases_xy A with rfl | ⟨x₁, y₁, h₁, rfl⟩
  · have : incompleteAdd (0 : Point) B = none := by unfold incompleteAdd; rw [if_pos (Or.inl rfl)]
    rw [this]; rfl
  rcases Point.cases_xy B with rfl | ⟨x₂, y₂, h₂, rfl⟩
  · have : incompleteAdd (Point.ofXY x₁ y₁ h₁) 0 = none := by
      unfold incompleteAdd; rw [if_pos (Or.inr (Or.inl rfl))]
    rw [this]; rfl
  change ((x₁ = x₂ ∧ r = none) ∨ (x₁ ≠ x₂ ∧ _)) ↔ _
  by_cases hx : x₁ = x₂
  · have : incompleteAdd (Point.ofXY x₁ y₁ h₁) (Point.ofXY x₂ y₂ h₂) = none := by
      unfold incompleteAdd
      rw [if_pos]
      have := (extractP_eq_iff (A := Point.ofXY x₁ y₁ h₁) (B := Point.ofXY x₂ y₂ h₂)).1 hx
      rcases this with h | h
      · exact Or.inr (Or.inr (Or.inl h))
      · exact Or.inr (Or.inr (Or.inr h))
    rw [this]
    constructor
    · rintro (h | h)
      · exact h.2
      · exact absurd hx h.1
    · exact fun h => Or.inl ⟨hx, h⟩
  · have hd : x₂ - x₁ ≠ 0 := sub_ne_zero.2 (Ne.symm hx)
    have hd' : x₁ - x₂ ≠ 0 := sub_ne_zero.2 hx
    have hadd : incompleteAdd (Point.ofXY x₁ y₁ h₁) (Point.ofXY x₂ y₂ h₂) =
        some (Point.ofXY x₁ y₁ h₁ + Point.ofXY x₂ y₂ h₂) := by
      unfold incompleteAdd
      rw [if_neg]
      rintro (h | h | h | h)
      · exact Point.ofXY_ne_zero _ _ _ h
      · exact Point.ofXY_ne_zero _ _ _ h
      · exact hx (Point.ofXY_inj.1 h).1
      · rw [Point.neg_ofXY] at h; exact hx (Point.ofXY_inj.1 h).1
    rw [hadd]
    have hl : (y₁ - y₂) / (x₁ - x₂) * (x₁ - x₂) = y₁ - y₂ := div_mul_cancel₀ _ hd'
    obtain ⟨h₃, e⟩ := Point.add_chord h₁ h₂ hx hl rfl rfl
    rw [e]
    generalize (y₁ - y₂) / (x₁ - x₂) = l at *
    constructor
    · rintro (h | ⟨-, x₃, y₃, h, rfl, hX, hY⟩)
      · exact absurd h.1 hx
      · have ex : x₃ = l ^ 2 - x₁ - x₂ := by
          apply mul_right_cancel₀ (pow_ne_zero 2 hd)
          rw [hX]
          linear_combination (y₂ - y₁ + l * (x₂ - x₁)) * hl
        have ey : y₃ = l * (x₁ - (l ^ 2 - x₁ - x₂)) - y₁ := by
          apply mul_right_cancel₀ hd
          rw [hY, ex]
          linear_combination (x₁ - (l ^ 2 - x₁ - x₂)) * hl
        subst ex; subst ey; rfl
    · rintro rfl
      refine Or.inr ⟨hx, _, _, _, rfl, ?_, ?_⟩
      · linear_combination (-(y₂ - y₁) - l * (x₂ - x₁)) * hl
      · linear_combination (-(x₁ - (l ^ 2 - x₁ - x₂))) * hl

theorem incompleteAdd_none_left (B r : Option Point) : IncompleteAdd none B r ↔ r = none := by
  rcases B with _ | (_ | ⟨x, y, h⟩) <;> rfl

theorem incompleteAdd_none_right (A r : Option Point) : IncompleteAdd A none r ↔ r = none := by
  rcases A with _ | (_ | ⟨x, y, h⟩) <;> rfl

theorem incompleteAdd_opt (A B r : Option Point) :
    IncompleteAdd A B r ↔ r = A.bind fun a => B.bind fun b => incompleteAdd a b := by
  cases A with
  | none => exact incompleteAdd_none_left B r
  | some A => cases B with
    | none => exact incompleteAdd_none_right _ r
    | some B => exact incompleteAdd_iff A B r

/-! ### Sinsemilla -/

theorem bitsNat_eq_sum (l : List Bool) :
    bitsNat l = ∑ j ∈ Finset.range l.length, (l.getD j false).toNat * 2 ^ j := by
  induction l with
  | nil => rfl
  | cons b bs ih =>
    rw [List.length_cons, Finset.sum_range_succ', bitsNat, ih, Finset.mul_sum]
    simp only [List.getD_cons_zero, List.getD_cons_succ, pow_zero, mul_one]
    rw [add_comm]
    congr 1
    apply Finset.sum_congr rfl
    intro j _
    rw [pow_succ]; ring

theorem bitsNat_eq_sum_le (l : List Bool) {n : ℕ} (h : l.length ≤ n) :
    bitsNat l = ∑ j ∈ Finset.range n, (l.getD j false).toNat * 2 ^ j := by
  rw [bitsNat_eq_sum]
  apply Finset.sum_subset
  · intro j hj; rw [Finset.mem_range] at *; omega
  · intro j _ hj
    rw [Finset.mem_range, not_lt] at hj
    rw [List.getD_eq_default _ _ hj]; simp

theorem piece_zero (l : List Bool) : piece l 0 = bitsNat (l.take 10) := by
  rw [bitsNat_eq_sum_le (l.take 10) (n := 10) (by simp)]
  unfold piece
  apply Finset.sum_congr rfl
  intro j hj
  rw [Finset.mem_range] at hj
  rw [mul_zero, zero_add]
  congr 2
  rw [List.getD_eq_getElem?_getD, List.getD_eq_getElem?_getD, List.getElem?_take, if_pos hj]

theorem piece_succ (l : List Bool) (i : ℕ) : piece l (i + 1) = piece (l.drop 10) i := by
  unfold piece
  apply Finset.sum_congr rfl
  intro j _
  congr 2
  rw [List.getD_eq_getElem?_getD, List.getD_eq_getElem?_getD, List.getElem?_drop]
  congr 2; omega

theorem chunksAux_eq_map (fuel : ℕ) : ∀ l : List Bool, l.length ≤ fuel →
    chunksAux fuel l = (List.range ((l.length + 9) / 10)).map (piece l) := by
  induction fuel with
  | zero =>
    intro l hl
    rw [List.length_eq_zero_iff.1 (Nat.le_zero.1 hl)]; rfl
  | succ fuel ih =>
    intro l hl
    cases l with
    | nil => rfl
    | cons a l =>
      rw [List.length_cons] at hl
      have hn : ((a :: l).length + 9) / 10 = (((a :: l).drop 10).length + 9) / 10 + 1 := by
        rw [List.length_drop, List.length_cons]; omega
      have hd : ((a :: l).drop 10).length ≤ fuel := by
        rw [List.length_drop, List.length_cons]; omega
      rw [hn, List.range_succ_eq_map, List.map_cons, List.map_map, piece_zero]
      simp only [chunksAux]
      rw [ih _ hd]
      congr 1
      apply List.map_congr_left
      intro i _
      exact (piece_succ _ _).symm

theorem chunks_eq_map (l : List Bool) :
    chunks l = (List.range ((l.length + 9) / 10)).map (piece l) := chunksAux_eq_map _ _ le_rfl

/-- The accumulator after the first `n` words. -/
noncomputable def accAfter (P : Prims) (Q : Point) (w : ℕ → ℕ) : ℕ → Option Point
  | 0 => some Q
  | n + 1 => (accAfter P Q w n).bind fun a => sinsemillaStep P a (w n)

theorem foldlM_eq_accAfter (P : Prims) (Q : Point) (w : ℕ → ℕ) (n : ℕ) :
    ((List.range n).map w).foldlM (sinsemillaStep P) Q = accAfter P Q w n := by
  induction n with
  | zero => rfl
  | succ n ih =>
    rw [List.range_succ, List.map_append, List.foldlM_append, ih]
    simp only [List.map_cons, List.map_nil, List.foldlM_cons, List.foldlM_nil]
    rw [accAfter]
    cases accAfter P Q w n with
    | none => rfl
    | some a =>
      change (sinsemillaStep P a (w n)).bind (fun x => some x) = sinsemillaStep P a (w n)
      cases sinsemillaStep P a (w n) <;> rfl

theorem step_iff (P : Prims) (a : Option Point) (m : ℕ) (r : Option Point) :
    (∃ t, IncompleteAdd a (some (P.sinsemillaS m)) t ∧ IncompleteAdd t a r) ↔
      r = a.bind fun x => sinsemillaStep P x m := by
  simp only [incompleteAdd_opt]
  cases a with
  | none => simp
  | some a =>
    simp only [Option.bind_some, exists_eq_left]
    rfl

theorem sinsemilla_iff (P : Prims) (Q : Point) (m : List Bool) (out : Option Point) :
    SinsemillaHashToPoint P Q m out ↔ out = sinsemillaHashToPoint P Q m := by
  unfold sinsemillaHashToPoint
  rw [chunks_eq_map, foldlM_eq_accAfter]
  unfold SinsemillaHashToPoint
  simp only [step_iff]
  generalize (m.length + 9) / 10 = n
  constructor
  · rintro ⟨acc, h0, rfl, hs⟩
    have : ∀ i ≤ n, acc i = accAfter P Q (piece m) i := by
      intro i
      induction i with
      | zero => intro _; exact h0
      | succ i ih =>
        intro hi
        rw [hs i (by omega), ih (by omega)]; rfl
    exact this n le_rfl
  · rintro rfl
    exact ⟨accAfter P Q (piece m), rfl, rfl, fun i _ => rfl⟩

theorem shortCommit_iff (P : Prims) (Q R : Point) (m : List Bool) (r : Fq) (out : Option Fp) :
    SinsemillaShortCommit P Q R m r out ↔ out = sinsemillaShortCommit P Q R m r := by
  unfold SinsemillaShortCommit sinsemillaShortCommit sinsemillaCommit
  simp only [sinsemilla_iff, exists_eq_left, Option.map_map]
  have : (fun A => extract (A + r • R)) = (extractP ∘ fun h => h + r • R) := by
    funext A; exact extract_eq _
  rw [this]

theorem commitIvk_iff (P : Prims) (ak nk : Fp) (rivk : Fq) (out : Option Fp) :
    CommitIvk P ak nk rivk out ↔ out = commitIvk P ak nk rivk := by
  unfold CommitIvk
  rw [shortCommit_iff, i2lebsp_spec_eq, i2lebsp_spec_eq]
  rfl

theorem diversifyHash_spec_eq (P : Prims) (d : Bytes 11) :
    Spec.Protocol.diversifyHash P d.toList = Orchard.diversifyHash P d := by
  unfold Spec.Protocol.diversifyHash Orchard.diversifyHash keyDiversificationPersonalization
  simp only
  generalize P.hashToCurve (ascii "z.cash:Orchard-gd") d.toList = A
  cases A with
  | zero => exact (if_pos rfl).symm
  | some x y h => exact (if_neg (by exact WeierstrassCurve.Affine.Point.some_ne_zero _)).symm

/-! ### FF1 -/

theorem num2_eq (l : List Bool) : Spec.Protocol.num2 l = FF1.num l := by
  unfold Spec.Protocol.num2 FF1.num
  induction l using List.reverseRecOn with
  | nil => rfl
  | append_singleton l b ih =>
    rw [List.foldl_append, ih, List.reverse_append]
    simp only [List.foldl_cons, List.foldl_nil, List.reverse_singleton, List.singleton_append, bitsNat]
    omega

/-- The state of the model after `n` rounds is `(X n, X (n+1))` for any sequence satisfying the
recurrence. -/
theorem ff1_rounds {P : Prims} {key : Bytes 32} {X : ℕ → List Bool}
    (hl : ∀ i ≤ 11, (X i).length = 44)
    (hr : ∀ i < 10, Spec.Protocol.num2 (X (i + 2)) =
      (Spec.Protocol.num2 (X i) + P.ff1Round key i (X (i + 1))) % 2 ^ 44) (n : ℕ) (hn : n ≤ 10) :
    (List.range n).foldl (FF1.encRound P key) (X 0, X 1) = (X n, X (n + 1)) := by
  induction n with
  | zero => rfl
  | succ n ih =>
    rw [List.range_succ, List.foldl_append, ih (by omega), List.foldl_cons, List.foldl_nil]
    unfold FF1.encRound
    have h := hr n (by omega)
    rw [num2_eq, num2_eq] at h
    simp only
    rw [← h]
    have := FF1.str_num (X (n + 2))
    rw [hl (n + 2) (by omega)] at this
    rw [this]

/-- The sequence of halves computed by the model. -/
def ff1Seq (P : Prims) (key : Bytes 32) (x : List Bool) (n : ℕ) : List Bool :=
  ((List.range n).foldl (FF1.encRound P key) (x.take 44, x.drop 44)).1

theorem ff1Seq_succ (P : Prims) (key : Bytes 32) (x : List Bool) (n : ℕ) :
    ff1Seq P key x (n + 1) =
      ((List.range n).foldl (FF1.encRound P key) (x.take 44, x.drop 44)).2 := by
  unfold ff1Seq
  rw [List.range_succ, List.foldl_append, List.foldl_cons, List.foldl_nil]
  rfl

theorem ff1_spec_iff (P : Prims) (key : Bytes 32) {x : List Bool} (hx : x.length = 88) (y : List Bool) :
    Spec.Protocol.FF1 P key x y ↔ FF1.encrypt P key x = y := by
  constructor
  · rintro ⟨X, hl, h0, h1, hr⟩
    have ht : (x.take 44, x.drop 44) = (X 0, X 1) := by
      rw [← h0, List.take_left' (hl 0 (by omega)), List.drop_left' (hl 0 (by omega))]
    unfold FF1.encrypt
    rw [ht, ff1_rounds hl hr 10 le_rfl]
    exact h1
  · rintro rfl
    have hok : ∀ n, FF1.Ok ((List.range n).foldl (FF1.encRound P key) (x.take 44, x.drop 44)) := by
      intro n
      exact (FF1.foldl_dec_enc P key (List.range n) _ ⟨by simp [hx], by simp [hx]⟩).2
    refine ⟨ff1Seq P key x, fun i _ => (hok i).1, ?_, ?_, ?_⟩
    · rw [ff1Seq_succ]; exact List.take_append_drop 44 x
    · rw [ff1Seq_succ]; rfl
    · intro i _
      rw [ff1Seq_succ P key x (i + 1), List.range_succ, List.foldl_append, List.foldl_cons,
        List.foldl_nil, ff1Seq_succ P key x i, num2_eq, num2_eq]
      exact FF1.num_str (Nat.mod_lt _ (by positivity))

theorem isDiversifier_iff (P : Prims) (dk : Bytes 32) (j d : Bytes 11) :
    Spec.Protocol.IsDiversifier P dk j.toList d.toList ↔ dkGet P dk j = d := by
  unfold Spec.Protocol.IsDiversifier
  rw [ff1_spec_iff P dk (by rw [i2lebsp_spec_eq]; simp), i2lebsp_spec_eq, i2lebsp_spec_eq, leos2ip_eq,
    leos2ip_eq]
  change FF1.encrypt P dk (numeralsOfBytes j) = numeralsOfBytes d ↔
    bytesOfNumerals (FF1.encrypt P dk (numeralsOfBytes j)) = d
  constructor
  · intro h; rw [h]; exact bytes_numerals d
  · rintro rfl
    exact (numerals_bytes (FF1.decrypt_encrypt P dk (by simp [numeralsOfBytes])).2).symm

end Orchard
