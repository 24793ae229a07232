import Verif.Lemmas.Spec
import Verif.Model.Keys

/-! # Lemmas about keys -/

namespace Orchard

open RedPallas

/-! ### Sign bit of an encoded point -/

theorem signBit_ofXY (x y : Fp) (h : y ^ 2 = x ^ 3 + 5) :
    (Point.ofXY x y h).toBytes.toNat / 2 ^ 255 = Point.sgn y := by
  rw [Point.toNat_toBytes_ofXY]
  exact (Point.enc_split x (Point.sgn y)).2

theorem signBit_lt (A : Point) : A.toBytes.toNat / 2 ^ 255 < 2 := Point.div_two_pow_255_lt _

theorem signBit_neg {A : Point} (hA : A ≠ 0) :
    (-A).toBytes.toNat / 2 ^ 255 = 1 - A.toBytes.toNat / 2 ^ 255 := by
  rcases Point.cases_xy A with rfl | ⟨x, y, h, rfl⟩
  · exact absurd rfl hA
  · rw [Point.neg_ofXY, signBit_ofXY, signBit_ofXY, Point.sgn_neg (y_ne_zero_of_onCurve h)]

theorem toBytes_eq_zero_iff {A : Point} : A.toBytes = Bytes.replicate 32 0 ↔ A = 0 := by
  have h0 : (Point.toBytes 0) = Bytes.replicate 32 0 := by
    rw [Point.toBytes_zero]; decide +kernel
  rw [← h0]
  exact ⟨fun h => Point.toBytes_injective h, fun h => by rw [h]⟩

/-! ### Spend authority -/

theorem smul_spendAuthG_ne_zero {s : Fq} (hs : s ≠ 0) : s • Constants.spendAuthG ≠ 0 := by
  rw [Ne, smul_eq_zero_iff']
  rintro (h | h)
  · exact hs h
  · exact Constants.spendAuthG_ne_zero h

theorem askOfSk_zero {P : Prims} {sk : SpendingKey} (h : askInner P sk = 0) :
    SpendAuthorizingKey.ofSk P sk = .panic := by
  unfold SpendAuthorizingKey.ofSk
  simp only [h, ne_eq, not_true_eq_false, decide_false, assertO_false, Outcome.panic_bind]

theorem askOfSk_spec {P : Prims} {sk : SpendingKey} (h : askInner P sk ≠ 0) :
    ∃ ask : SpendAuthorizingKey, SpendAuthorizingKey.ofSk P sk = .ret ask ∧
      (ask.s = askInner P sk ∨ ask.s = -askInner P sk) ∧ ask.s ≠ 0 ∧
      ask.vk.point.toBytes.toNat / 2 ^ 255 = 0 := by
  unfold SpendAuthorizingKey.ofSk
  simp only [h, ne_eq, not_false_eq_true, decide_true, assertO_true, Outcome.ret_bind,
    Outcome.pure_eq]
  have hne := smul_spendAuthG_ne_zero h
  split_ifs with hs
  · refine ⟨_, rfl, Or.inr rfl, neg_ne_zero.2 h, ?_⟩
    have hv : (SigningKey.vk (T := .spendAuth) ⟨-askInner P sk⟩).point =
        -(askInner P sk • Constants.spendAuthG) := by
      simp only [SigningKey.vk, basepoint]; rw [neg_smul]
    rw [hv, signBit_neg hne]
    have : (askInner P sk • Constants.spendAuthG).toBytes.toNat / 2 ^ 255 = 1 := hs
    rw [this]
  · refine ⟨_, rfl, Or.inl rfl, h, ?_⟩
    have h2 := signBit_lt (askInner P sk • Constants.spendAuthG)
    have h3 : ¬ (askInner P sk • Constants.spendAuthG).toBytes.toNat / 2 ^ 255 = 1 := hs
    change (askInner P sk • Constants.spendAuthG).toBytes.toNat / 2 ^ 255 = 0
    generalize (askInner P sk • Constants.spendAuthG).toBytes.toNat / 2 ^ 255 = t at *
    omega

theorem svk_toBytes {ak : SpendValidatingKey} (h : ak.point.toBytes.toNat / 2 ^ 255 = 0) :
    SpendValidatingKey.toBytes ak = .ret ak.point.toBytes := by
  unfold SpendValidatingKey.toBytes VerificationKey.toBytes
  simp only [h, decide_true, assertO_true, Outcome.ret_bind, Outcome.pure_eq]

theorem svk_fromBytes_iff {b : Bytes 32} {ak : SpendValidatingKey} :
    SpendValidatingKey.fromBytes b = some ak ↔
      b = ak.point.toBytes ∧ ak.point ≠ 0 ∧ ak.point.toBytes.toNat / 2 ^ 255 = 0 := by
  unfold SpendValidatingKey.fromBytes VerificationKey.fromBytes
  constructor
  · intro h
    split_ifs at h with hc
    simp only [Option.map_eq_some_iff, Point.fromBytes_eq_some_iff] at h
    obtain ⟨A, hA, rfl⟩ := h
    subst hA
    refine ⟨rfl, ?_, hc.2⟩
    intro h0
    exact hc.1 (toBytes_eq_zero_iff.2 h0)
  · rintro ⟨rfl, h0, hs⟩
    rw [if_pos ⟨fun h => h0 (toBytes_eq_zero_iff.1 h), hs⟩, Point.fromBytes_toBytes]
    rfl

/-! ### Viewing keys -/

theorem nonZeroFromBase_eq_some {b c : Fp} : nonZeroFromBase b = some c ↔ b = c ∧ c ≠ 0 := by
  unfold nonZeroFromBase
  split_ifs with h
  · simp only [false_iff]; rintro ⟨rfl, hc⟩; exact hc h
  · simp only [Option.some.injEq]
    exact ⟨fun e => ⟨e, e ▸ h⟩, fun e => e.1⟩

theorem ivkInner_eq_some {P : Prims} {fvk : FullViewingKey} {ivk : Fp} :
    ivkInner P fvk = some ivk ↔
      commitIvk P (extractP fvk.ak.point) fvk.nk fvk.rivk = some ivk ∧ ivk ≠ 0 := by
  unfold ivkInner
  rw [Option.bind_eq_some_iff]
  constructor
  · rintro ⟨a, h1, h2⟩
    obtain ⟨rfl, h3⟩ := nonZeroFromBase_eq_some.1 h2
    exact ⟨h1, h3⟩
  · rintro ⟨h1, h2⟩
    exact ⟨ivk, h1, nonZeroFromBase_eq_some.2 ⟨rfl, h2⟩⟩

theorem ivkOfFvk_eq {P : Prims} {fvk : FullViewingKey} {ivk : Fp} (h : ivkInner P fvk = some ivk) :
    ivkOfFvk P fvk = .ret (modRPVal ivk) := by
  unfold ivkOfFvk
  rw [h, Option.unwrapO_some, Outcome.ret_bind,
    nonZeroScalarOfBase_eq (ivkInner_eq_some.1 h).2]

/-- The internal `rivk` when `ak` has a clear sign bit. -/
def internalRivk (P : Prims) (fvk : FullViewingKey) : Fq :=
  toScalar (prfExpand P 0x83 (Fq.toRepr fvk.rivk)
    (fvk.ak.point.toBytes.toList ++ (Fp.toRepr fvk.nk).toList))

theorem rivkFor_internal {P : Prims} {fvk : FullViewingKey}
    (h : fvk.ak.point.toBytes.toNat / 2 ^ 255 = 0) :
    fvk.rivkFor P .internal = .ret (internalRivk P fvk) := by
  unfold FullViewingKey.rivkFor
  simp only [svk_toBytes h, Outcome.ret_bind, Outcome.pure_eq]
  rfl

theorem deriveInternal_eq {P : Prims} {fvk : FullViewingKey}
    (h : fvk.ak.point.toBytes.toNat / 2 ^ 255 = 0) :
    fvk.deriveInternal P = .ret ⟨fvk.ak, fvk.nk, internalRivk P fvk⟩ := by
  unfold FullViewingKey.deriveInternal
  rw [rivkFor_internal h]; rfl

/-! ### FF1 -/

namespace FF1

@[simp] theorem length_str (m x : ℕ) : (str m x).length = m := by simp [str]

theorem num_lt (l : List Bool) : num l < 2 ^ l.length := by
  have := bitsNat_lt l.reverse; rwa [List.length_reverse] at this

theorem num_str {m x : ℕ} (h : x < 2 ^ m) : num (str m x) = x := by
  unfold num str; rw [List.reverse_reverse, bitsNat_leBits_of_lt h]

theorem str_num (l : List Bool) : str l.length (num l) = l := by
  unfold num str
  have := leBits_bitsNat l.reverse
  rw [List.length_reverse] at this
  rw [this, List.reverse_reverse]

/-- Both halves have 44 numerals. -/
def Ok (s : List Bool × List Bool) : Prop := s.1.length = 44 ∧ s.2.length = 44

theorem encRound_ok {P : Prims} {key : Bytes 32} {s : List Bool × List Bool} {i : ℕ} (h : Ok s) :
    Ok (encRound P key s i) := ⟨h.2, length_str _ _⟩

theorem decRound_ok {P : Prims} {key : Bytes 32} {s : List Bool × List Bool} {i : ℕ} (h : Ok s) :
    Ok (decRound P key s i) := ⟨length_str _ _, h.1⟩

theorem sub_add_mod (a y : ℕ) (h : a < 2 ^ 44) :
    (((((a + y) % 2 ^ 44 : ℕ) : ℤ) - y) % 2 ^ 44).toNat = a := by
  have h2 : ((2 : ℤ) ^ 44) = 17592186044416 := by norm_num
  have h3 : ((2 : ℕ) ^ 44) = 17592186044416 := by norm_num
  rw [h2]; rw [h3] at *; omega

theorem add_sub_mod (a y : ℕ) (h : a < 2 ^ 44) :
    ((((a : ℤ) - y) % 2 ^ 44).toNat + y) % 2 ^ 44 = a := by
  have h2 : ((2 : ℤ) ^ 44) = 17592186044416 := by norm_num
  have h3 : ((2 : ℕ) ^ 44) = 17592186044416 := by norm_num
  rw [h2]; rw [h3] at *; omega

theorem dec_enc_round {P : Prims} {key : Bytes 32} {s : List Bool × List Bool} {i : ℕ} (h : Ok s) :
    decRound P key (encRound P key s i) i = s := by
  unfold decRound encRound
  have hlt : num s.1 < 2 ^ 44 := h.1 ▸ num_lt s.1
  simp only
  rw [num_str (Nat.mod_lt _ (by positivity)), sub_add_mod _ _ hlt]
  have := str_num s.1
  rw [h.1] at this
  rw [this]

theorem enc_dec_round {P : Prims} {key : Bytes 32} {s : List Bool × List Bool} {i : ℕ} (h : Ok s) :
    encRound P key (decRound P key s i) i = s := by
  unfold decRound encRound
  have hlt : num s.2 < 2 ^ 44 := h.2 ▸ num_lt s.2
  simp only
  have hpos : 0 ≤ ((num s.2 : ℤ) - (P.ff1Round key i s.1 : ℤ)) % 2 ^ 44 :=
    Int.emod_nonneg _ (by norm_num)
  have hb : ((num s.2 : ℤ) - (P.ff1Round key i s.1 : ℤ)) % 2 ^ 44 < 2 ^ 44 :=
    Int.emod_lt_of_pos _ (by norm_num)
  rw [num_str (by zify; rw [Int.toNat_of_nonneg hpos]; exact hb), add_sub_mod _ _ hlt]
  have := str_num s.2
  rw [h.2] at this
  rw [this]

theorem foldl_dec_enc (P : Prims) (key : Bytes 32) (is : List ℕ) (s : List Bool × List Bool)
    (h : Ok s) :
    is.reverse.foldl (decRound P key) (is.foldl (encRound P key) s) = s ∧
      Ok (is.foldl (encRound P key) s) := by
  induction is generalizing s with
  | nil => exact ⟨rfl, h⟩
  | cons i is ih =>
    obtain ⟨h1, h2⟩ := ih _ (encRound_ok (P := P) (key := key) (i := i) h)
    refine ⟨?_, h2⟩
    rw [List.foldl_cons, List.reverse_cons, List.foldl_append, h1]
    exact dec_enc_round h

theorem foldl_enc_dec (P : Prims) (key : Bytes 32) (is : List ℕ) (s : List Bool × List Bool)
    (h : Ok s) :
    is.foldl (encRound P key) (is.reverse.foldl (decRound P key) s) = s ∧
      Ok (is.reverse.foldl (decRound P key) s) := by
  induction is using List.reverseRecOn generalizing s with
  | nil => exact ⟨rfl, h⟩
  | append_singleton is i ih =>
    obtain ⟨h1, h2⟩ := ih _ (decRound_ok (P := P) (key := key) (i := i) h)
    rw [List.reverse_append, List.reverse_singleton, List.singleton_append, List.foldl_cons]
    refine ⟨?_, h2⟩
    rw [List.foldl_append, h1]
    exact enc_dec_round h

theorem decrypt_encrypt (P : Prims) (key : Bytes 32) {x : List Bool} (hx : x.length = 88) :
    decrypt P key (encrypt P key x) = x ∧ (encrypt P key x).length = 88 := by
  have hok : Ok (x.take 44, x.drop 44) := ⟨by simp [hx], by simp [hx]⟩
  obtain ⟨h1, h2⟩ := foldl_dec_enc P key (List.range 10) _ hok
  unfold decrypt encrypt
  simp only
  rw [List.take_left' h2.1, List.drop_left' h2.1]
  rw [h1]
  refine ⟨List.take_append_drop 44 x, ?_⟩
  rw [List.length_append, h2.1, h2.2]

theorem encrypt_decrypt (P : Prims) (key : Bytes 32) {x : List Bool} (hx : x.length = 88) :
    encrypt P key (decrypt P key x) = x ∧ (decrypt P key x).length = 88 := by
  have hok : Ok (x.take 44, x.drop 44) := ⟨by simp [hx], by simp [hx]⟩
  obtain ⟨h1, h2⟩ := foldl_enc_dec P key (List.range 10) _ hok
  unfold decrypt encrypt
  simp only
  rw [List.take_left' h2.1, List.drop_left' h2.1]
  rw [h1]
  refine ⟨List.take_append_drop 44 x, ?_⟩
  rw [List.length_append, h2.1, h2.2]

end FF1

theorem numerals_bytes {l : List Bool} (h : l.length = 88) :
    numeralsOfBytes (bytesOfNumerals l) = l := by
  unfold numeralsOfBytes bytesOfNumerals
  have hlt := bitsNat_lt l
  rw [h] at hlt
  rw [Bytes.toNat_ofNat (by calc bitsNat l < 2 ^ 88 := hlt
      _ = 256 ^ 11 := by norm_num), ← h, leBits_bitsNat]

theorem bytes_numerals (b : Bytes 11) : bytesOfNumerals (numeralsOfBytes b) = b := by
  unfold numeralsOfBytes bytesOfNumerals
  rw [bitsNat_leBits_of_lt (by calc b.toNat < 256 ^ 11 := b.toNat_lt
      _ = 2 ^ 88 := by norm_num), Bytes.ofNat_toNat]

theorem dkIndex_dkGet (P : Prims) (dk : Bytes 32) (j : Bytes 11) : dkIndex P dk (dkGet P dk j) = j := by
  unfold dkIndex dkGet
  obtain ⟨h1, h2⟩ := FF1.decrypt_encrypt P dk (x := numeralsOfBytes j) (by simp [numeralsOfBytes])
  rw [numerals_bytes h2, h1, bytes_numerals]

theorem dkGet_dkIndex (P : Prims) (dk : Bytes 32) (d : Bytes 11) : dkGet P dk (dkIndex P dk d) = d := by
  unfold dkIndex dkGet
  obtain ⟨h1, h2⟩ := FF1.encrypt_decrypt P dk (x := numeralsOfBytes d) (by simp [numeralsOfBytes])
  rw [numerals_bytes h2, h1, bytes_numerals]

theorem reinsert_filterMap (ss : List (Option Point)) : reinsert ss (ss.filterMap id) = ss := by
  induction ss with
  | nil => rfl
  | cons s ss ih =>
    cases s with
    | none => simpa [reinsert] using ih
    | some a => simpa [reinsert] using ih

end Orchard
