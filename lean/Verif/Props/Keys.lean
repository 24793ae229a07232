import Verif.Lemmas.Keys
import Verif.Spec.Keys
import Verif.Examples.Prims

/-!
# C29–C37: keys, viewing keys, addresses, key agreement
-/

namespace Orchard

open RedPallas

/-- The sign bit of the encoding is the parity of `y`. -/
theorem signBit_eq_ySign (A : Point) : A.toBytes.toNat / 2 ^ 255 = Spec.ySign A := by
  rcases Point.cases_xy A with rfl | ⟨x, y, h, rfl⟩
  · rw [Point.toBytes_zero, Bytes.toNat_ofNat (by positivity)]
    rfl
  · rw [signBit_ofXY]; rfl

/-! ### C29 -/

/-- **C29.** If the scalar derived from `sk` is non-zero, the spend authorising key exists, is that
scalar up to sign, its validating key has even `y`, serialising that key does not panic, and parsing
the serialisation returns the key. -/
theorem C29_ak_sign (P : Prims) (sk : SpendingKey) (h : Spec.askScalar P sk.bytes ≠ 0) :
    ∃ ask : SpendAuthorizingKey, SpendAuthorizingKey.ofSk P sk = .ret ask ∧
      (ask.s = Spec.askScalar P sk.bytes ∨ ask.s = -Spec.askScalar P sk.bytes) ∧
      ask.vk.point = ask.s • Constants.spendAuthG ∧ ask.vk.point ≠ 0 ∧
      Spec.ySign ask.vk.point = 0 ∧
      ∃ b, SpendValidatingKey.toBytes ask.vk = .ret b ∧ b = ask.vk.point.toBytes ∧
        b.toNat < 2 ^ 255 ∧ SpendValidatingKey.fromBytes b = some ask.vk := by
  obtain ⟨ask, h1, h2, h3, h4⟩ := askOfSk_spec (P := P) (sk := sk) h
  have hne : ask.vk.point ≠ 0 := smul_spendAuthG_ne_zero h3
  refine ⟨ask, h1, h2, rfl, hne, ?_, _, svk_toBytes h4, rfl, ?_, ?_⟩
  · rw [← signBit_eq_ySign]; exact h4
  · exact (Nat.div_eq_zero_iff_lt (by positivity)).1 h4
  · exact svk_fromBytes_iff.2 ⟨rfl, hne, h4⟩

/-- The hypothesis of `C29_ak_sign` holds for `P0` and every spending key. -/
example (sk : SpendingKey) : Spec.askScalar Examples.P0 sk.bytes ≠ 0 := by
  rw [Examples.askScalar_P0]; exact one_ne_zero

/-! ### C31: full viewing keys -/

theorem validFvk_iff {P : Prims} {fvk : FullViewingKey} :
    Spec.ValidFvk P fvk.ak.point fvk.nk fvk.rivk ↔
      fvk.ak.point ≠ 0 ∧ fvk.ak.point.toBytes.toNat / 2 ^ 255 = 0 ∧
      (∃ i, ivkInner P fvk = some i) ∧
      (∃ i, ivkInner P ⟨fvk.ak, fvk.nk, internalRivk P fvk⟩ = some i) := by
  unfold Spec.ValidFvk Spec.IvkDefined
  simp only [ivkInner_eq_some, signBit_eq_ySign]
  rfl

theorem fvk_slices (a b c : Bytes 32) (h0 : 0 + 32 ≤ 96) (h1 : 32 + 32 ≤ 96) (h2 : 64 + 32 ≤ 96) :
    (((a.append b).append c : Bytes 96)).slice 0 32 h0 = a ∧
    (((a.append b).append c : Bytes 96)).slice 32 32 h1 = b ∧
    (((a.append b).append c : Bytes 96)).slice 64 32 h2 = c := by
  refine ⟨?_, ?_, ?_⟩
  · refine (Bytes.slice_append_left (a.append b) c 0 (by norm_num) h0).trans ?_
    refine (Bytes.slice_append_left a b 0 (by norm_num) (by norm_num)).trans ?_
    exact Bytes.slice_all a _
  · refine (Bytes.slice_append_left (a.append b) c 32 (by norm_num) h1).trans ?_
    refine (Bytes.slice_append_right a b 32 (by norm_num) (by norm_num) (by norm_num)).trans ?_
    exact Bytes.slice_all b _
  · refine (Bytes.slice_append_right (a.append b) c 64 (by norm_num) (by norm_num) h2).trans ?_
    exact Bytes.slice_all c _

theorem fvk_unslice (b : Bytes 96) (h0 : 0 + 32 ≤ 96) (h1 : 32 + 32 ≤ 96) (h2 : 64 + 32 ≤ 96) :
    ((b.slice 0 32 h0).append (b.slice 32 32 h1)).append (b.slice 64 32 h2) = b := by
  apply Bytes.ext
  have hl := b.length_toList
  simp only [Bytes.toList_append, Bytes.toList_slice]
  generalize b.toList = l at *
  have e1 : l.take 32 ++ (l.drop 32).take 32 = l.take 64 := (List.take_add (i := 32) (j := 32)).symm
  rw [List.drop_zero, e1, List.take_of_length_le (l := l.drop 64) (by simp [hl]),
    List.take_append_drop]

/-- **C31.** Parsing a full viewing key never panics, and it accepts exactly the encodings of valid
keys: `from_bytes(b) = Some(fvk)` iff `b` is the encoding of `fvk` and `fvk` is valid. -/
theorem C31_fvk_encoding (P : Prims) (b : Bytes 96) :
    FullViewingKey.fromBytes P b ≠ .panic ∧
    ∀ fvk : FullViewingKey, FullViewingKey.fromBytes P b = .ret (some fvk) ↔
      (b = fvk.toBytes ∧ Spec.ValidFvk P fvk.ak.point fvk.nk fvk.rivk) := by
  have key : ∀ (ak : SpendValidatingKey) (nk : Fp) (rivk : Fq),
      SpendValidatingKey.fromBytes (b.slice 0 32 (by norm_num)) = some ak →
      Fp.fromRepr (b.slice 32 32 (by norm_num)) = some nk →
      Fq.fromRepr (b.slice 64 32 (by norm_num)) = some rivk →
      b = FullViewingKey.toBytes ⟨ak, nk, rivk⟩ ∧ ak.point ≠ 0 ∧
        ak.point.toBytes.toNat / 2 ^ 255 = 0 := by
    intro ak nk rivk h1 h2 h3
    obtain ⟨e1, h4, h5⟩ := svk_fromBytes_iff.1 h1
    rw [Fp.fromRepr_eq_some_iff] at h2
    rw [Fq.fromRepr_eq_some_iff] at h3
    refine ⟨?_, h4, h5⟩
    have := fvk_unslice b (by norm_num) (by norm_num) (by norm_num)
    rw [e1, h2, h3] at this
    exact this.symm
  constructor
  · unfold FullViewingKey.fromBytes
    split
    · rename_i ak nk rivk h1 h2 h3
      obtain ⟨_, _, hs⟩ := key ak nk rivk h1 h2 h3
      simp only
      split
      · simp
      · rw [deriveInternal_eq hs, Outcome.ret_bind]
        split <;> simp
    · simp
  · intro fvk
    constructor
    · intro h
      unfold FullViewingKey.fromBytes at h
      split at h
      · rename_i ak nk rivk h1 h2 h3
        obtain ⟨hb, hne, hs⟩ := key ak nk rivk h1 h2 h3
        simp only at h
        split at h
        · simp at h
        · rename_i i hi
          rw [deriveInternal_eq hs, Outcome.ret_bind] at h
          split at h
          · simp at h
          · rename_i j hj
            simp only [Outcome.pure_eq, Outcome.ret.injEq, Option.some.injEq] at h
            subst h
            exact ⟨hb, validFvk_iff.2 ⟨hne, hs, ⟨i, hi⟩, ⟨j, hj⟩⟩⟩
      · simp at h
    · rintro ⟨rfl, hv⟩
      obtain ⟨hne, hs, ⟨i, hi⟩, ⟨j, hj⟩⟩ := validFvk_iff.1 hv
      obtain ⟨s0, s1, s2⟩ := fvk_slices (VerificationKey.toBytes fvk.ak) (Fp.toRepr fvk.nk)
        (Fq.toRepr fvk.rivk) (by norm_num) (by norm_num) (by norm_num)
      have e0 : SpendValidatingKey.fromBytes (fvk.toBytes.slice 0 32 (by norm_num)) = some fvk.ak :=
        svk_fromBytes_iff.2 ⟨s0, hne, hs⟩
      have e1 : Fp.fromRepr (fvk.toBytes.slice 32 32 (by norm_num)) = some fvk.nk :=
        Fp.fromRepr_eq_some_iff.2 s1
      have e2 : Fq.fromRepr (fvk.toBytes.slice 64 32 (by norm_num)) = some fvk.rivk :=
        Fq.fromRepr_eq_some_iff.2 s2
      unfold FullViewingKey.fromBytes
      simp only [e0, e1, e2]
      have hi' : ivkInner P ⟨fvk.ak, fvk.nk, fvk.rivk⟩ = some i := hi
      have hs' := deriveInternal_eq (P := P) (fvk := ⟨fvk.ak, fvk.nk, fvk.rivk⟩) hs
      simp only [hi', hs', Outcome.ret_bind]
      have hj' : ivkInner P ⟨fvk.ak, fvk.nk, internalRivk P ⟨fvk.ak, fvk.nk, fvk.rivk⟩⟩ = some j := hj
      simp only [hj', Outcome.pure_eq]

/-- Under `P0` there is a valid key, so parsing accepts something. -/
example : ∃ fvk : FullViewingKey,
    FullViewingKey.fromBytes Examples.P0 fvk.toBytes = .ret (some fvk) := by
  obtain ⟨fvk, -, -, -, hv⟩ := Examples.fvk_P0 ⟨default⟩
  exact ⟨fvk, ((C31_fvk_encoding _ _).2 fvk).2 ⟨rfl, hv⟩⟩

theorem outcome_ret_of_ne_panic {α : Type} {x : Outcome α} (h : x ≠ .panic) : ∃ a, x = .ret a := by
  cases x with
  | ret a => exact ⟨a, rfl⟩
  | panic => exact absurd rfl h

/-- **C31** (rejections, spelled out). A set sign bit in `ak`, the all-zero `ak`, an `ak` that is
not the encoding of a point, a non-canonical `nk` or `rivk`, or an external or internal `ivk` that
is zero or undefined, make parsing return `None`. -/
theorem C31_fvk_rejects (P : Prims) (b : Bytes 96)
    (h : 2 ^ 255 ≤ (b.slice 0 32 (by norm_num)).toNat ∨ (b.slice 0 32 (by norm_num)).toNat = 0 ∨
      Point.fromBytes (b.slice 0 32 (by norm_num)) = none ∨
      p ≤ (b.slice 32 32 (by norm_num)).toNat ∨ q ≤ (b.slice 64 32 (by norm_num)).toNat ∨
      (∃ ak nk rivk, b = FullViewingKey.toBytes ⟨ak, nk, rivk⟩ ∧
        (¬ Spec.IvkDefined P ak.point nk rivk ∨
          ¬ Spec.IvkDefined P ak.point nk (Spec.rivkInternal P ak.point nk rivk)))) :
    FullViewingKey.fromBytes P b = .ret none := by
  obtain ⟨hp, hiff⟩ := C31_fvk_encoding P b
  obtain ⟨r, hr⟩ := outcome_ret_of_ne_panic hp
  cases r with
  | none => exact hr
  | some fvk =>
    exfalso
    obtain ⟨hb, hne, hs, hi, hj⟩ := (hiff fvk).1 hr
    obtain ⟨s0, s1, s2⟩ := fvk_slices (VerificationKey.toBytes fvk.ak) (Fp.toRepr fvk.nk)
        (Fq.toRepr fvk.rivk) (by norm_num) (by norm_num) (by norm_num)
    have s0' : b.slice 0 32 (by norm_num) = fvk.ak.point.toBytes := by rw [hb]; exact s0
    have s1' : b.slice 32 32 (by norm_num) = Fp.toRepr fvk.nk := by rw [hb]; exact s1
    have s2' : b.slice 64 32 (by norm_num) = Fq.toRepr fvk.rivk := by rw [hb]; exact s2
    rw [← signBit_eq_ySign] at hs
    rcases h with h | h | h | h | h | ⟨ak, nk, rivk, hb', h⟩
    · rw [s0'] at h
      have := (Nat.div_eq_zero_iff_lt (by positivity)).1 hs
      omega
    · rw [s0'] at h
      apply hne
      apply Point.toBytes_injective
      apply Bytes.toNat_injective
      rw [h, Point.toBytes_zero, Bytes.toNat_ofNat (by positivity)]
    · rw [s0', Point.fromBytes_toBytes] at h
      exact absurd h (by simp)
    · rw [s1', Fp.toNat_toRepr] at h
      exact absurd (ZMod.val_lt fvk.nk) (by omega)
    · rw [s2', Fq.toNat_toRepr] at h
      exact absurd (ZMod.val_lt fvk.rivk) (by omega)
    · rw [hb] at hb'
      unfold FullViewingKey.toBytes at hb'
      rw [Bytes.append_inj, Bytes.append_inj] at hb'
      obtain ⟨⟨e1, e2⟩, e3⟩ := hb'
      have e1' := Point.toBytes_injective e1
      have e2' := Fp.toRepr_injective e2
      have e3' := Fq.toRepr_injective e3
      simp only at e1' e2' e3'
      rw [← e1', ← e2', ← e3'] at h
      exact h.elim (fun h => h hi) (fun h => h hj)

/-- A rejected input: `nk` all ones. -/
example (P : Prims) (a c : Bytes 32) :
    FullViewingKey.fromBytes P ((a.append (Bytes.replicate 32 255)).append c) = .ret none := by
  refine C31_fvk_rejects P _ (Or.inr (Or.inr (Or.inr (Or.inl ?_))))
  rw [(fvk_slices a _ c (by norm_num) (by norm_num) (by norm_num)).2.1]
  decide +kernel

/-! ### C30: spending keys -/

theorem fvkOfSk_eq {P : Prims} {sk : SpendingKey} {ask : SpendAuthorizingKey}
    (h : SpendAuthorizingKey.ofSk P sk = .ret ask) :
    FullViewingKey.ofSk P sk = .ret ⟨ask.vk, nkOfSk P sk, rivkOfSk P sk⟩ := by
  unfold FullViewingKey.ofSk; rw [h]; rfl

/-- **C30** (partial). If the derived `ask` is non-zero then `SpendingKey::from_bytes` does not
panic; it returns the same bytes, and it returns `Some` exactly if the derived full viewing key has
valid, non-zero external and internal incoming viewing keys (in which case the full viewing key of
the result is valid in the sense of C31).

Missing from the full property: *never panics*.  That is false, see `C30_panics_on_zero_ask`. -/
theorem C30_spending_key_partial (P : Prims) (b : Bytes 32) (h : Spec.askScalar P b ≠ 0) :
    ∃ r fvk, SpendingKey.fromBytes P b = .ret r ∧ FullViewingKey.ofSk P ⟨b⟩ = .ret fvk ∧
      (∀ sk, r = some sk → sk.bytes = b) ∧
      (r.isSome ↔ Spec.ValidFvk P fvk.ak.point fvk.nk fvk.rivk) := by
  obtain ⟨ask, h1, h2, h3, h4⟩ := askOfSk_spec (P := P) (sk := ⟨b⟩) h
  have hf := fvkOfSk_eq h1
  have hd := deriveInternal_eq (P := P) (fvk := ⟨ask.vk, nkOfSk P ⟨b⟩, rivkOfSk P ⟨b⟩⟩) h4
  have hne : ask.vk.point ≠ 0 := smul_spendAuthG_ne_zero h3
  refine ⟨if askInner P ⟨b⟩ = 0 ∨ (ivkInner P ⟨ask.vk, nkOfSk P ⟨b⟩, rivkOfSk P ⟨b⟩⟩).isNone ∨
      (ivkInner P ⟨ask.vk, nkOfSk P ⟨b⟩,
        internalRivk P ⟨ask.vk, nkOfSk P ⟨b⟩, rivkOfSk P ⟨b⟩⟩⟩).isNone then none else some ⟨b⟩,
    _, ?_, hf, ?_, ?_⟩
  · unfold SpendingKey.fromBytes
    simp only [hf, hd, Outcome.ret_bind, Outcome.pure_eq]
  · intro sk hsk
    split_ifs at hsk
    simp only [Option.some.injEq] at hsk
    rw [← hsk]
  · rw [validFvk_iff]
    have h' : askInner P ⟨b⟩ ≠ 0 := h
    simp only [h', hne, h4, false_or, ne_eq, not_false_eq_true, true_and, Option.isNone_iff_eq_none]
    split_ifs with hc
    · simp only [Option.isSome_none, Bool.false_eq_true, false_iff]
      rintro ⟨⟨i, hi⟩, ⟨j, hj⟩⟩
      rcases hc with hc | hc
      · rw [hi] at hc; simp at hc
      · rw [hj] at hc; simp at hc
    · simp only [Option.isSome_some, true_iff]
      rw [not_or] at hc
      exact ⟨Option.ne_none_iff_exists'.1 hc.1, Option.ne_none_iff_exists'.1 hc.2⟩

/-- Under `P0` every 32-byte string is an acceptable spending key. -/
example (b : Bytes 32) : SpendingKey.fromBytes Examples.P0 b = .ret (some ⟨b⟩) := by
  obtain ⟨r, fvk, h1, h2, h3, h4⟩ := C30_spending_key_partial Examples.P0 b
    (by rw [Examples.askScalar_P0]; exact one_ne_zero)
  obtain ⟨fvk', e1, -, -, hv⟩ := Examples.fvk_P0 ⟨b⟩
  rw [h2, Outcome.ret.injEq] at e1
  obtain ⟨sk, hsk⟩ := Option.isSome_iff_exists.1 (h4.2 (e1 ▸ hv))
  rw [h1, hsk]
  have := h3 sk hsk
  cases sk; simp only at this; rw [this]

/-- **C30** (negative part). `SpendingKey::from_bytes` panics exactly on the byte strings whose
derived `ask` is zero: the assertion in `From<&SpendingKey> for SpendAuthorizingKey` (`keys.rs:139`)
fires before the zero check of `from_bytes` is used. -/
theorem C30_panics_on_zero_ask (P : Prims) (b : Bytes 32) :
    SpendingKey.fromBytes P b = .panic ↔ Spec.askScalar P b = 0 := by
  constructor
  · intro h
    by_contra hne
    obtain ⟨r, _, hr, _⟩ := C30_spending_key_partial P b hne
    rw [hr] at h; simp at h
  · intro h
    unfold SpendingKey.fromBytes FullViewingKey.ofSk
    simp only [askOfSk_zero (P := P) (sk := ⟨b⟩) h, Outcome.panic_bind]

/-- **C30** (negation of the full claim). There are primitives and bytes on which
`SpendingKey::from_bytes` panics.  (For the real BLAKE2b nobody knows such bytes.) -/
theorem C30_never_panics_false : ¬ ∀ (P : Prims) (b : Bytes 32), SpendingKey.fromBytes P b ≠ .panic := by
  intro h
  refine h ⟨fun _ _ => Bytes.ofNat 64 0, fun _ _ => default, fun _ _ => 0, fun _ _ => 0, fun _ => 0,
    fun _ _ _ => 0, fun _ _ => 0, fun _ _ => default⟩ default ?_
  rw [C30_panics_on_zero_ask]
  unfold Spec.askScalar toScalar Fq.fromUniform prfExpand
  rw [Bytes.toNat_ofNat (by positivity)]
  simp

/-! ### C32: incoming viewing keys and addresses -/

/-- **C32** (incoming viewing keys). Parsing never panics and accepts exactly the encodings of keys
whose `ivk` is non-zero and fits in the base field. -/
theorem C32_ivk_encoding (b : Bytes 64) :
    IncomingViewingKey.fromBytes b ≠ .panic ∧
    ∀ k : IncomingViewingKey, IncomingViewingKey.fromBytes b = .ret (some k) ↔
      (b = k.toBytes ∧ k.ivk ≠ 0 ∧ k.ivk.val < p) := by
  have key : ∀ i : Fp, nonZeroBaseFromBytes (b.slice 32 32 (by norm_num)) = some i ↔
      b.slice 32 32 (by norm_num) = Fp.toRepr i ∧ i ≠ 0 := by
    intro i
    unfold nonZeroBaseFromBytes
    rw [Option.bind_eq_some_iff]
    constructor
    · rintro ⟨j, h1, h2⟩
      obtain ⟨rfl, h3⟩ := nonZeroFromBase_eq_some.1 h2
      exact ⟨Fp.fromRepr_eq_some_iff.1 h1, h3⟩
    · rintro ⟨h1, h2⟩
      exact ⟨i, Fp.fromRepr_eq_some_iff.2 h1, nonZeroFromBase_eq_some.2 ⟨rfl, h2⟩⟩
  constructor
  · unfold IncomingViewingKey.fromBytes
    split
    · simp
    · rename_i i hi
      rw [nonZeroScalarOfBase_eq ((key i).1 hi).2]; simp
  · intro k
    have hr : ∀ i : Fp, Fq.toRepr (modRPVal i) = Fp.toRepr i := by
      intro i
      apply Bytes.toNat_injective
      rw [Fq.toNat_toRepr, Fp.toNat_toRepr, val_modRPVal]
    constructor
    · intro h
      unfold IncomingViewingKey.fromBytes at h
      split at h
      · simp at h
      · rename_i i hi
        obtain ⟨h1, h2⟩ := (key i).1 hi
        rw [nonZeroScalarOfBase_eq h2] at h
        simp only [Outcome.ret_bind, Outcome.pure_eq, Outcome.ret.injEq, Option.some.injEq] at h
        subst h
        refine ⟨?_, ?_, ?_⟩
        · unfold IncomingViewingKey.toBytes
          rw [hr, ← h1]
          exact (Bytes.append_slice (m := 32) (n := 32) b (by norm_num) (by norm_num)).symm
        · simpa [modRPVal_eq_zero] using h2
        · rw [val_modRPVal]; exact ZMod.val_lt i
    · rintro ⟨rfl, h0, hlt⟩
      set i : Fp := (k.ivk.val : Fp) with hi
      have hiv : i.val = k.ivk.val := by rw [hi, ZMod.val_natCast, Nat.mod_eq_of_lt hlt]
      have him : modRPVal i = k.ivk := by
        unfold modRPVal; rw [hiv, ZMod.natCast_zmod_val]
      have hi0 : i ≠ 0 := by
        intro h; apply h0; rw [← him, modRPVal_eq_zero]; exact h
      have hsl : (k.toBytes).slice 32 32 (by norm_num) = Fp.toRepr i := by
        rw [← hr, him]
        refine (Bytes.slice_append_right k.dk (Fq.toRepr k.ivk) 32 (by norm_num) (by norm_num)
          (by norm_num)).trans ?_
        exact Bytes.slice_all _ _
      have hsd : (k.toBytes).slice 0 32 (by norm_num) = k.dk := by
        refine (Bytes.slice_append_left k.dk (Fq.toRepr k.ivk) 0 (by norm_num) (by norm_num)).trans ?_
        exact Bytes.slice_all _ _
      have hnz : nonZeroBaseFromBytes ((k.toBytes).slice 32 32 (by norm_num)) = some i := by
        rw [hsl]; unfold nonZeroBaseFromBytes
        rw [Fp.fromRepr_toRepr]
        exact nonZeroFromBase_eq_some.2 ⟨rfl, hi0⟩
      unfold IncomingViewingKey.fromBytes
      rw [hnz]
      simp only [nonZeroScalarOfBase_eq hi0, Outcome.ret_bind, Outcome.pure_eq, hsd, him]

/-- Accepted: `ivk = 5`.  Rejected: `ivk = 0`. -/
example (dk : Bytes 32) :
    IncomingViewingKey.fromBytes (IncomingViewingKey.toBytes ⟨dk, 5⟩) = .ret (some ⟨dk, 5⟩) ∧
    ∀ k, IncomingViewingKey.fromBytes (IncomingViewingKey.toBytes ⟨dk, 0⟩) ≠ .ret (some k) := by
  constructor
  · exact ((C32_ivk_encoding _).2 _).2 ⟨rfl, (by decide +kernel : (5 : Fq) ≠ 0),
      (by decide +kernel : (5 : Fq).val < p)⟩
  · intro k hk
    obtain ⟨h1, h2, -⟩ := ((C32_ivk_encoding _).2 k).1 hk
    unfold IncomingViewingKey.toBytes at h1
    exact h2 (Fq.toRepr_injective (Bytes.append_inj.1 h1).2).symm

theorem nonIdentityFromBytes_eq_some {b : Bytes 32} {A : Point} :
    nonIdentityFromBytes b = some A ↔ b = A.toBytes ∧ A ≠ 0 := by
  unfold nonIdentityFromBytes
  rw [Option.bind_eq_some_iff]
  constructor
  · rintro ⟨B, h1, h2⟩
    rw [Point.fromBytes_eq_some_iff] at h1
    split_ifs at h2 with h0
    simp only [Option.some.injEq] at h2
    subst h2
    exact ⟨h1, h0⟩
  · rintro ⟨h1, h2⟩
    exact ⟨A, Point.fromBytes_eq_some_iff.2 h1, by rw [if_neg h2]⟩

/-- **C32** (addresses). Parsing accepts exactly the encodings of addresses with non-identity
`pk_d`. -/
theorem C32_address_encoding (b : Bytes 43) (a : Address) :
    Address.fromBytes b = some a ↔ (b = a.toBytes ∧ a.pkd ≠ 0) := by
  unfold Address.fromBytes
  rw [Option.map_eq_some_iff]
  constructor
  · rintro ⟨A, hA, rfl⟩
    obtain ⟨h1, h2⟩ := nonIdentityFromBytes_eq_some.1 hA
    refine ⟨?_, h2⟩
    unfold Address.toBytes
    rw [← h1]
    exact (Bytes.append_slice (m := 11) (n := 32) b (by norm_num) (by norm_num)).symm
  · rintro ⟨rfl, h2⟩
    refine ⟨a.pkd, nonIdentityFromBytes_eq_some.2 ⟨?_, h2⟩, ?_⟩
    · refine (Bytes.slice_append_right a.d a.pkd.toBytes 11 (by norm_num) (by norm_num)
        (by norm_num)).trans ?_
      exact Bytes.slice_all _ _
    · have : a.toBytes.slice 0 11 (by norm_num) = a.d := by
        refine (Bytes.slice_append_left a.d a.pkd.toBytes 0 (by norm_num) (by norm_num)).trans ?_
        exact Bytes.slice_all _ _
      rw [this]

example (d : Bytes 11) : Address.fromBytes (Address.toBytes ⟨d, genG⟩) = some ⟨d, genG⟩ :=
  (C32_address_encoding _ _).2 ⟨rfl, genG_ne_zero⟩

/-- `toIvk` of a valid key, in closed form. -/
theorem toIvk_valid {P : Prims} {fvk : FullViewingKey}
    (hv : Spec.ValidFvk P fvk.ak.point fvk.nk fvk.rivk) (s : Scope) :
    ∃ k : IncomingViewingKey, fvk.toIvk P s = .ret k ∧ k.ivk ≠ 0 ∧ k.ivk.val < p := by
  obtain ⟨hne, hs, ⟨i, hi⟩, ⟨j, hj⟩⟩ := validFvk_iff.1 hv
  cases s with
  | external =>
    refine ⟨⟨(fvk.deriveDkOvk P).1, modRPVal i⟩, ?_, ?_, ?_⟩
    · simp only [FullViewingKey.toIvk, IncomingViewingKey.ofFvk, ivkOfFvk_eq hi, Outcome.ret_bind,
        Outcome.pure_eq]
    · simpa [modRPVal_eq_zero] using (ivkInner_eq_some.1 hi).2
    · simp only [val_modRPVal]; exact ZMod.val_lt i
  | internal =>
    refine ⟨⟨(FullViewingKey.deriveDkOvk P ⟨fvk.ak, fvk.nk, internalRivk P fvk⟩).1, modRPVal j⟩,
      ?_, ?_, ?_⟩
    · simp only [FullViewingKey.toIvk, IncomingViewingKey.ofFvk, deriveInternal_eq hs,
        ivkOfFvk_eq hj, Outcome.ret_bind, Outcome.pure_eq]
    · simpa [modRPVal_eq_zero] using (ivkInner_eq_some.1 hj).2
    · simp only [val_modRPVal]; exact ZMod.val_lt j

/-- **C32** (keys that users hold). Both incoming viewing keys of a valid full viewing key exist
(no panic), and encode and parse back to themselves. -/
theorem C32_derived_ivk_round_trip (P : Prims) (fvk : FullViewingKey)
    (hv : Spec.ValidFvk P fvk.ak.point fvk.nk fvk.rivk) (s : Scope) :
    ∃ k, fvk.toIvk P s = .ret k ∧ IncomingViewingKey.fromBytes k.toBytes = .ret (some k) := by
  obtain ⟨k, h1, h2, h3⟩ := toIvk_valid hv s
  exact ⟨k, h1, ((C32_ivk_encoding _).2 k).2 ⟨rfl, h2, h3⟩⟩

/-- A valid key exists, so the hypothesis of the theorems about valid keys can be met. -/
example : ∃ (P : Prims) (fvk : FullViewingKey), Spec.ValidFvk P fvk.ak.point fvk.nk fvk.rivk := by
  obtain ⟨fvk, -, -, -, hv⟩ := Examples.fvk_P0 ⟨default⟩
  exact ⟨_, fvk, hv⟩

/-- `DiversifyHash` is never the identity provided the fallback point is not. -/
theorem diversifyHash_ne_zero {P : Prims}
    (hP : P.hashToCurve keyDiversificationPersonalization [] ≠ 0) (d : Bytes 11) :
    diversifyHash P d ≠ 0 := by
  unfold diversifyHash
  simp only
  split_ifs with h
  · exact hP
  · exact h

/-- **C32** (addresses that users hold). Every address of an incoming viewing key with non-zero
`ivk` round trips. The hypothesis on the primitives is that hashing the empty string does not give
the identity (checked by the crate's test `diversify_hash_substitution`). -/
theorem C32_derived_address_round_trip (P : Prims)
    (hP : P.hashToCurve keyDiversificationPersonalization [] ≠ 0)
    (k : IncomingViewingKey) (hk : k.ivk ≠ 0) (d : Bytes 11) :
    Address.fromBytes (k.address P d).toBytes = some (k.address P d) := by
  rw [C32_address_encoding]
  refine ⟨rfl, ?_⟩
  change k.ivk • diversifyHash P d ≠ 0
  rw [Ne, smul_eq_zero_iff', not_or]
  exact ⟨hk, diversifyHash_ne_zero hP d⟩

/-! ### C33: diversifier indices -/

/-- **C33.** The index of the address at `j` is `j`; an address has index `j` only if it is the
address at `j`; distinct indices give distinct addresses. -/
theorem C33_diversifier_index (P : Prims) (k : IncomingViewingKey) :
    (∀ j, k.diversifierIndex P (k.addressAt P j) = some j) ∧
    (∀ a j, k.diversifierIndex P a = some j ↔ a = k.addressAt P j) ∧
    Function.Injective (k.addressAt P) := by
  have h1 : ∀ j, k.diversifierIndex P (k.addressAt P j) = some j := by
    intro j
    unfold IncomingViewingKey.diversifierIndex
    have : dkIndex P k.dk (k.addressAt P j).d = j := dkIndex_dkGet P k.dk j
    simp only [this, if_true]
  have h2 : ∀ a j, k.diversifierIndex P a = some j → a = k.addressAt P j := by
    intro a j h
    unfold IncomingViewingKey.diversifierIndex at h
    simp only at h
    split_ifs at h with hc
    simp only [Option.some.injEq] at h
    rw [← h]; exact hc.symm
  refine ⟨h1, fun a j => ⟨h2 a j, ?_⟩, ?_⟩
  · rintro rfl; exact h1 j
  · intro j j' h
    have e := h1 j
    rw [h, h1 j'] at e
    exact (Option.some.inj e).symm

/-- **C33.** Every diversifier, hence every address of the key, has an index. -/
theorem C33_every_diversifier_has_index (P : Prims) (k : IncomingViewingKey) (d : Bytes 11) :
    ∃ j, k.addressAt P j = k.address P d := by
  refine ⟨dkIndex P k.dk d, ?_⟩
  unfold IncomingViewingKey.addressAt
  rw [dkGet_dkIndex]

/-! ### C34: scopes -/

/-- The address belongs to the incoming viewing key `ivk`: `pk_d = [ivk] DiversifyHash(d)`. -/
def Spec.OwnedBy (P : Prims) (ivk : Fq) (a : Address) : Prop := a.pkd = ivk • diversifyHash P a.d

theorem diversifierIndex_isSome_iff {P : Prims} {k : IncomingViewingKey} {a : Address} :
    (k.diversifierIndex P a).isSome ↔ Spec.OwnedBy P k.ivk a := by
  unfold IncomingViewingKey.diversifierIndex
  simp only
  have h : k.addressAt P (dkIndex P k.dk a.d) = ⟨a.d, k.ivk • diversifyHash P a.d⟩ := by
    unfold IncomingViewingKey.addressAt
    rw [dkGet_dkIndex]; rfl
  rw [h]
  unfold Spec.OwnedBy
  cases a
  simp only [Address.mk.injEq, true_and]
  split_ifs with hc
  · simp [hc]
  · simp only [Option.isSome_none, Bool.false_eq_true, false_iff]
    exact fun h => hc h.symm

/-- **C34.** For a valid full viewing key nothing panics; `scope_for_address` is `External` iff the
external ivk owns the address, `Internal` iff the internal ivk owns it and the external does not,
`None` iff neither owns it. -/
theorem C34_scope_for_address (P : Prims) (fvk : FullViewingKey)
    (hv : Spec.ValidFvk P fvk.ak.point fvk.nk fvk.rivk) (a : Address) :
    ∃ ext int r, fvk.toIvk P .external = .ret ext ∧ fvk.toIvk P .internal = .ret int ∧
      fvk.scopeForAddress P a = .ret r ∧
      (r = some .external ↔ Spec.OwnedBy P ext.ivk a) ∧
      (r = some .internal ↔ (Spec.OwnedBy P int.ivk a ∧ ¬ Spec.OwnedBy P ext.ivk a)) ∧
      (r = none ↔ (¬ Spec.OwnedBy P int.ivk a ∧ ¬ Spec.OwnedBy P ext.ivk a)) := by
  obtain ⟨ext, he, -, -⟩ := toIvk_valid hv .external
  obtain ⟨int, hi, -, -⟩ := toIvk_valid hv .internal
  by_cases h1 : Spec.OwnedBy P ext.ivk a
  · refine ⟨ext, int, some .external, he, hi, ?_, ?_⟩
    · unfold FullViewingKey.scopeForAddress
      simp only [he, Outcome.ret_bind, Outcome.pure_eq, diversifierIndex_isSome_iff, h1, if_true]
    · simp [h1]
  · by_cases h2 : Spec.OwnedBy P int.ivk a
    · refine ⟨ext, int, some .internal, he, hi, ?_, ?_⟩
      · unfold FullViewingKey.scopeForAddress
        simp only [he, hi, Outcome.ret_bind, Outcome.pure_eq, diversifierIndex_isSome_iff, h1, h2,
          if_true, if_false]
      · simp [h1, h2]
    · refine ⟨ext, int, none, he, hi, ?_, ?_⟩
      · unfold FullViewingKey.scopeForAddress
        simp only [he, hi, Outcome.ret_bind, Outcome.pure_eq, diversifierIndex_isSome_iff, h1, h2,
          if_false]
      · simp [h1, h2]

/-- Under `P0` an address of the external key is recognised as external. -/
example : ∃ (fvk : FullViewingKey) (a : Address),
    fvk.scopeForAddress Examples.P0 a = .ret (some .external) := by
  obtain ⟨fvk, -, -, -, hv⟩ := Examples.fvk_P0 ⟨default⟩
  obtain ⟨k, hk, -, -⟩ := toIvk_valid hv .external
  obtain ⟨ext, int, r, he, -, hr, h1, -, -⟩ :=
    C34_scope_for_address Examples.P0 fvk hv (k.address Examples.P0 default)
  rw [hk, Outcome.ret.injEq] at he
  subst he
  exact ⟨fvk, _, by rw [hr, h1.2 rfl]⟩

/-- **C34** (agreement of the address functions). For a valid key and either scope,
`address(d, scope)` is `to_ivk(scope).address(d)`, `address_at(j, scope)` is
`to_ivk(scope).address_at(j)`, and both are owned by that ivk with the requested diversifier. -/
theorem C34_address_agrees (P : Prims) (fvk : FullViewingKey)
    (hv : Spec.ValidFvk P fvk.ak.point fvk.nk fvk.rivk) (s : Scope) :
    ∃ k, fvk.toIvk P s = .ret k ∧
      (∀ d, fvk.address P d s = .ret (k.address P d) ∧ (k.address P d).d = d ∧
        Spec.OwnedBy P k.ivk (k.address P d)) ∧
      (∀ j, fvk.addressAt P j s = .ret (k.addressAt P j)) ∧
      (∀ d, ∃ j, fvk.addressAt P j s = fvk.address P d s) := by
  obtain ⟨k, hk, -, -⟩ := toIvk_valid hv s
  have hat : ∀ j, fvk.addressAt P j s = .ret (k.addressAt P j) := by
    intro j; unfold FullViewingKey.addressAt; rw [hk]; rfl
  have had : ∀ d, fvk.address P d s = .ret (k.address P d) := by
    intro d
    obtain ⟨hne, hs, ⟨i, hi⟩, ⟨j, hj⟩⟩ := validFvk_iff.1 hv
    cases s with
    | external =>
      simp only [FullViewingKey.toIvk, IncomingViewingKey.ofFvk, ivkOfFvk_eq hi, Outcome.ret_bind,
        Outcome.pure_eq, Outcome.ret.injEq] at hk
      subst hk
      simp only [FullViewingKey.address, ivkOfFvk_eq hi, Outcome.ret_bind, Outcome.pure_eq]
      rfl
    | internal =>
      simp only [FullViewingKey.toIvk, IncomingViewingKey.ofFvk, deriveInternal_eq hs,
        ivkOfFvk_eq hj, Outcome.ret_bind, Outcome.pure_eq, Outcome.ret.injEq] at hk
      subst hk
      simp only [FullViewingKey.address, deriveInternal_eq hs, ivkOfFvk_eq hj, Outcome.ret_bind,
        Outcome.pure_eq]
      rfl
  refine ⟨k, hk, fun d => ⟨had d, rfl, rfl⟩, hat, ?_⟩
  intro d
  obtain ⟨j, hj⟩ := C33_every_diversifier_has_index P k d
  exact ⟨j, by rw [hat, had, hj]⟩

/-! ### C35: key agreement -/

/-- **C35.** For an address of `k` and any non-zero ephemeral secret, the sender's and the
recipient's shared secrets are equal (with or without precomputation) and not the identity; the
ephemeral public key is not the identity either. -/
theorem C35_key_agreement (P : Prims)
    (hP : P.hashToCurve keyDiversificationPersonalization [] ≠ 0)
    (k : IncomingViewingKey) (hk : k.ivk ≠ 0) (d : Bytes 11) (esk : Fq) (he : esk ≠ 0) :
    let a := k.address P d
    let epk := eskDerivePublic esk (a.gd P)
    eskAgree esk a.pkd = epkAgree epk k ∧ eskAgree esk a.pkd = epkAgreePrepared epk k.ivk ∧
      eskAgree esk a.pkd ≠ 0 ∧ epk ≠ 0 := by
  intro a epk
  have h1 : eskAgree esk a.pkd = (esk * k.ivk) • diversifyHash P d := by
    change esk • (k.ivk • diversifyHash P d) = _
    rw [mul_smul]
  have h2 : epkAgree epk k = (esk * k.ivk) • diversifyHash P d := by
    change k.ivk • (esk • diversifyHash P d) = _
    rw [← mul_smul, mul_comm]
  have hd := diversifyHash_ne_zero hP d
  refine ⟨h1.trans h2.symm, h1.trans h2.symm, ?_, ?_⟩
  · rw [h1, Ne, smul_eq_zero_iff', not_or]
    exact ⟨mul_ne_zero he hk, hd⟩
  · change esk • diversifyHash P d ≠ 0
    rw [Ne, smul_eq_zero_iff', not_or]
    exact ⟨he, hd⟩

/-- Hypotheses of `C35_key_agreement` under `P0`. -/
example : Examples.P0.hashToCurve keyDiversificationPersonalization [] ≠ 0 ∧
    (5 : Fq) ≠ 0 ∧ (7 : Fq) ≠ 0 := ⟨genG_ne_zero, by decide +kernel, by decide +kernel⟩

/-! ### C36: internal keys -/

/-- **C36.** For a valid key the internal key exists; it has the same `ak` and `nk`, its `rivk` is
the ZIP 32 internal one, and `rivk`, `to_ivk`, `to_ovk` for the internal scope are those of the
internal key taken externally. -/
theorem C36_internal_key (P : Prims) (fvk : FullViewingKey) (hs : Spec.ySign fvk.ak.point = 0) :
    ∃ i, fvk.deriveInternal P = .ret i ∧ i.ak = fvk.ak ∧ i.nk = fvk.nk ∧
      i.rivk = Spec.rivkInternal P fvk.ak.point fvk.nk fvk.rivk ∧
      fvk.rivkFor P .internal = i.rivkFor P .external ∧
      fvk.toIvk P .internal = i.toIvk P .external ∧
      fvk.toOvk P .internal = i.toOvk P .external ∧
      (∃ i', i.deriveInternal P = .ret i' ∧
        i'.rivk = Spec.rivkInternal P fvk.ak.point fvk.nk i.rivk) := by
  rw [← signBit_eq_ySign] at hs
  have hd := deriveInternal_eq (P := P) hs
  refine ⟨_, hd, rfl, rfl, rfl, ?_, ?_, ?_, ?_⟩
  · rw [rivkFor_internal hs]; rfl
  · simp only [FullViewingKey.toIvk, hd, Outcome.ret_bind]
  · simp only [FullViewingKey.toOvk, hd, Outcome.ret_bind]
  · exact ⟨_, deriveInternal_eq (P := P) hs, rfl⟩

/-! ### C37: batches -/

/-- **C37.** Batched key derivation is pointwise single key derivation. -/
theorem C37_batch_kdf (P : Prims) (items : List (Option Point × Bytes 32)) :
    batchKdf P items = items.map fun it => it.1.map fun s => kdfOrchard P s it.2 := by
  unfold batchKdf batchToAffine
  simp only [reinsert_filterMap]
  induction items with
  | nil => rfl
  | cons a t ih => simpa using ih

example (P : Prims) (A B : Point) (e1 e2 e3 : Bytes 32) :
    batchKdf P [(some A, e1), (none, e2), (some B, e3)] =
      [some (kdfOrchard P A e1), none, some (kdfOrchard P B e3)] := C37_batch_kdf P _

end Orchard
