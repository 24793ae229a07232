import Verif.Lemmas.Protocol
import Verif.Props.Keys

/-!
# C61, C62: primitives and key derivation follow the protocol specification
-/

namespace Orchard

open RedPallas

/-! ### C61 -/

/-- **C61** (Sinsemilla). The hash used by the crate is `SinsemillaHashToPoint`: 10-bit pieces of the
zero-padded message, each absorbed by two incomplete (chord) additions, `⊥` in exceptional cases. -/
theorem C61_sinsemilla (P : Prims) (Q : Point) (m : List Bool) (out : Option Point) :
    sinsemillaHashToPoint P Q m = out ↔ Spec.Protocol.SinsemillaHashToPoint P Q m out := by
  rw [sinsemilla_iff]; exact eq_comm

/-- **C61** (`Commit^ivk`). `commit_ivk` is `SinsemillaShortCommit` of the two 255-bit strings in the
`CommitIvk` domain. -/
theorem C61_commit_ivk (P : Prims) (ak nk : Fp) (rivk : Fq) (out : Option Fp) :
    commitIvk P ak nk rivk = out ↔ Spec.Protocol.CommitIvk P ak nk rivk out := by
  rw [commitIvk_iff]; exact eq_comm

/-- **C61** (`DiversifyHash`, `PRF^nf`, `PRF^expand`, `ToBase`, `ToScalar`, `Extract_P`, `repr_P`,
key agreement). -/
theorem C61_functions (P : Prims) :
    (∀ d : Bytes 11, diversifyHash P d = Spec.Protocol.diversifyHash P d.toList) ∧
    (∀ nk rho : Fp, prfNf P nk rho = P.poseidon nk rho) ∧
    (∀ (t : UInt8) (sk : Bytes 32) (x : List UInt8), (prfExpand P t sk x).toList =
      Spec.Protocol.prfExpand P sk.toList ([t] ++ x)) ∧
    (∀ x : Bytes 64, toBase x = Spec.Protocol.toBase x.toList) ∧
    (∀ x : Bytes 64, toScalar x = Spec.Protocol.toScalar x.toList) ∧
    (∀ A : Point, extractP A = Spec.Protocol.extract A) ∧
    (∀ A : Point, A.toBytes.toList = Spec.Protocol.reprP A) ∧
    (∀ (sk : Fq) (A : Point), kaOrchard sk A = sk.val • A ∧ kaOrchardPrepared sk A = sk.val • A) := by
  refine ⟨fun d => (diversifyHash_spec_eq P d).symm, fun _ _ => rfl, fun _ _ _ => rfl,
    fun x => (toBase_spec_eq x).symm, fun x => (toScalar_spec_eq x).symm,
    fun A => (extract_eq A).symm, fun A => (reprP_eq A).symm, ?_⟩
  intro sk A
  have h : sk • A = sk.val • A := by
    conv_lhs => rw [← ZMod.natCast_zmod_val sk]
    exact Nat.cast_smul_eq_nsmul Fq sk.val A
  exact ⟨h, h⟩

/-- A message of one bit and a table for which the hash is defined: the specification has solutions
other than `⊥`. -/
example : ∃ h, Spec.Protocol.SinsemillaHashToPoint Examples.P0 Constants.qNoteCommit [true] (some h) := by
  obtain ⟨h, hh, -⟩ := Examples.hash_P0 (Q := Constants.qNoteCommit) (by simp [Examples.domainPoints])
    (msg := [true]) (by norm_num)
  exact ⟨_, (C61_sinsemilla _ _ _ _).1 hh⟩

/-! ### C62 -/

/-- **C62** (spending key). For a spending key whose derived scalar is non-zero, the full viewing key
has exactly the components of § 4.2.3. -/
theorem C62_full_viewing_key (P : Prims) (sk : SpendingKey)
    (h : Spec.Protocol.toScalar (Spec.Protocol.prfExpand P sk.bytes.toList [6]) ≠ 0) :
    ∃ (ask : SpendAuthorizingKey) (fvk : FullViewingKey),
      SpendAuthorizingKey.ofSk P sk = .ret ask ∧ FullViewingKey.ofSk P sk = .ret fvk ∧
      ask.s = (Spec.Protocol.keyComponents P sk.bytes.toList).ask ∧
      fvk.ak.point = (Spec.Protocol.keyComponents P sk.bytes.toList).ak ∧
      fvk.nk = (Spec.Protocol.keyComponents P sk.bytes.toList).nk ∧
      fvk.rivk = (Spec.Protocol.keyComponents P sk.bytes.toList).rivk := by
  have e0 : Spec.Protocol.toScalar (Spec.Protocol.prfExpand P sk.bytes.toList [6]) = askInner P sk :=
    (toScalar_spec_eq _)
  have hask : SpendAuthorizingKey.ofSk P sk =
      .ret ⟨(Spec.Protocol.keyComponents P sk.bytes.toList).ask⟩ := by
    rw [e0] at h
    have hsgn := signBit_eq_ySign (askInner P sk • Constants.spendAuthG)
    have hk : (Spec.Protocol.keyComponents P sk.bytes.toList).ask =
        if Spec.ySign (askInner P sk • Constants.spendAuthG) = 1 then -askInner P sk
        else askInner P sk := by
      unfold Spec.Protocol.keyComponents
      simp only [e0]
      generalize askInner P sk • Constants.spendAuthG = A
      cases A with
      | zero => simp [Spec.ySign]
      | some x y hh => rfl
    unfold SpendAuthorizingKey.ofSk
    simp only [decide_eq_true h, assertO_true, Outcome.ret_bind, Outcome.pure_eq]
    rw [hk, ← hsgn]
    change (if (askInner P sk • Constants.spendAuthG).toBytes.toNat / 2 ^ 255 = 1 then _ else _) = _
    split_ifs <;> rfl
  refine ⟨_, ⟨⟨(Spec.Protocol.keyComponents P sk.bytes.toList).ak⟩,
      (Spec.Protocol.keyComponents P sk.bytes.toList).nk,
      (Spec.Protocol.keyComponents P sk.bytes.toList).rivk⟩, hask, ?_, rfl, rfl, rfl, rfl⟩
  · unfold FullViewingKey.ofSk
    rw [hask, Outcome.ret_bind, Outcome.pure_eq]
    have e1 : (Spec.Protocol.keyComponents P sk.bytes.toList).nk = nkOfSk P sk := toBase_spec_eq _
    have e2 : (Spec.Protocol.keyComponents P sk.bytes.toList).rivk = rivkOfSk P sk :=
      toScalar_spec_eq _
    rw [e1, e2]
    rfl

/-- The part of a full viewing key that differs between the two scopes (ZIP 32: the internal key has
its own `rivk`). -/
def Spec.rivkOfScope (P : Prims) (fvk : FullViewingKey) : Scope → Fq
  | .external => fvk.rivk
  | .internal => Spec.Protocol.rivkInternal P fvk.ak.point fvk.nk fvk.rivk

/-- **C62** (viewing keys). For a valid full viewing key and either scope: `ivk` is the (non-zero)
`Commit^ivk` value, `dk` and `ovk` are the two halves of `PRF^expand_rivk([0x82] ‖ ak ‖ nk)`, and the
address at an index has the diversifier `FF1_dk(index)` and `pk_d = [ivk] DiversifyHash(d)`. -/
theorem C62_viewing_keys (P : Prims) (fvk : FullViewingKey)
    (hv : Spec.ValidFvk P fvk.ak.point fvk.nk fvk.rivk) (s : Scope) :
    ∃ (k : IncomingViewingKey) (ovk : Bytes 32) (ivk : Fp),
      fvk.toIvk P s = .ret k ∧ fvk.toOvk P s = .ret ovk ∧
      Spec.Protocol.CommitIvk P (Spec.Protocol.extract fvk.ak.point) fvk.nk
        (Spec.rivkOfScope P fvk s) (some ivk) ∧ ivk ≠ 0 ∧ k.ivk.val = ivk.val ∧
      k.dk.toList ++ ovk.toList =
        Spec.Protocol.dkOvk P fvk.ak.point fvk.nk (Spec.rivkOfScope P fvk s) ∧
      ∀ j : Bytes 11, ∃ a, fvk.addressAt P j s = .ret a ∧
        Spec.Protocol.IsDiversifier P k.dk j.toList a.d.toList ∧
        a.pkd = ivk.val • Spec.Protocol.diversifyHash P a.d.toList := by
  have key : ∀ f : FullViewingKey, ∀ i : Fp, ivkInner P f = some i →
      ∃ k, IncomingViewingKey.ofFvk P f = .ret k ∧
        Spec.Protocol.CommitIvk P (Spec.Protocol.extract f.ak.point) f.nk f.rivk (some i) ∧
        i ≠ 0 ∧ k.ivk.val = i.val ∧
        k.dk.toList ++ (f.deriveDkOvk P).2.toList = Spec.Protocol.dkOvk P f.ak.point f.nk f.rivk ∧
        ∀ j : Bytes 11,
          Spec.Protocol.IsDiversifier P k.dk j.toList (k.addressAt P j).d.toList ∧
          (k.addressAt P j).pkd = i.val • Spec.Protocol.diversifyHash P (k.addressAt P j).d.toList := by
    intro f i hi
    obtain ⟨h1, h2⟩ := ivkInner_eq_some.1 hi
    refine ⟨⟨(f.deriveDkOvk P).1, modRPVal i⟩, ?_, ?_, h2, val_modRPVal i, ?_, ?_⟩
    · unfold IncomingViewingKey.ofFvk
      rw [ivkOfFvk_eq hi]; rfl
    · rw [extract_eq]
      exact (C61_commit_ivk _ _ _ _ _).1 h1
    · have e : Spec.Protocol.dkOvk P f.ak.point f.nk f.rivk =
          (prfExpand P 0x82 (Fq.toRepr f.rivk)
            ((VerificationKey.toBytes f.ak).toList ++ (Fp.toRepr f.nk).toList)).toList := by
        unfold Spec.Protocol.dkOvk
        rw [i2leosp_eq, i2leosp_eq, reprP_eq, List.append_assoc]
        rfl
      rw [e]
      exact congrArg Bytes.toList
        (Bytes.append_slice (m := 32) (n := 32) _ (by norm_num) (by norm_num))
    · intro j
      constructor
      · exact (isDiversifier_iff P _ j _).2 rfl
      · change modRPVal i • diversifyHash P _ = _
        rw [diversifyHash_spec_eq]
        have := (Nat.cast_smul_eq_nsmul Fq i.val
          (diversifyHash P (dkGet P (f.deriveDkOvk P).1 j))).symm
        exact this.symm
  obtain ⟨hne, hs, ⟨i, hi⟩, ⟨j, hj⟩⟩ := validFvk_iff.1 hv
  cases s with
  | external =>
    obtain ⟨k, h1, h2, h3, h4, h5, h6⟩ := key fvk i hi
    refine ⟨k, (fvk.deriveDkOvk P).2, i, h1, rfl, h2, h3, h4, h5, fun j => ⟨k.addressAt P j, ?_, h6 j⟩⟩
    unfold FullViewingKey.addressAt FullViewingKey.toIvk
    simp only [h1, Outcome.ret_bind, Outcome.pure_eq]
  | internal =>
    have e : Spec.rivkOfScope P fvk .internal = internalRivk P fvk := by
      unfold Spec.rivkOfScope Spec.Protocol.rivkInternal
      simp only
      rw [i2leosp_eq, i2leosp_eq, reprP_eq, List.append_assoc]
      exact toScalar_spec_eq _
    obtain ⟨k, h1, h2, h3, h4, h5, h6⟩ := key _ j hj
    rw [e]
    refine ⟨k, (FullViewingKey.deriveDkOvk P ⟨fvk.ak, fvk.nk, internalRivk P fvk⟩).2, j, ?_, ?_,
      h2, h3, h4, h5, fun j => ⟨k.addressAt P j, ?_, h6 j⟩⟩
    · unfold FullViewingKey.toIvk
      simp only [deriveInternal_eq hs, Outcome.ret_bind]; exact h1
    · unfold FullViewingKey.toOvk
      simp only [deriveInternal_eq hs, Outcome.ret_bind, Outcome.pure_eq]
    · unfold FullViewingKey.addressAt FullViewingKey.toIvk
      simp only [deriveInternal_eq hs, Outcome.ret_bind, h1, Outcome.pure_eq]

/-- **C62** (diversifiers). `DiversifierKey::get` is FF1 of SP 800-38G on the index, for every key and
index, and `DiversifierKey::diversifier_index` is its inverse: an index is returned for a diversifier
exactly if FF1 maps the index to it. -/
theorem C62_diversifiers (P : Prims) (dk : Bytes 32) (j d : Bytes 11) :
    (dkGet P dk j = d ↔ Spec.Protocol.IsDiversifier P dk j.toList d.toList) ∧
    (dkIndex P dk d = j ↔ Spec.Protocol.IsDiversifier P dk j.toList d.toList) := by
  rw [isDiversifier_iff]
  refine ⟨Iff.rfl, ?_, ?_⟩
  · rintro rfl; exact dkGet_dkIndex P dk d
  · rintro rfl; exact dkIndex_dkGet P dk j

/-- The hypotheses of C62 hold for `P0` and every spending key. -/
example (sk : SpendingKey) :
    Spec.Protocol.toScalar (Spec.Protocol.prfExpand Examples.P0 sk.bytes.toList [6]) ≠ 0 ∧
    ∃ fvk, FullViewingKey.ofSk Examples.P0 sk = .ret fvk ∧
      Spec.ValidFvk Examples.P0 fvk.ak.point fvk.nk fvk.rivk := by
  constructor
  · have := Examples.askScalar_P0 sk.bytes
    rw [show Spec.Protocol.prfExpand Examples.P0 sk.bytes.toList [6] =
      (prfExpand Examples.P0 6 sk.bytes []).toList from rfl, toScalar_spec_eq]
    unfold Spec.askScalar at this
    rw [this]; exact one_ne_zero
  · obtain ⟨fvk, h, -, -, hv⟩ := Examples.fvk_P0 sk
    exact ⟨fvk, h, hv⟩

end Orchard
