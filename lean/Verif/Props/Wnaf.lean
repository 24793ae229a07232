import Verif.Lemmas.Wnaf

/-!
# Property C79: prepared scalars and bases

Key agreement and address derivation multiply points through precomputed tables and windowed
non-adjacent forms.  The theorems say that this computes the multiple, for every scalar and point, and
never panics.
-/

namespace Orchard

/-- **C79** (form). For every window size from 2 to 63 and every little-endian byte string whose top bit
is not set, `wnaf_form` returns a windowed non-adjacent form, and it spells the number. -/
theorem C79_form (c : List UInt8) (w : ℕ) (h2 : 2 ≤ w) (h64 : w < 64)
    (htop : leNat c < 2 ^ (c.length * 8 - 1)) :
    ∃ l, Wnaf.form c w (by omega) = .ret l ∧ Spec.digitsValue l = leNat c ∧ Spec.IsWnaf w l :=
  Wnaf.form_spec c _ h2 h64 htop

/-- **C79** (multiplication). Preparing a scalar never panics, and multiplying any prepared base with it
gives the multiple by the scalar's canonical integer. -/
theorem C79_prepared (sk : Fq) :
    ∃ s, Wnaf.PreparedScalar.new sk = .ret s ∧
      ∀ b : Point, Wnaf.kaOrchardPrepared s (Wnaf.PreparedBase.new b) = .ret (sk.val • b) := by
  have hl : (Fq.toRepr sk).toList.length = 32 := Bytes.length_toList _
  have hv : leNat (Fq.toRepr sk).toList = sk.val := Fq.toNat_toRepr sk
  obtain ⟨l, h1, h3, h4⟩ := Wnaf.form_spec (Fq.toRepr sk).toList (w := Wnaf.PREPARED_WINDOW_SIZE)
    (by decide) (by decide) (by decide) (by
      rw [hl, hv]
      exact lt_trans (ZMod.val_lt sk) (by decide +kernel))
  refine ⟨⟨l⟩, ?_, fun b => ?_⟩
  · unfold Wnaf.PreparedScalar.new
    rw [h1]; rfl
  · obtain ⟨f, e, -⟩ := Wnaf.exp_spec b (w := Wnaf.PREPARED_WINDOW_SIZE) h4.digit
    unfold Wnaf.kaOrchardPrepared Wnaf.exp Wnaf.PreparedBase.new
    simp only
    rw [e, h3, hv, Outcome.ret_bind, Outcome.pure_eq]
    simp only [natCast_zsmul]

/-- **C79** (refinement). The key agreement functions used by the rest of the model are what the code
with tables and windows computes. -/
theorem C79_key_agreement (sk : Fq) (b : Point) :
    Wnaf.kaOrchard sk b = .ret (kaOrchard sk b) ∧
    ∃ s, Wnaf.PreparedScalar.new sk = .ret s ∧
      Wnaf.kaOrchardPrepared s (Wnaf.PreparedBase.new b) = .ret (kaOrchardPrepared sk b) := by
  obtain ⟨s, h1, h2⟩ := C79_prepared sk
  have e : sk.val • b = sk • b := by
    rw [← Nat.cast_smul_eq_nsmul Fq, ZMod.natCast_zmod_val]
  refine ⟨?_, s, h1, by rw [h2, e]; rfl⟩
  unfold Wnaf.kaOrchard
  rw [h1, Outcome.ret_bind, h2, e]; rfl

namespace Examples

/-- C79: `0x0737 = 1847` with windows of 4 bits: `7·1 + 3·2^4 + 7·2^8`. -/
example : Wnaf.form [0x37, 0x07] 4 (by decide) = .ret [7, 0, 0, 0, 3, 0, 0, 0, 7, 0, 0, 0, 0, 0, 0, 0] := by
  decide +kernel

/-- C79: digits of both signs: `0x7d = 125 = -3 + 2^7`. -/
example : Wnaf.form [0x7d] 4 (by decide) = .ret [-3, 0, 0, 0, 0, 0, 0, 1, 0, 0, 0] := by
  decide +kernel

/-- The condition on the top bit is needed: the last carry of `0xff` is lost.  Canonical encodings of
scalars meet the condition. -/
example : Wnaf.form [0xff] 4 (by decide) = .ret [-1, 0, 0, 0, 0, 0, 0, 0] := by
  decide +kernel

end Examples

end Orchard
