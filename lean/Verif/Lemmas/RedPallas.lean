import Verif.Model.RedPallas

/-! # Signatures verify -/

namespace Orchard.RedPallas

theorem basepoint_ne_zero (T : SigType) : basepoint T ≠ 0 := by
  cases T
  · exact Constants.spendAuthG_ne_zero
  · exact Constants.valueCommitR_ne_zero

/-- What verification checks. -/
theorem verify_iff {T : SigType} {P : Prims} {vk : VerificationKey T} {msg : List UInt8}
    {sig : Signature T} :
    vk.verify P msg sig = true ↔ ∃ (R : Point) (s : Fq),
      sig = R.toBytes.append (Fq.toRepr s) ∧
      s • basepoint T =
        R + hStar P (R.toBytes.toList ++ vk.toBytes.toList ++ msg) • vk.point := by
  unfold VerificationKey.verify
  constructor
  · intro h
    cases hR : Point.fromBytes (Bytes.slice sig 0 32 (by norm_num)) with
    | none => simp [hR] at h
    | some R =>
      cases hs : Fq.fromRepr (Bytes.slice sig 32 32 (by norm_num)) with
      | none => simp [hR, hs] at h
      | some s =>
        simp only [hR, hs, decide_eq_true_eq] at h
        have e1 := Point.fromBytes_eq_some_iff.1 hR
        have e2 := Fq.fromRepr_eq_some_iff.1 hs
        refine ⟨R, s, ?_, ?_⟩
        · have := Bytes.append_slice (m := 32) (n := 32) sig (by norm_num) (by norm_num)
          rw [← this, e1, e2]
        · rw [e1] at h; exact h
  · rintro ⟨R, s, rfl, h⟩
    have e1 : (R.toBytes.append (Fq.toRepr s)).slice 0 32 (by norm_num) = R.toBytes := by
      rw [Bytes.slice_append_left _ _ _ (by norm_num), Bytes.slice_all]
    have e2 : (R.toBytes.append (Fq.toRepr s)).slice 32 32 (by norm_num) = Fq.toRepr s := by
      rw [Bytes.slice_append_right _ _ _ (by norm_num) (by norm_num), Bytes.slice_all]
    have e3 : Point.fromBytes ((R.toBytes.append (Fq.toRepr s)).slice 0 32 (by norm_num)) = some R :=
      Point.fromBytes_eq_some_iff.2 e1
    have e4 : Fq.fromRepr ((R.toBytes.append (Fq.toRepr s)).slice 32 32 (by norm_num)) = some s :=
      Fq.fromRepr_eq_some_iff.2 e2
    simp only [e3, e4, decide_eq_true_eq]
    rw [e1]; exact h

/-- A signature made with a key verifies under its verification key. -/
theorem verify_sign {T : SigType} (P : Prims) (sk : SigningKey T) (rnd : Bytes 80)
    (msg : List UInt8) : sk.vk.verify P msg (sk.sign P rnd msg) = true := by
  rw [verify_iff]
  refine ⟨hStar P (rnd.toList ++ sk.vk.toBytes.toList ++ msg) • basepoint T, _, rfl, ?_⟩
  unfold SigningKey.vk
  simp only
  rw [add_smul, mul_smul]

/-- Randomising a key pair gives a key pair. -/
theorem randomize_vk (sk : SigningKey .spendAuth) (α : Fq) :
    (sk.randomize α).vk = sk.vk.randomize α := by
  unfold SigningKey.randomize SigningKey.vk VerificationKey.randomize
  simp only [basepoint, add_smul]

end Orchard.RedPallas
