import Verif.Examples.Prims
import Verif.Lemmas.Note

/-! # Example notes -/

namespace Orchard.Examples

theorem seedPrf_P0 (dst : UInt8) (s : Bytes 32) (rho : Fp) :
    Spec.seedPrf P0 dst s rho =
      Bytes.ofNat 64 (if dst = 0x06 ∨ dst = 0x04 then 1 else if dst = 0x07 then 2 else 0) := by
  have := prfExpand_P0 dst s (Fp.toRepr rho).toList
  unfold prfExpand at this
  unfold Spec.seedPrf
  rw [← this, List.append_assoc]; rfl

theorem esk_P0 (s : Bytes 32) (rho : Fp) : Spec.esk P0 s rho = 1 := by
  unfold Spec.esk
  rw [seedPrf_P0, Bytes.toNat_ofNat (by decide +kernel)]; decide +kernel

theorem psi_P0 (s : Bytes 32) (rho : Fp) : Spec.psi P0 s rho = 0 := by
  unfold Spec.psi
  rw [seedPrf_P0, Bytes.toNat_ofNat (by decide +kernel)]; decide +kernel

theorem rcm_P0 (s : Bytes 32) (rho : Fp) : Spec.rcm P0 s rho = 0 := by
  unfold Spec.rcm
  rw [seedPrf_P0, Bytes.toNat_ofNat (by decide +kernel)]; decide +kernel

/-- Under `P0` the hash of a message depends on its number of words only. -/
theorem hash_P0_const {Q : Point} {msg msg' : List Bool} (h : msg.length = msg'.length) :
    sinsemillaHashToPoint P0 Q msg = sinsemillaHashToPoint P0 Q msg' := by
  unfold sinsemillaHashToPoint
  have hl : (chunks msg).length = (chunks msg').length := by rw [length_chunks, length_chunks, h]
  generalize chunks msg = a at *
  generalize chunks msg' = b at *
  induction a generalizing b Q with
  | nil => rw [List.length_eq_zero_iff.1 hl.symm]
  | cons x a ih =>
    cases b with
    | nil => simp at hl
    | cons y b =>
      simp only [List.foldlM_cons]
      have : sinsemillaStep P0 Q x = sinsemillaStep P0 Q y := rfl
      rw [this]
      congr 1
      funext z
      exact ih b (by simpa using hl)

/-- Under `P0` every note has a commitment, and all notes have the same. -/
theorem noteCommit_P0 : ∃ cm, cm ≠ 0 ∧ ∀ (d : Bytes 11) (pkd : Point) (v : ℕ) (rho : Fp) (s : Bytes 32),
    Spec.noteCommitOf P0 d pkd v rho s = some cm := by
  obtain ⟨h, h1, h2⟩ := hash_P0 (Q := Constants.qNoteCommit)
    (msg := Spec.noteBits 0 0 0 0 0) (by simp [domainPoints]) (by simp [Spec.length_noteBits])
  refine ⟨h, h2, ?_⟩
  intro d pkd v rho s
  unfold Spec.noteCommitOf Spec.noteCommit
  rw [hash_P0_const (msg' := Spec.noteBits 0 0 0 0 0)
    (by rw [Spec.length_noteBits, Spec.length_noteBits]), h1, rcm_P0]
  simp

end Orchard.Examples
