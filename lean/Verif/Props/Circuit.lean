import Verif.Lemmas.CommitIvk
import Verif.Lemmas.NoteCommit
import Verif.Model.Synthesize
import Verif.Spec.Circuit
import Verif.Props.Value
import Verif.Examples.Note

/-!
# Properties C51–C53: the gates of the Action circuit

`strict = false`: whatever satisfies the constraints, `strict = true`: with the results that witness
generation produces (see `Verif/Model/Halo2.lean`).
-/

namespace Orchard

open Halo2

/-! ### C51: the gate "Orchard circuit checks" -/

/-- **C51** (the gate, over the field). -/
theorem C51_gate (vOld vNew magnitude sign root anchor es eo : Fp) :
    Gate (ActionCircuit.gate vOld vNew magnitude sign root anchor es eo) ↔
      vOld - vNew = sign * magnitude ∧ (vOld = 0 ∨ root = anchor) ∧ (vOld = 0 ∨ es = 1) ∧
        (vNew = 0 ∨ eo = 1) := by
  simp only [Gate, ActionCircuit.gate, List.forall_mem_cons, List.not_mem_nil, IsEmpty.forall_iff,
    implies_true, and_true, mul_eq_zero, sub_eq_zero, mul_comm magnitude sign]
  rw [eq_comm (a := (1 : Fp)) (b := es), eq_comm (a := (1 : Fp)) (b := eo)]

/-- **C51** (over the integers). For 64-bit values and magnitude and a sign of `1` or `-1` the balance
equation holds over the integers. -/
theorem C51_integers (vOld vNew magnitude sign root anchor es eo : Fp)
    (h : Gate (ActionCircuit.gate vOld vNew magnitude sign root anchor es eo))
    (ho : vOld.val < 2 ^ 64) (hn : vNew.val < 2 ^ 64) (hm : magnitude.val < 2 ^ 64) (s : ℤ)
    (hs : s = 1 ∨ s = -1) (hsign : sign = (s : Fp)) :
    (vOld.val : ℤ) - vNew.val = s * magnitude.val := by
  have h1 := ((C51_gate _ _ _ _ _ _ _ _).1 h).1
  have hp := p_eq_T_P
  have e : (((vOld.val : ℤ) - vNew.val - s * magnitude.val : ℤ) : Fp) = 0 := by
    push_cast
    rw [Fp.natCast_val, Fp.natCast_val, Fp.natCast_val, ← hsign, h1, sub_self]
  rw [ZMod.intCast_zmod_eq_zero_iff_dvd] at e
  obtain ⟨c, hc⟩ := e
  have hc0 : c = 0 := by
    rcases hs with rfl | rfl
    · rcases lt_trichotomy c 0 with h | h | h
      · nlinarith
      · exact h
      · nlinarith
    · rcases lt_trichotomy c 0 with h | h | h
      · nlinarith
      · exact h
      · nlinarith
  rw [hc0] at hc
  omega

/-- **C51** (honest values). The magnitude and sign cells that are assigned for two note values are in
range, and the gate then holds exactly if the Merkle root and the flags are right for non-zero
values. -/
theorem C51_honest (vOld vNew : NoteValue) : ∃ magnitude sign : Fp,
    ActionCircuit.magnitudeSignCells vOld vNew = some (magnitude, sign) ∧
      magnitude.val < 2 ^ 64 ∧ (sign = 1 ∨ sign = -1) ∧
      ∀ root anchor es eo : Fp,
        Gate (ActionCircuit.gate (ActionCircuit.valueCell vOld) (ActionCircuit.valueCell vNew)
            magnitude sign root anchor es eo) ↔
          (vOld.inner = 0 ∨ root = anchor ∧ es = 1) ∧ (vNew.inner = 0 ∨ eo = 1) := by
  obtain ⟨m, sg, h1, h2, -⟩ := C02_magnitude_sign _ (.sub (NoteValue.sub_eq vOld vNew))
  have hpe := p_eq_T_P
  have hm : m.toNat < 2 ^ 64 := m.toNat_lt
  have hz : ∀ v : NoteValue, ActionCircuit.valueCell v = 0 ↔ v.inner = 0 := by
    intro v
    have hv : v.inner.toNat < 2 ^ 64 := v.inner.toNat_lt
    unfold ActionCircuit.valueCell
    constructor
    · intro h
      have h0 : v.inner.toNat = 0 :=
        Fp.natCast_inj (by omega) (by omega) (h.trans Nat.cast_zero.symm)
      exact UInt64.toNat_inj.1 h0
    · intro h; rw [h]; exact Nat.cast_zero
  refine ⟨(m.toNat : Fp), (sg.factor : Fp), ?_, ?_, ?_, ?_⟩
  · unfold ActionCircuit.magnitudeSignCells
    rw [NoteValue.sub_eq, Option.bind_some, h1]
    cases sg <;> simp [Sign.factor]
  · rw [ZMod.val_natCast_of_lt (by omega)]; exact hm
  · cases sg <;> simp [Sign.factor]
  · intro root anchor es eo
    rw [C51_gate, hz, hz]
    have e : ActionCircuit.valueCell vOld - ActionCircuit.valueCell vNew =
        (sg.factor : Fp) * (m.toNat : Fp) := by
      have : ((sg.factor * (m.toNat : ℤ) : ℤ) : Fp) = ((vOld.inner.toNat : ℤ) - vNew.inner.toNat : ℤ) := by
        rw [h2]
      unfold ActionCircuit.valueCell
      push_cast at this ⊢
      exact this.symm
    generalize ActionCircuit.valueCell vOld - ActionCircuit.valueCell vNew = a at e ⊢
    generalize (sg.factor : Fp) * (m.toNat : Fp) = b at e ⊢
    constructor
    · rintro ⟨-, h2, h3, h4⟩
      refine ⟨?_, h4⟩
      rcases h2 with h2 | h2
      · exact Or.inl h2
      · rcases h3 with h3 | h3
        · exact Or.inl h3
        · exact Or.inr ⟨h2, h3⟩
    · rintro ⟨h2 | ⟨h2, h3⟩, h4⟩
      · exact ⟨e, Or.inl h2, Or.inl h2, h4⟩
      · exact ⟨e, Or.inr h2, Or.inr h3, h4⟩

/-- A spend of 7 and an output of 9, with sign `-1` and magnitude 2. -/
example : Gate (ActionCircuit.gate 7 9 2 (-1) 5 5 1 1) ∧ ¬ Gate (ActionCircuit.gate 7 9 2 1 5 5 1 1) ∧
    ¬ Gate (ActionCircuit.gate 7 9 2 (-1) 5 6 1 1) ∧ ¬ Gate (ActionCircuit.gate 7 9 2 (-1) 5 5 0 1) := by
  simp only [C51_gate]; decide +kernel

/-! ### C52: `CommitIvk` -/

/-- **C52** (soundness). Every satisfying assignment hashes exactly the canonical 255-bit encodings of
`ak` and `nk`; so the result is `Commit^ivk_rivk(ak, nk)`, unless that is `⊥`. -/
theorem C52_sound (P : Prims) (k : CommitIvk.Cells) (ak nk : Fp) (rivk : Fq) (ivk : Fp)
    (h : CommitIvk.gadget P false k ak nk rivk ivk) :
    (messageWords k.message).flatMap (leBits 10) = leBits 255 ak.val ++ leBits 255 nk.val ∧
      (commitIvk P ak nk rivk = some ivk ∨ commitIvk P ak nk rivk = none) := by
  constructor
  · rw [CommitIvk.words_eq ((CommitIvk.gadget_iff _ _ _ _ _ _ _).1 h).1,
      flatMap_chunks _ 0 (by simp [Fp.toLeBits]) (by norm_num)]
    simp [Fp.toLeBits]
  · rcases CommitIvk.value_eq h with h | ⟨-, h⟩
    · exact Or.inl h
    · exact Or.inr h

/-- **C52** (completeness). For all inputs for which `Commit^ivk` is defined, the assigned values
satisfy the constraints. -/
theorem C52_complete (P : Prims) (ak nk : Fp) (rivk : Fq) (ivk : Fp)
    (h : commitIvk P ak nk rivk = some ivk) :
    CommitIvk.gadget P true (CommitIvk.assign ak nk) ak nk rivk ivk :=
  CommitIvk.complete_of_constraints (CommitIvk.constraints_assign ak nk) h

/-- `Commit^ivk` is defined for all inputs with the primitives of the examples. -/
example (ak nk : Fp) (rivk : Fq) : ∃ ivk, commitIvk Examples.P0 ak nk rivk = some ivk := by
  obtain ⟨h, h1, -⟩ := Examples.hash_P0 (Q := Constants.qCommitIvk)
    (msg := Fp.toLeBits 255 ak ++ Fp.toLeBits 255 nk) (by simp [Examples.domainPoints])
    (by simp [Fp.toLeBits])
  unfold commitIvk sinsemillaShortCommit sinsemillaCommit
  rw [h1]
  exact ⟨_, rfl⟩

/-! ### C53: `NoteCommit` -/

/-- **C53** (soundness). Every satisfying assignment hashes exactly the canonical encoding of `g_d`,
`pk_d`, a 64-bit value, `ρ` and `ψ` (with four zero bits of padding), and the value is below `2^64`;
so the result cells are the coordinates of the note commitment, unless that is `⊥`. -/
theorem C53_sound (P : Prims) (k : NoteCommit.Cells) (gd pkd : Point) (value rho psi : Fp) (rcm : Fq)
    (cm : Fp × Fp) (h : NoteCommit.gadget P false k gd pkd value rho psi rcm cm) :
    value.val < 2 ^ 64 ∧
      (messageWords k.message).flatMap (leBits 10) =
        leBits 256 gd.toBytes.toNat ++ leBits 256 pkd.toBytes.toNat ++ leBits 64 value.val ++
          leBits 255 rho.val ++ leBits 255 psi.val ++ List.replicate 4 false ∧
      ((∃ A, Spec.noteCommit P gd pkd value.val rho psi rcm = some A ∧
          cm = (extractP A, cellY A)) ∨
        Spec.noteCommit P gd pkd value.val rho psi rcm = none) := by
  have hw := NoteCommit.words_eq ((NoteCommit.gadget_iff _ _ _ _ _ _ _ _ _ _).1 h).1
  refine ⟨hw.1, ?_, ?_⟩
  · rw [hw.2, flatMap_chunks _ 4 (by simp [Spec.noteBits]) (by norm_num)]
    rfl
  · rcases NoteCommit.value_eq h with h | ⟨-, h⟩
    · exact Or.inl h
    · exact Or.inr h

/-- **C53** (completeness). For all inputs with a 64-bit value for which the note commitment is
defined, the assigned values satisfy the constraints. -/
theorem C53_complete (P : Prims) (gd pkd : Point) (value rho psi : Fp) (rcm : Fq) (cm : Point)
    (hv : value.val < 2 ^ 64) (h : Spec.noteCommit P gd pkd value.val rho psi rcm = some cm) :
    NoteCommit.gadget P true (NoteCommit.assign gd pkd value rho psi) gd pkd value rho psi rcm
      (extractP cm, cellY cm) :=
  NoteCommit.complete_of_constraints (NoteCommit.constraints_assign gd pkd value rho psi hv) h

/-- The note commitment is defined for all inputs with the primitives of the examples. -/
example (gd pkd : Point) (v : ℕ) (rho psi : Fp) (rcm : Fq) :
    ∃ cm, Spec.noteCommit Examples.P0 gd pkd v rho psi rcm = some cm := by
  obtain ⟨h, h1, -⟩ := Examples.hash_P0 (Q := Constants.qNoteCommit)
    (msg := Spec.noteBits gd pkd v rho psi) (by simp [Examples.domainPoints])
    (by simp [Spec.length_noteBits])
  unfold Spec.noteCommit
  rw [h1]
  exact ⟨_, rfl⟩

end Orchard
