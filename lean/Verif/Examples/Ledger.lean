import Verif.Lemmas.Ledger
import Verif.Examples.Note

/-!
# A chain of two bundles, under the example primitives

The first bundle shields 5 zatoshi into a new note; the second spends that note, through a Merkle path
in the tree that the first bundle made, and withdraws the 5 zatoshi.
-/

namespace Orchard.Examples

open Spec

/-- The secrets of an example action. -/
noncomputable def ledgerWitness (ivk : Fp) (cm : Point) (path : List Fp) (vOld vNew : ℕ)
    (rho psiOld psiNew : Fp) : ActionWitness where
  path := path
  pos := 0
  gdOld := genG
  pkdOld := ((ivk.val : ℕ) : Fq) • genG
  vOld := vOld
  rhoOld := rho
  psiOld := psiOld
  rcmOld := 0
  cmOld := cm
  alpha := 0
  ak := genG
  nk := 0
  rivk := 0
  gdNew := genG
  pkdNew := ((ivk.val : ℕ) : Fq) • genG
  vNew := vNew
  psiNew := psiNew
  rcmNew := 0
  rcv := 0

/-- The action with these secrets. -/
noncomputable def ledgerAction (cm : Point) (vOld vNew : ℕ) (rho psiOld : Fp) : Action Unit where
  nf := deriveNullifier P0 0 rho psiOld cm
  rk := ⟨genG⟩
  cmx := extractP cm
  encryptedNote := ⟨default, default, default⟩
  cvNet := ⟨(((vOld : ℤ) - (vNew : ℤ) : ℤ) : Fq) • Constants.valueCommitV⟩
  authorization := ()

/-- The Merkle path of position 0 in a full tree. -/
noncomputable def ledgerTrace (leaf : ℕ → Fp) : MerkleTrace where
  node l := node P0 leaf l 0
  left l := (node P0 leaf l 0).val
  right l := (node P0 leaf l 1).val

theorem ledgerTrace_valid (leaf : ℕ → Fp) : (ledgerTrace leaf).Valid P0
    ((List.range 32).map fun l => node P0 leaf l 1) 0 (leaf 0) (node P0 leaf 32 0) := by
  refine ⟨by simp, by norm_num, rfl, rfl, fun l hl => ⟨val_lt_255 _, val_lt_255 _, ?_, Or.inr ?_⟩⟩
  · rw [Nat.zero_div, Nat.zero_mod, if_pos rfl]
    simp [ledgerTrace, hl]
  · obtain ⟨h, h1, -⟩ := hash_P0 (Q := Constants.qMerkleCrh)
      (msg := merkleMessage l ((ledgerTrace leaf).left l) ((ledgerTrace leaf).right l))
      (by simp [domainPoints]) (by simp)
    refine ⟨h, h1, ?_⟩
    change node P0 leaf (l + 1) 0 = _
    rw [node]
    unfold merkleCRH
    change (match sinsemillaHashToPoint P0 Constants.qMerkleCrh
      (merkleMessage l ((ledgerTrace leaf).left l) ((ledgerTrace leaf).right l)) with
      | none => 0 | some h => extractP h) = _
    rw [h1]

theorem ledger_statement {ivk : Fp} (hivk : commitIvk P0 (extractP genG) 0 0 = some ivk) (h0 : ivk ≠ 0)
    {cm : Point} (hcm : ∀ gd pkd v rho psi, noteCommit P0 gd pkd v rho psi 0 = some cm)
    (path : List Fp) {vOld vNew : ℕ} (rho psiOld psiNew : Fp) (h1 : vOld < 2 ^ 64) (h2 : vNew < 2 ^ 64)
    {anchor : Fp} (hp : vOld = 0 ∨ MerklePathValid P0 path 0 (extractP cm) anchor) :
    ActionStatement P0 ((ledgerAction cm vOld vNew rho psiOld).toInstance ⟨true, true⟩ anchor)
      (ledgerWitness ivk cm path vOld vNew rho psiOld psiNew) := by
  have hpk : (((ivk.val : ℕ) : Fq) • genG : Point) ≠ 0 := by
    intro h
    rcases smul_eq_zero.1 h with h | h
    · rw [ZMod.natCast_eq_zero_iff] at h
      have := Nat.eq_zero_of_dvd_of_lt h ((ZMod.val_lt ivk).trans p_lt_q)
      exact h0 ((ZMod.val_eq_zero _).1 this)
    · exact genG_ne_zero h
  exact {
    gdOld := genG_ne_zero, pkdOld := hpk, gdNew := genG_ne_zero, pkdNew := hpk, ak := genG_ne_zero
    vOld := h1, vNew := h2
    cmOld := Or.inl (hcm _ _ _ _ _)
    merkle := hp
    cvNet := by simp [ledgerAction, ledgerWitness, Action.toInstance]
    nfOld := rfl
    rk := by simp [ledgerAction, ledgerWitness, Action.toInstance]
    pkd := Or.inr ⟨ivk, hivk, rfl⟩
    cmx := Or.inl ⟨cm, hcm _ _ _ _ _, rfl⟩
    enableSpend := Or.inr rfl
    enableOutput := Or.inr rfl }

/-- There is a chain that shields 5 zatoshi in one bundle and spends the note in the next. -/
theorem ledger_P0 : ∃ b b' : OpenedBundle Unit Unit I64, Chain P0 id [b, b'] ∧
    poolBalance id [b] = 5 ∧ poolBalance id [b, b'] = 0 ∧
    ∃ a, Spends [b, b'] 1 a ∧ a.w.vOld = 5 := by
  obtain ⟨ivk, hivk, h0⟩ := commitIvk_P0 (extractP genG) 0
  obtain ⟨cm, hcm⟩ : ∃ cm, ∀ gd pkd v rho psi, noteCommit P0 gd pkd v rho psi 0 = some cm := by
    obtain ⟨h, h1, -⟩ := hash_P0 (Q := Constants.qNoteCommit)
      (msg := noteBits 0 0 0 0 0) (by simp [domainPoints]) (by simp [length_noteBits])
    refine ⟨h, fun gd pkd v rho psi => ?_⟩
    unfold noteCommit
    rw [hash_P0_const (msg' := noteBits 0 0 0 0 0) (by rw [length_noteBits, length_noteBits]), h1]
    simp
  have hnf : ∀ (rho t : Fp), deriveNullifier P0 0 rho (t - P0.poseidon 0 rho) cm =
      extractP (cm + ((t.val : ℕ) : Fq) • Constants.nullifierK) := by
    intro rho t
    unfold deriveNullifier
    rw [add_sub_cancel]
  obtain ⟨t, ht⟩ : ∃ t : Fp, extractP (cm + ((t.val : ℕ) : Fq) • Constants.nullifierK) ≠
      extractP cm := by
    by_contra hcon
    push Not at hcon
    have h1 := hcon 1
    have h2 := hcon 2
    have e1 : (1 : Fp).val = 1 := by decide +kernel
    have e2 : (2 : Fp).val = 2 := by decide +kernel
    rw [e1, Nat.cast_one, one_smul, extractP_eq_iff] at h1
    rw [e2, Nat.cast_ofNat, two_smul, extractP_eq_iff] at h2
    have hK := Constants.nullifierK_ne_zero
    have h2K : Constants.nullifierK + Constants.nullifierK ≠ 0 := by
      rw [← two_smul Fq]
      intro h
      rcases smul_eq_zero.1 h with h | h
      · exact absurd h (by decide +kernel)
      · exact hK h
    rcases h1 with h1 | h1
    · exact hK (by simpa using h1)
    rcases h2 with h2 | h2
    · exact h2K (by simpa using h2)
    · rw [← h1, add_right_inj] at h2
      exact hK (by simpa using h2)
  let nf1 := deriveNullifier P0 0 0 (0 - P0.poseidon 0 0) cm
  let psi1 : Fp := 0 - P0.poseidon 0 0
  let psi2 : Fp := t - P0.poseidon 0 nf1
  let b : OpenedBundle Unit Unit I64 :=
    ⟨⟨[ledgerAction cm 0 5 0 psi1], by simp, ⟨true, true⟩, I64.mk' (-5),
      node P0 (leafAt ([] : List (OpenedBundle Unit Unit I64))) 32 0, ()⟩,
      [(ledgerWitness ivk cm [] 0 5 0 psi1 psi2, ledgerTrace fun _ => 0)], 0⟩
  let path := (List.range 32).map fun l => node P0 (leafAt [b]) l 1
  let b' : OpenedBundle Unit Unit I64 :=
    ⟨⟨[ledgerAction cm 5 0 nf1 psi2], by simp, ⟨true, true⟩, I64.mk' 5,
      node P0 (leafAt [b]) 32 0, ()⟩,
      [(ledgerWitness ivk cm path 5 0 nf1 psi2 0, ledgerTrace (leafAt [b]))], 0⟩
  have hleaf : leafAt [b] 0 = extractP cm := by simp [leafAt, cmxsOf, b, ledgerAction]
  have hval := ledgerTrace_valid (leafAt [b])
  rw [hleaf] at hval
  have hpath : MerklePathValid P0 path 0 (extractP cm) (node P0 (leafAt [b]) 32 0) := by
    obtain ⟨g1, g2, g3, g4, g5⟩ := hval
    exact ⟨g1, g2, _, g3, g4, fun l hl => ⟨_, _, g5 l hl⟩⟩
  have ha : Accepted P0 id [] b := by
    refine ⟨.cons ⟨ledger_statement hivk h0 hcm _ _ _ _ (by norm_num) (by norm_num) (Or.inl rfl),
      fun h => absurd rfl h⟩ .nil, ?_, ⟨0, le_rfl, by rw [List.take_nil]⟩, ?_, ?_⟩
    · simp [bindingKey, b, ledgerAction, I64.mk']
    · simp [nullifiersOf, b]
    · simp [cmxsOf, b]
  have ha' : Accepted P0 id [b] b' := by
    refine ⟨.cons ⟨ledger_statement hivk h0 hcm _ _ _ _ (by norm_num) (by norm_num) (Or.inr hpath),
      fun _ => hval⟩ .nil, ?_, ⟨1, le_rfl, by rw [List.take_of_length_le (by simp)]⟩, ?_, ?_⟩
    · simp [bindingKey, b', ledgerAction, I64.mk']
    · have hne : (ledgerAction cm 0 5 0 psi1).nf ≠ (ledgerAction cm 5 0 nf1 psi2).nf := by
        change deriveNullifier P0 0 0 (0 - P0.poseidon 0 0) cm ≠
          deriveNullifier P0 0 nf1 (t - P0.poseidon 0 nf1) cm
        rw [hnf, hnf]
        simpa using ht.symm
      simpa [nullifiersOf, b, b'] using hne
    · simp [cmxsOf, b, b']
  refine ⟨b, b', .accept (bs := [b]) (.accept (bs := []) .empty ha) ha', ?_, ?_, ?_⟩
  · simp [poolBalance, b, I64.mk']
  · simp [poolBalance, b, b', I64.mk']
  · exact ⟨⟨ledgerAction cm 5 0 nf1 psi2, ledgerWitness ivk cm path 5 0 nf1 psi2 0,
      ledgerTrace (leafAt [b])⟩, ⟨rfl, by simp [ledgerWitness]⟩, rfl⟩

end Orchard.Examples
