import Verif.Lemmas.Synthesize
import Verif.Props.Keys
import Verif.Props.Build

/-!
# Properties C54 and C55: soundness and completeness of the Action circuit

The circuit is the relation `ActionCircuit.Synthesize` between its cells and the public inputs; the
proof system (halo2) is not modelled.
-/

namespace Orchard

open Halo2

/-- The auxiliary input of the Action statement, read off the cells. -/
def ActionCircuit.Cells.witness (k : ActionCircuit.Cells) : Spec.ActionWitness where
  path := k.path
  pos := k.pos
  gdOld := k.gdOld
  pkdOld := k.pkdOld
  vOld := k.vOld.val
  rhoOld := k.rhoOld
  psiOld := k.psiOld
  rcmOld := k.rcmOld
  cmOld := k.cmOld
  alpha := k.alpha
  ak := k.akP
  nk := k.nk
  rivk := k.rivk
  gdNew := k.gdNew
  pkdNew := k.pkdNew
  vNew := k.vNew.val
  psiNew := k.psiNew
  rcmNew := k.rcmNew
  rcv := k.rcv

theorem constrained {inst : List Fp} {cell x : Fp} {offset : ℕ}
    (h : ActionCircuit.constrainInstance inst cell offset) (hx : inst[offset]? = some x) : cell = x := by
  unfold ActionCircuit.constrainInstance at h
  rw [h] at hx
  exact Option.some.inj hx

/-! ### C54 -/

/-- **C54** (soundness). Whatever cells satisfy the constraints of the circuit for the public inputs of
an instance contain a witness of the Action statement for that instance. -/
theorem C54_sound (P : Prims) (k : ActionCircuit.Cells) (i : Instance) (inst : List Fp)
    (hi : i.toHalo2 = .ret inst) (h : ActionCircuit.Synthesize P false k inst) :
    Spec.ActionStatement P i k.witness := by
  have hin := toHalo2_eq hi
  obtain ⟨hgd, hak, hlen, hpos, hmerkle, ⟨commitment, blind, hshort, hblind, hcv⟩, icx, icy,
    ⟨hash, scalar, product, sum, hhash, hscalar, hproduct, hsum, hnf⟩, inf, ⟨ac, hac, hrk⟩, irx, iry,
    hivk, ⟨dp, hdp, hpkd, rfl⟩, ⟨dcm, hcm, edcm⟩, hgdn, hpkdn, hcmn, icm, anchor, es, eo, ia, ies, ieo,
    hgate⟩ := h
  have eanchor : anchor = i.anchor := constrained ia (by rw [hin]; rfl)
  have ecv : k.cvNet = i.cvNet.inner := cells_inj
    (constrained icx (by rw [hin]; rfl)) (constrained icy (by rw [hin]; rfl))
  have enf : k.nfOld = i.nfOld := constrained inf (by rw [hin]; rfl)
  have erk : k.rk = i.rk.point := cells_inj
    (constrained irx (by rw [hin]; rfl)) (constrained iry (by rw [hin]; rfl))
  have ecmx : k.cmNew.1 = i.cmx := constrained icm (by rw [hin]; rfl)
  have ees : es = if i.enableSpend then 1 else 0 := constrained ies (by rw [hin]; rfl)
  have eeo : eo = if i.enableOutput then 1 else 0 := constrained ieo (by rw [hin]; rfl)
  have hold := C53_sound _ _ _ _ _ _ _ _ _ hcm
  have hnew := C53_sound _ _ _ _ _ _ _ _ _ hcmn
  obtain ⟨z, hz, hsign, hmag, ecommit⟩ := mulFixedShort_eq hshort
  have hint := C51_integers _ _ _ _ _ _ _ _ hgate hold.1 hnew.1 hmag z hz hsign
  obtain ⟨-, groot, ges, geo⟩ := (C51_gate _ _ _ _ _ _ _ _).1 hgate
  have hval0 : ∀ x : Fp, x = 0 → x.val = 0 := fun x hx => by rw [hx]; rfl
  refine ⟨hgd, hpkd, hgdn, hpkdn, hak, hold.1, hnew.1, ?_, ?_, ?_, ?_, ?_, ?_, ?_, ?_, ?_⟩
  · -- old note commitment
    rcases hold.2.2 with ⟨A, h1, h2⟩ | h1
    · left
      rw [edcm] at h2
      exact h1.trans (congrArg some
        (cells_inj (congrArg Prod.fst h2) (congrArg Prod.snd h2)).symm)
    · exact Or.inr h1
  · -- Merkle path
    rcases groot with h0 | hroot
    · exact Or.inl (hval0 _ h0)
    · right
      obtain ⟨nodes, n0, n1, hn⟩ := merkleRoot_nodes k.path hmerkle
      rw [hlen] at n1 hn
      refine ⟨hlen, hpos, nodes, n0, n1.trans (hroot.trans eanchor), ?_⟩
      intro l hl
      have := hn l hl
      rw [Nat.zero_add] at this
      exact this
  · -- value commitment
    change i.cvNet.inner = (((k.vOld.val : ℤ) - (k.vNew.val : ℤ) : ℤ) : Fq) • _ + k.rcv • _
    rw [hint, ← ecv, hcv, hblind, ecommit]
  · -- nullifier
    rw [← enf, hnf, hsum, hproduct, gate_value hscalar, hhash]
    rfl
  · -- spend authority
    rw [← erk, hrk, hac]; rfl
  · -- diversified address
    rcases (C52_sound _ _ _ _ _ _ hivk).2 with h1 | h1
    · exact Or.inr ⟨k.ivk, h1, hdp⟩
    · exact Or.inl h1
  · -- new note commitment
    have h3 := hnew.2.2
    rw [enf] at h3
    rcases h3 with ⟨A, h1, h2⟩ | h1
    · exact Or.inl ⟨A, h1, by rw [← ecmx, h2]⟩
    · exact Or.inr h1
  · rcases ges with h0 | h1
    · exact Or.inl (hval0 _ h0)
    · right
      rw [ees] at h1
      by_contra hc
      rw [if_neg hc] at h1
      exact zero_ne_one h1
  · rcases geo with h0 | h1
    · exact Or.inl (hval0 _ h0)
    · right
      rw [eeo] at h1
      by_contra hc
      rw [if_neg hc] at h1
      exact zero_ne_one h1

/-- **C54** (what a satisfied circuit means). If the anchor is the root of a tree, then, unless the
cells give away one of the listed discrete-logarithm relations, they contain an old note `(g_d, pk_d,
v, ρ, ψ, rcm)` whose commitment is defined and, if its value is not zero, is the leaf at the position;
whose address belongs to the key `(ak, nk, rivk)`; whose nullifier is the published one; the new
note's commitment is the published one and has the nullifier as `ρ`; and the value commitment is to
the difference of the values. -/
theorem C54_meaning (P : Prims) (k : ActionCircuit.Cells) (i : Instance) (inst : List Fp)
    (hi : i.toHalo2 = .ret inst) (h : ActionCircuit.Synthesize P false k inst) (leaf : ℕ → Fp)
    (hroot : i.anchor = Spec.node P leaf 32 0) :
    (∃ cmOld cmNew ivk,
      Spec.noteCommit P k.gdOld k.pkdOld k.vOld.val k.rhoOld k.psiOld k.rcmOld = some cmOld ∧
      (k.vOld.val = 0 ∨ extractP cmOld = leaf k.pos ∧ k.pos < 2 ^ 32) ∧
      commitIvk P (extractP k.akP) k.nk k.rivk = some ivk ∧
      k.pkdOld = ((ivk.val : ℕ) : Fq) • k.gdOld ∧
      i.rk.point = k.alpha • Constants.spendAuthG + k.akP ∧
      i.nfOld = Spec.deriveNullifier P k.nk k.rhoOld k.psiOld cmOld ∧
      Spec.noteCommit P k.gdNew k.pkdNew k.vNew.val i.nfOld k.psiNew k.rcmNew = some cmNew ∧
      i.cmx = extractP cmNew ∧
      i.cvNet.inner = (((k.vOld.val : ℤ) - (k.vNew.val : ℤ) : ℤ) : Fq) • Constants.valueCommitV +
        k.rcv • Constants.valueCommitR) ∨
    (∃ L ∈ botCandidates (chunks (Spec.noteBits k.gdOld k.pkdOld k.vOld.val k.rhoOld k.psiOld)) ++
        botCandidates (chunks (Spec.noteBits k.gdNew k.pkdNew k.vNew.val i.nfOld k.psiNew)),
      L.IsRelation P Constants.qNoteCommit Constants.noteCommitR) ∨
    (∃ L ∈ botCandidates (chunks (leBits 255 (extractP k.akP).val ++ leBits 255 k.nk.val)),
      L.IsRelation P Constants.qCommitIvk Constants.commitIvkR) ∨
    ∃ l enc, k.merkle[l]? = some enc ∧ ∃ L ∈ layerCandidates l enc
        (Spec.node P leaf l (2 * (k.pos / 2 ^ (l + 1))))
        (Spec.node P leaf l (2 * (k.pos / 2 ^ (l + 1)) + 1)),
      L.2.2 = 0 ∧ L.IsRelation P Constants.qMerkleCrh 0 := by
  have hst := C54_sound P k i inst hi h
  have hin := toHalo2_eq hi
  rcases hst.cmOld with hcm | hcm
  swap
  · obtain ⟨L, hL, hr⟩ := noteCommit_none hcm
    exact Or.inr (Or.inl ⟨L, List.mem_append_left _ hL, hr⟩)
  rcases hst.cmx with ⟨cmn, hcmn, ecmx⟩ | hcmn
  swap
  · obtain ⟨L, hL, hr⟩ := noteCommit_none hcmn
    exact Or.inr (Or.inl ⟨L, List.mem_append_right _ hL, hr⟩)
  rcases hst.pkd with hivk | ⟨ivk, hivk, hpkd⟩
  · exact Or.inr (Or.inr (Or.inl (commitIvk_none hivk)))
  -- the Merkle path
  obtain ⟨-, -, hlen, hpos, hmerkle, -, -, -, -, -, -, -, -, -, -, -, -, -, -, -, anchor, es, eo, ia,
    -, -, hgate⟩ := h
  have eanchor : anchor = i.anchor := constrained ia (by rw [hin]; rfl)
  obtain ⟨-, groot, -, -⟩ := (C51_gate _ _ _ _ _ _ _ _).1 hgate
  have hmem : (k.vOld.val = 0 ∨ extractP k.cmOld = leaf k.pos ∧ k.pos < 2 ^ 32) ∨
      ∃ l enc, k.merkle[l]? = some enc ∧ ∃ L ∈ layerCandidates l enc
        (Spec.node P leaf l (2 * (k.pos / 2 ^ (l + 1))))
        (Spec.node P leaf l (2 * (k.pos / 2 ^ (l + 1)) + 1)),
      L.2.2 = 0 ∧ L.IsRelation P Constants.qMerkleCrh 0 := by
    rcases groot with h0 | hr
    · exact Or.inl (Or.inl (by rw [h0]; rfl))
    · rw [hr, eanchor, hroot] at hmerkle
      have e0 : Spec.node P leaf 32 0 =
          Spec.node P leaf (0 + k.path.length) (k.pos / 2 ^ (0 + k.path.length)) := by
        rw [hlen, Nat.zero_add, Nat.div_eq_of_lt hpos]
      rw [e0] at hmerkle
      rcases merkleRoot_member leaf k.path hmerkle with e | ⟨j, enc, hj, L, hL, hr⟩
      · left; right
        rw [pow_zero, Nat.div_one] at e
        exact ⟨e, hpos⟩
      · rw [Nat.zero_add] at hL
        exact Or.inr ⟨j, enc, hj, L, hL, hr⟩
  rcases hmem with hmem | hrel
  · exact Or.inl ⟨k.cmOld, cmn, ivk, hcm, hmem, hivk, hpkd, hst.rk, hst.nfOld, hcmn, ecmx, hst.cvNet⟩
  · exact Or.inr (Or.inr (Or.inr hrel))

/-! ### C55 -/

theorem owned_pkd_ne_zero {P : Prims} (hP : P.hashToCurve keyDiversificationPersonalization [] ≠ 0)
    {fvk : FullViewingKey} {scope : Scope} {a : Address}
    (hv : Spec.ValidFvk P fvk.ak.point fvk.nk fvk.rivk) (ho : Spec.OwnedInScope P fvk scope a) :
    a.pkd ≠ 0 := by
  obtain ⟨ivk, h1, h2⟩ := ho
  have hd : ∃ ivk' : Fp, commitIvk P (extractP fvk.ak.point) fvk.nk (Spec.scopedRivk P fvk scope) =
      some ivk' ∧ ivk' ≠ 0 := by
    cases scope
    · exact hv.2.2.1
    · exact hv.2.2.2
  obtain ⟨ivk', e1, e2⟩ := hd
  rw [h1, Option.some.injEq] at e1
  subst e1
  rw [h2, Ne, smul_eq_zero_iff']
  rintro (h | h)
  · apply e2
    have h3 := congrArg ZMod.val h
    rw [ZMod.val_natCast_of_lt ((ZMod.val_lt ivk).trans p_lt_q), ZMod.val_zero] at h3
    exact (ZMod.val_eq_zero ivk).1 h3
  · exact diversifyHash_ne_zero hP _ h

theorem rk_ne_zero_iff {A : Type} (a : Action A) (flags : Flags) (anchor : Fp) :
    (∃ inst, (a.toInstance flags anchor).toHalo2 = .ret inst) ↔ a.rk.point ≠ 0 := by
  have h := C27_defined (a.toInstance flags anchor)
  constructor
  · rintro ⟨inst, hi⟩ h0
    rw [h.1.2 h0] at hi
    simp at hi
  · intro h0
    obtain ⟨v, hv, -⟩ := h.2 h0
    exact ⟨v, hv⟩

variable {V : Type} {P : Prims} {tryFrom : I64 → Option V} {rng : BuildDraws} {anchor : Fp}
    {ty : BundleType} {spends : List SpendInfo} {outputs : List OutputInfo}
    {b : UnauthorizedBundle V} {m : BundleMetadata}

/-- The witness of a row satisfies the circuit with public inputs that belong to the row. -/
theorem row_complete (hP : P.hashToCurve keyDiversificationPersonalization [] ≠ 0) {r : Spec.Row}
    {c : Circuit} {x : Instance}
    (hv : Spec.ValidFvk P r.spend.fvk.ak.point r.spend.fvk.nk r.spend.fvk.rivk)
    (hown : Spec.OwnedInScope P r.spend.fvk r.spend.scope r.spend.note.recipient)
    (hop : r.note.recipient.pkd ≠ 0) (hwit : Spec.IsWitness P r c) (hrk : x.rk.point ≠ 0)
    (hcv : x.cvNet.inner =
      ((Spec.intValue r.spend.note.value - Spec.intValue r.note.value : ℤ) : Fq) •
        Constants.valueCommitV + r.rcv • Constants.valueCommitR)
    (hnf : ∃ cm, Spec.commitmentOf P r.spend.note = some cm ∧
      x.nfOld = Spec.deriveNullifier P r.spend.fvk.nk r.spend.note.rho
        (Spec.psi P r.spend.note.rseed r.spend.note.rho) cm)
    (hrk' : x.rk.point = r.spend.fvk.ak.point + r.alpha • Constants.spendAuthG)
    (hrho : r.note.rho = x.nfOld)
    (hcmx : ∃ cm, Spec.commitmentOf P r.note = some cm ∧ x.cmx = extractP cm)
    (hold : Spec.intValue r.spend.note.value = 0 ∨
      Spec.PathToAnchor P x.anchor r.spend ∧ x.enableSpend = true)
    (hnew : Spec.intValue r.note.value = 0 ∨ x.enableOutput = true) :
    (∃ k inst, ActionCircuit.assign P c = some k ∧ x.toHalo2 = .ret inst ∧
      ActionCircuit.Synthesize P true k inst) ∨
    ∃ x ∈ pathInputs P c.pos.toNat 0 c.path (extractP c.cmOld),
      sinsemillaHashToPoint P Constants.qMerkleCrh (merkleBits x.1 x.2.1 x.2.2) = none ∧
      ∃ L ∈ botCandidates (chunks (merkleBits x.1 x.2.1 x.2.2)),
        L.IsRelation P Constants.qMerkleCrh 0 := by
  obtain ⟨w1, w2, w3, w4, w5, w6, w7, w8, w9, w10, w11, w12, w13, w14, w15, w16, w17, w18, w19⟩ := hwit
  rcases merkleRootOf_spec P c.pos.toNat c.path 0 (extractP c.cmOld) with ⟨encs, e1, e2⟩ | ⟨x, hx, e⟩
  swap
  · obtain ⟨L, hL, hr⟩ := relation_of_bot (P := P) (Q := Constants.qMerkleCrh) 0 chunks_lt e
    exact Or.inr ⟨x, hx, e, L, hL, hr⟩
  left
  obtain ⟨inst, hinst, -⟩ := (C27_defined x).2 hrk
  obtain ⟨ivk, hivk, hpkd⟩ := hown
  obtain ⟨cmn, hcmn, ecmx⟩ := hcmx
  have hzero : ∀ v : NoteValue, Spec.intValue v = 0 → v.inner = 0 := by
    intro v h0
    rw [intValue_eq_zero] at h0
    rw [h0]; rfl
  obtain ⟨k, hk, hsyn⟩ := assign_satisfies (w := c) hinst
    (by rw [w3]; exact diversifyHash_ne_zero hP _) (by rw [w11]; exact hv.1)
    (by rw [w1]; exact r.spend.merklePath.len) e1 e2
    (by rw [w5, w16, w19]; exact hcv)
    (by
      obtain ⟨cm, h1, h2⟩ := hnf
      rw [w9, Option.some.injEq] at h1
      rw [w12, w6, w7, h1]
      exact h2)
    (by rw [w10, w11, add_comm]; exact hrk') (ivk := ivk)
    (by rw [w11, w12, w13]; exact hivk) (by rw [w4, w3]; exact hpkd)
    (by rw [w4]; exact owned_pkd_ne_zero hP hv ⟨ivk, hivk, hpkd⟩)
    (by rw [w3, w4, w5, w6, w7, w8]; exact w9) (by rw [w14]; exact diversifyHash_ne_zero hP _)
    (by rw [w15]; exact hop) (cmNew := cmn)
    (by rw [w14, w15, w16, w17, w18, ← hrho]; exact hcmn)
    ecmx
    (by
      constructor
      · rcases hold with h0 | ⟨⟨cm, h1, h2⟩, h3⟩
        · left; rw [w5]; exact hzero _ h0
        · right
          refine ⟨?_, h3⟩
          rw [w9, Option.some.injEq] at h1
          have h3 := (pathRoot_iff P r.spend.merklePath _ _).2 h2
          rw [root_eq, Outcome.ret.injEq] at h3
          rw [w1, w2, h1]
          exact h3
      · rcases hnew with h0 | h0
        · left; rw [w16]; exact hzero _ h0
        · exact Or.inr h0)
  exact ⟨k, inst, hk, hinst, hsyn⟩

/-- **C55.** In every built bundle, for every action, requested or dummy, whose `rk` is not the
identity: the values assigned from the recorded circuit witness satisfy the circuit with the public
inputs of the action and the bundle's flags and anchor.  The only exception is a Merkle path on which
a Sinsemilla hash is `⊥`, which gives one of the listed discrete-logarithm relations. -/
theorem C55_complete (hP : P.hashToCurve keyDiversificationPersonalization [] ≠ 0)
    (h : bundle P tryFrom rng anchor ty spends outputs = .ok (some (b, m)))
    (hs : ∀ s ∈ spends, Spec.Requestable P s) (ho : ∀ o ∈ outputs, o.recipient.pkd ≠ 0)
    (i : ℕ) (a : Action SigningMetadata) (c : Circuit) (ha : b.actions[i]? = some a)
    (hc : b.authorization.proof.circuits[i]? = some c) (hrk : a.rk.point ≠ 0) :
    (∃ k inst, ActionCircuit.assign P c = some k ∧
      (a.toInstance b.flags b.anchor).toHalo2 = .ret inst ∧
      ActionCircuit.Synthesize P true k inst) ∨
    ∃ x ∈ pathInputs P c.pos.toNat 0 c.path (extractP c.cmOld),
      sinsemillaHashToPoint P Constants.qMerkleCrh (merkleBits x.1 x.2.1 x.2.2) = none ∧
      ∃ L ∈ botCandidates (chunks (merkleBits x.1 x.2.1 x.2.2)),
        L.IsRelation P Constants.qMerkleCrh 0 := by
  obtain ⟨-, -, rows, hplan, hdS, hdO, hpath⟩ := C14_flags_anchor h
  have hi : i < b.actions.length := (List.getElem?_eq_some_iff.1 ha).1
  have hrl := hplan.explains.1.length_eq
  obtain ⟨r, hr⟩ : ∃ r, rows[i]? = some r := ⟨rows[i], List.getElem?_eq_getElem (by omega)⟩
  have hrm : r ∈ rows := List.mem_of_getElem? hr
  have hreal : Spec.Realises P r a := by
    have := (List.forall₂_iff_get.1 hplan.explains.1).2 i (by omega) hi
    obtain ⟨h1, e1⟩ := List.getElem?_eq_some_iff.1 hr
    obtain ⟨h2, e2⟩ := List.getElem?_eq_some_iff.1 ha
    rw [List.get_eq_getElem, List.get_eq_getElem, e1, e2] at this
    exact this
  have hwit : Spec.IsWitness P r c := by
    have hcl := (List.getElem?_eq_some_iff.1 hc).1
    have := (List.forall₂_iff_get.1 hplan.explains.2.1).2 i (by omega) hcl
    obtain ⟨h1, e1⟩ := List.getElem?_eq_some_iff.1 hr
    obtain ⟨h2, e2⟩ := List.getElem?_eq_some_iff.1 hc
    rw [List.get_eq_getElem, List.get_eq_getElem, e1, e2] at this
    exact this
  -- the spend is requested or a dummy
  have hsp : Spec.ValidFvk P r.spend.fvk.ak.point r.spend.fvk.nk r.spend.fvk.rivk ∧
      Spec.OwnedInScope P r.spend.fvk r.spend.scope r.spend.note.recipient := by
    obtain ⟨dS, p1, -, p2⟩ := hplan.spends
    have hm := p1.mem_iff.1 (List.mem_map_of_mem (f := Spec.Row.spend) hrm)
    rcases List.mem_append.1 hm with hm | hm
    · exact ⟨(hs _ hm).2.1, (hs _ hm).2.2.1⟩
    · obtain ⟨j, hj⟩ := List.getElem?_of_mem hm
      obtain ⟨-, -, e, -, -, -, e1, e2, -⟩ := p2 j _ hj
      exact ⟨e1, by rw [e]; exact e2⟩
  have hop : r.output.recipient.pkd ≠ 0 := by
    obtain ⟨dO, p1, -, p2⟩ := hplan.outputs
    have hm := p1.mem_iff.1 (List.mem_map_of_mem (f := Spec.Row.output) hrm)
    rcases List.mem_append.1 hm with hm | hm
    · exact ho _ hm
    · obtain ⟨j, hj⟩ := List.getElem?_of_mem hm
      obtain ⟨-, -, -, sk, fvk, -, -, e1, e2, -⟩ := p2 j _ hj
      exact owned_pkd_ne_zero hP e1 e2
  refine row_complete hP hsp.1 hsp.2 (by rw [hreal.recipient]; exact hop) hwit hrk ?_ hreal.nullifier
    hreal.rk hreal.rho hreal.cmx ?_ ?_
  · rw [hreal.value]; exact hreal.cvNet
  · by_cases h0 : Spec.intValue r.spend.note.value = 0
    · exact Or.inl h0
    · refine Or.inr ⟨hpath r hrm h0, ?_⟩
      by_contra hd
      obtain ⟨j, hd⟩ := hdS (Bool.eq_false_of_not_eq_true hd) r hrm
      exact h0 hd.1
  · by_cases h0 : Spec.intValue r.note.value = 0
    · exact Or.inl h0
    · right
      rw [hreal.value] at h0
      by_contra hd
      obtain ⟨j, hd⟩ := hdO (Bool.eq_false_of_not_eq_true hd) r hrm
      exact h0 hd.1

namespace Examples

/-- Under `P0`, the bundle of `built_P0` (a spend of value 5, a dummy spend, two outputs): every
recorded witness satisfies the circuit.  So the hypotheses of `C54_sound` and `C55_complete` are met,
for the action of the requested spend as well as for that of the dummy; and under `P0` the bundle's
anchor is the root of every tree, so those of `C54_meaning` are too. -/
theorem circuit_P0 : ∃ (b : UnauthorizedBundle I64), b.actions.length = 2 ∧
    b.authorization.proof.circuits.length = 2 ∧
    (∃ c ∈ b.authorization.proof.circuits, c.vOld.inner = 5) ∧
    ∀ (i : ℕ) (a : Action SigningMetadata) (c : Circuit), b.actions[i]? = some a →
      b.authorization.proof.circuits[i]? = some c →
      ∃ k inst, ActionCircuit.assign P0 c = some k ∧
        (a.toInstance b.flags b.anchor).toHalo2 = .ret inst ∧
        ActionCircuit.Synthesize P0 true k inst ∧ ActionCircuit.Synthesize P0 false k inst ∧
        (k.vOld.val ≠ 0 → b.anchor = Spec.node P0 (fun n => n) 32 0) := by
  obtain ⟨s, anchor, b, m, hv5, hr, hb, hl⟩ := built_P0 (fun _ => 0) (fun _ => 0)
  obtain ⟨rows, hp⟩ := C08_each_once hb
  have hrk : ∀ a ∈ b.actions, a.rk.point ≠ 0 := by
    intro a ha
    obtain ⟨k, hk⟩ := List.mem_iff_getElem?.1 ha
    have hf := hp.explains.1
    obtain ⟨hk1, g1⟩ := List.getElem?_eq_some_iff.1 hk
    have hk2 : k < rows.length := by rw [hf.length_eq]; exact hk1
    have hr0 := hf.get hk2 hk1
    simp only [List.get_eq_getElem, g1] at hr0
    have hal : rows[k].alpha = 0 := (hp.randomness k _ (List.getElem?_eq_getElem hk2)).2.1
    rw [hr0.rk, hal, Orchard.zero_smul, add_zero]
    obtain ⟨dS, q1, -, q3⟩ := hp.spends
    have hmem : rows[k].spend ∈ [s] ++ dS :=
      q1.mem_iff.1 (List.mem_map_of_mem (List.getElem_mem hk2))
    rcases List.mem_append.1 hmem with hm | hm
    · rw [List.mem_singleton.1 hm]
      exact hr.2.1.1
    · obtain ⟨j, hj⟩ := List.mem_iff_getElem?.1 hm
      obtain ⟨-, -, -, -, -, -, hv, -⟩ := q3 j _ hj
      exact hv.1
  have hcl : b.authorization.proof.circuits.length = 2 := by
    rw [← hp.explains.2.1.length_eq, hp.explains.1.length_eq, hl]
  refine ⟨b, hl, hcl, ?_, ?_⟩
  · obtain ⟨dS, q1, -, -⟩ := hp.spends
    have hm := q1.mem_iff.2 (show s ∈ [s] ++ dS by simp)
    obtain ⟨r, hrm, hrs⟩ := List.mem_map.1 hm
    obtain ⟨j, hj⟩ := List.mem_iff_getElem?.1 hrm
    obtain ⟨hj1, g1⟩ := List.getElem?_eq_some_iff.1 hj
    have hj2 : j < b.authorization.proof.circuits.length := by
      rw [← hp.explains.2.1.length_eq]; exact hj1
    have hw := hp.explains.2.1.get hj1 hj2
    simp only [List.get_eq_getElem, g1] at hw
    refine ⟨_, List.getElem_mem hj2, ?_⟩
    rw [hw.2.2.2.2.1, hrs]; exact hv5
  · intro i a c ha hc
    rcases C55_complete (by exact genG_ne_zero) hb
      (by intro s' hs'; rw [List.mem_singleton.1 hs']; exact hr)
      (by
        intro o ho
        have : o.recipient.pkd = Constants.spendAuthG := by
          simp only [List.mem_cons, List.not_mem_nil, or_false] at ho
          rcases ho with rfl | rfl <;> rfl
        rw [this]; exact Constants.spendAuthG_ne_zero)
      i a c ha hc (hrk a (List.mem_of_getElem? ha)) with ⟨k, inst, h1, h2, h3⟩ | ⟨x, hx, hn, -⟩
    · refine ⟨k, inst, h1, h2, h3, synthesize_mono h3, ?_⟩
      intro hv
      have hst := C54_sound P0 k _ inst h2 (synthesize_mono h3)
      obtain ⟨-, -, nodes, -, n32, hn⟩ := hst.merkle.resolve_left hv
      obtain ⟨x, y, -, -, -, hh⟩ := hn 31 (by norm_num)
      change nodes 32 = b.anchor at n32
      rw [← n32, Spec.node]
      unfold Spec.merkleCRH
      rw [hash_P0_const (msg' := leBits 10 31 ++ leBits 255 x ++ leBits 255 y) (by simp)]
      obtain ⟨A, hA, -⟩ := hash_P0 (Q := Constants.qMerkleCrh)
        (msg := leBits 10 31 ++ leBits 255 x ++ leBits 255 y) (by simp [domainPoints]) (by simp)
      rcases hh with hh | ⟨A', hh, e⟩
      · rw [hh] at hA; simp at hA
      · rw [hh, e]
    · obtain ⟨A, hA, -⟩ := hash_P0 (Q := Constants.qMerkleCrh)
        (msg := merkleBits x.1 x.2.1 x.2.2) (by simp [domainPoints]) (by simp)
      rw [hn] at hA; simp at hA

end Examples

end Orchard
