import Verif.Spec.Ledger
import Verif.Spec.Builder
import Verif.Model.NoteEncryption

/-!
# What a wallet may rely on

Vocabulary for C94: the note a wallet holds, and the actions on a chain that concern it.
-/

namespace Orchard.Spec

variable {A : Type}

/-- The message and trapdoor of the commitment to a note. -/
def noteOpening (P : Prims) (n : Note) : List Bool × Fq :=
  (noteBits (diversifyHash P n.recipient.d) n.recipient.pkd n.value.inner.toNat n.rho
    (psi P n.rseed n.rho), rcm P n.rseed n.rho)

/-- The message and trapdoor of the commitment to the note spent in an action. -/
def oldOpening (a : OpenedAction A) : List Bool × Fq :=
  (noteBits a.w.gdOld a.w.pkdOld a.w.vOld a.w.rhoOld a.w.psiOld, a.w.rcmOld)

/-- The message and trapdoor of the commitment to the note created in an action. -/
def newOpening (a : OpenedAction A) : List Bool × Fq :=
  (noteBits a.w.gdNew a.w.pkdNew a.w.vNew a.action.nf a.w.psiNew, a.w.rcmNew)

/-- The action creates the note. -/
def Creates (P : Prims) (a : OpenedAction A) (n : Note) : Prop :=
  a.w.gdNew = diversifyHash P n.recipient.d ∧ a.w.pkdNew = n.recipient.pkd ∧
    a.w.vNew = n.value.inner.toNat ∧ a.action.nf = n.rho ∧ a.w.psiNew = psi P n.rseed n.rho ∧
    a.w.rcmNew = rcm P n.rseed n.rho

/-- The action spends the note. -/
def SpendsNote (P : Prims) (a : OpenedAction A) (n : Note) : Prop :=
  a.w.gdOld = diversifyHash P n.recipient.d ∧ a.w.pkdOld = n.recipient.pkd ∧
    a.w.vOld = n.value.inner.toNat ∧ a.w.rhoOld = n.rho ∧ a.w.psiOld = psi P n.rseed n.rho ∧
    a.w.rcmOld = rcm P n.rseed n.rho

/-- The validating key of the action's signature is a randomisation of `ak`, up to sign. -/
def UnderKey (a : OpenedAction A) (ak : Point) : Prop :=
  a.action.rk.point = a.w.alpha • Constants.spendAuthG + ak ∨
    a.action.rk.point = a.w.alpha • Constants.spendAuthG + -ak

/-- One of two linear forms, computed from two commitment openings and two multiples of the nullifier
base `K`, is a non-trivial discrete-logarithm relation among the generators of the note commitment and
`K`. -/
def NullifierRelation (P : Prims) (m m' : List Bool × Fq) (s s' : Fq) : Prop :=
  ∃ Lk ∈ [(accLin (chunks m.1) - accLin (chunks m'.1) + blindLin (m.2 - m'.2), s - s'),
      (accLin (chunks m.1) + accLin (chunks m'.1) + blindLin (m.2 + m'.2), s + s')],
    (Lk.1.Nontrivial ∨ Lk.2 ≠ 0) ∧
      Lk.1.eval P Constants.qNoteCommit Constants.noteCommitR + Lk.2 • Constants.nullifierK = 0

/-- The multiple of `K` in a nullifier. -/
def nullifierScalar (P : Prims) (nk rho psi : Fp) : Fq := (((P.poseidon nk rho + psi).val : ℕ) : Fq)

/-- The relations that may be exhibited by an action on the chain and a note of a wallet with the given
full viewing key (`rivk` for the scope of the note's address). -/
def WalletRelation (P : Prims) (a : OpenedAction A) (n : Note) (ak : Point) (nk : Fp) (rivk : Fq) :
    Prop :=
  SinsemillaRelation P Constants.qNoteCommit Constants.noteCommitR (oldOpening a) (noteOpening P n) ∨
  NullifierRelation P (oldOpening a) (noteOpening P n)
    (nullifierScalar P a.w.nk a.w.rhoOld a.w.psiOld)
    (nullifierScalar P nk n.rho (psi P n.rseed n.rho)) ∨
  SinsemillaRelation P Constants.qCommitIvk Constants.commitIvkR
    (leBits 255 (extractP a.w.ak).val ++ leBits 255 a.w.nk.val, a.w.rivk)
    (leBits 255 (extractP ak).val ++ leBits 255 nk.val, rivk)

/-- The spend is of a note received on the chain: the full viewing key is valid, the note was decrypted
with its incoming viewing key from an action among the first `n` bundles, and the path is that of the
action's leaf in the tree after these bundles. -/
def ReceivedOn {T A V : Type} (P : Prims) (bs : List (OpenedBundle T A V)) (n : ℕ) (s : SpendInfo) : Prop :=
  s.dummySk = none ∧ ValidFvk P s.fvk.ak.point s.fvk.nk s.fvk.rivk ∧
    (∃ k oa addr memo, s.fvk.toIvk P s.scope = .ret k ∧
      (actionsOf (bs.take n))[s.merklePath.position.toNat]? = some oa ∧
      tryNoteDecryption P k.ivk oa.action = .ret (some (s.note, addr, memo))) ∧
    ∀ l (h : l < 32), s.merklePath.authPath[l]'(by rw [s.merklePath.len]; exact h) =
      node P (leafAt (bs.take n)) l (sibling (s.merklePath.position.toNat / 2 ^ l))

/-- No action on the chain spends the note under the holder's key. -/
def UnspentOn {T A V : Type} (P : Prims) (bs : List (OpenedBundle T A V)) (s : SpendInfo) : Prop :=
  ∀ a ∈ actionsOf bs, ¬ (SpendsNote P a s.note ∧ UnderKey a s.fvk.ak.point)

/-- The action with index `i` of the bundle was not requested: it spends a dummy note. -/
def DummyAt (spends : List SpendInfo) (m : BundleMetadata) (i : ℕ) : Prop :=
  ∀ j < spends.length, m.spendActionIndex j ≠ some i

end Orchard.Spec
