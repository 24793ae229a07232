import Verif.Spec.Circuit
import Verif.Spec.Bundle
import Verif.Lemmas.Sinsemilla
import Verif.Props.Value

/-!
# A chain of accepted bundles

What a node that follows the consensus rules knows about the Orchard bundles on its chain, together
with the secrets that the proofs and binding signatures are proofs of knowledge of.  The rules are
those of the protocol specification (§ 3.7, 3.8, 3.9, 4.14, 4.17, 7.1.2): the anchor is the root of an
earlier state of the note commitment tree, no nullifier repeats, the tree is not full, every action
satisfies the Action statement, the binding signature is made with the binding signing key.

The rules are enforced by the node software, not by the crate; the crate supplies the bundle, its
public inputs (`Bundle.toInstances`) and its binding validating key.
-/

namespace Orchard.Spec

/-- The values on a Merkle path as the circuit witnesses them: the running node, and the two
integers whose 255-bit encodings are hashed at each level (possibly not canonical encodings). -/
structure MerkleTrace where
  node : ℕ → Fp
  left : ℕ → ℕ
  right : ℕ → ℕ

/-- The message hashed at level `l`. -/
def merkleMessage (l x y : ℕ) : List Bool := leBits 10 l ++ leBits 255 x ++ leBits 255 y

/-- `MerklePathValid` with the values named. -/
def MerkleTrace.Valid (P : Prims) (t : MerkleTrace) (path : List Fp) (pos : ℕ) (leaf anchor : Fp) :
    Prop :=
  path.length = 32 ∧ pos < 2 ^ 32 ∧ t.node 0 = leaf ∧ t.node 32 = anchor ∧
    ∀ l < 32, t.left l < 2 ^ 255 ∧ t.right l < 2 ^ 255 ∧
      (if pos / 2 ^ l % 2 = 0 then (t.left l : Fp) = t.node l ∧ path[l]? = some (t.right l : Fp)
        else path[l]? = some (t.left l : Fp) ∧ (t.right l : Fp) = t.node l) ∧
      (sinsemillaHashToPoint P Constants.qMerkleCrh (merkleMessage l (t.left l) (t.right l)) = none ∨
        ∃ h, sinsemillaHashToPoint P Constants.qMerkleCrh
          (merkleMessage l (t.left l) (t.right l)) = some h ∧ t.node (l + 1) = extractP h)

/-- A bundle with the secrets behind its proof and its binding signature. -/
structure OpenedBundle (T A V : Type) where
  bundle : Bundle T A V
  secrets : List (ActionWitness × MerkleTrace)
  bsk : Fq

/-- An action with the secrets behind it. -/
structure OpenedAction (A : Type) where
  action : Action A
  w : ActionWitness
  trace : MerkleTrace

variable {T A V : Type}

/-- The actions of a bundle with their secrets. -/
def OpenedBundle.opened (b : OpenedBundle T A V) : List (OpenedAction A) :=
  (b.bundle.actions.zip b.secrets).map fun x => ⟨x.1, x.2.1, x.2.2⟩

/-- All actions of the chain, in order. -/
def actionsOf (bs : List (OpenedBundle T A V)) : List (OpenedAction A) := bs.flatMap (·.opened)

/-- All nullifiers on the chain. -/
def nullifiersOf (bs : List (OpenedBundle T A V)) : List Fp :=
  bs.flatMap fun b => b.bundle.actions.map (·.nf)

/-- All extracted note commitments on the chain, in order. -/
def cmxsOf (bs : List (OpenedBundle T A V)) : List Fp :=
  bs.flatMap fun b => b.bundle.actions.map (·.cmx)

/-- The leaves of the note commitment tree: the commitments in order, then `Uncommitted = 2`. -/
def leafAt (bs : List (OpenedBundle T A V)) (i : ℕ) : Fp := (cmxsOf bs).getD i 2

/-- The bundle may follow the chain `bs`. -/
structure Accepted (P : Prims) (into : V → I64) (bs : List (OpenedBundle T A V))
    (b : OpenedBundle T A V) : Prop where
  /-- every action satisfies the Action statement (what the proof proves) -/
  proof : List.Forall₂ (fun a s => ActionStatement P (a.toInstance b.bundle.flags b.bundle.anchor) s.1 ∧
    (s.1.vOld ≠ 0 → s.2.Valid P s.1.path s.1.pos (extractP s.1.cmOld) b.bundle.anchor))
    b.bundle.actions b.secrets
  /-- the binding signing key (what the binding signature proves) -/
  binding : bindingKey into b.bundle = b.bsk • Constants.valueCommitR
  /-- the anchor is the root of the tree after some earlier bundle -/
  anchor : ∃ k ≤ bs.length, b.bundle.anchor = node P (leafAt (bs.take k)) 32 0
  /-- no nullifier was revealed before, or twice in this bundle -/
  nullifiers : (nullifiersOf (bs ++ [b])).Nodup
  /-- the tree is not full -/
  capacity : (cmxsOf (bs ++ [b])).length ≤ 2 ^ 32

/-- A chain of accepted bundles. -/
inductive Chain (P : Prims) (into : V → I64) : List (OpenedBundle T A V) → Prop
  | empty : Chain P into []
  | accept {bs b} : Chain P into bs → Accepted P into bs b → Chain P into (bs ++ [b])

/-- The value in the pool: what has entered it minus what has left it.  The value balance of a bundle
is what leaves the pool. -/
def poolBalance (into : V → I64) (bs : List (OpenedBundle T A V)) : ℤ :=
  -(bs.map fun b => (into b.bundle.valueBalance).val).sum

/-- The note spent by `a` is the note created by `b`: same diversified base and transmission key, value,
`ρ` (the nullifier revealed by `b`), `ψ` and commitment trapdoor. -/
def SameNote (a b : OpenedAction A) : Prop :=
  a.w.gdOld = b.w.gdNew ∧ a.w.pkdOld = b.w.pkdNew ∧ a.w.vOld = b.w.vNew ∧ a.w.rhoOld = b.action.nf ∧
    a.w.psiOld = b.w.psiNew ∧ a.w.rcmOld = b.w.rcmNew

/-- The `i`-th action of the chain is `a`, and it spends a note of non-zero value. -/
def Spends (bs : List (OpenedBundle T A V)) (i : ℕ) (a : OpenedAction A) : Prop :=
  (actionsOf bs)[i]? = some a ∧ a.w.vOld ≠ 0

open Classical in
/-- Total value of the notes created on the chain that are not the origin of a spend. -/
noncomputable def unspentValue (bs : List (OpenedBundle T A V)) (origin : ℕ → ℕ) : ℕ :=
  ∑ j ∈ (Finset.range (actionsOf bs).length).filter fun j => ∀ i a, Spends bs i a → origin i ≠ j,
    (((actionsOf bs)[j]?.map fun a => a.w.vNew).getD 0)

/-! ### What is extracted from a chain that violates the conclusions -/

/-- The messages of the note commitments opened on the chain, with the trapdoors. -/
def noteMessages (bs : List (OpenedBundle T A V)) : List (List Bool × Fq) :=
  (actionsOf bs).flatMap fun a =>
    [(noteBits a.w.gdOld a.w.pkdOld a.w.vOld a.w.rhoOld a.w.psiOld, a.w.rcmOld),
      (noteBits a.w.gdNew a.w.pkdNew a.w.vNew a.action.nf a.w.psiNew, a.w.rcmNew)]

/-- The messages of the commitments to incoming viewing keys opened on the chain, with trapdoors. -/
def ivkMessages (bs : List (OpenedBundle T A V)) : List (List Bool × Fq) :=
  (actionsOf bs).map fun a =>
    (leBits 255 (extractP a.w.ak).val ++ leBits 255 a.w.nk.val, a.w.rivk)

/-- A message hashed on the Merkle path of an action of the chain, or in one of the states of the note
commitment tree. -/
def IsMerkleMessage (P : Prims) (bs : List (OpenedBundle T A V)) (m : List Bool) : Prop :=
  (∃ a ∈ actionsOf bs, ∃ l < 32, m = merkleMessage l (a.trace.left l) (a.trace.right l)) ∨
  ∃ k ≤ bs.length, ∃ l < 32, ∃ i < 2 ^ (31 - l),
    m = merkleMessage l (node P (leafAt (bs.take k)) l (2 * i)).val
      (node P (leafAt (bs.take k)) l (2 * i + 1)).val

/-- One of finitely many linear forms, computed from two messages, is a non-trivial
discrete-logarithm relation among the generators. -/
def SinsemillaRelation (P : Prims) (Q R : Point) (m m' : List Bool × Fq) : Prop :=
  ∃ L ∈ botCandidates (chunks m.1) ++ collisionCandidates (chunks m.1) (chunks m'.1) m.2 m'.2,
    L.IsRelation P Q R

/-- The chain exhibits a discrete-logarithm relation: among the two value commitment generators, or
among the generators of one of the three Sinsemilla hash functions, with coefficients computed from the
values on the chain.  For the Merkle hash, which is not blinded, the trapdoors are zero, so the
candidate forms have no component for `R`. -/
def ExhibitsRelation (P : Prims) (into : V → I64) (bs : List (OpenedBundle T A V)) : Prop :=
  (∃ b ∈ bs, DLogRelation
    (((b.secrets.map fun s => (s.1.vOld : ℤ) - (s.1.vNew : ℤ)).sum -
      (into b.bundle.valueBalance).val : ℤ) : Fq)
    ((b.secrets.map fun s => s.1.rcv).sum - b.bsk) Constants.valueCommitV Constants.valueCommitR) ∨
  (∃ m ∈ noteMessages bs, ∃ m' ∈ noteMessages bs,
    SinsemillaRelation P Constants.qNoteCommit Constants.noteCommitR m m') ∨
  (∃ m ∈ ivkMessages bs, ∃ m' ∈ ivkMessages bs,
    SinsemillaRelation P Constants.qCommitIvk Constants.commitIvkR m m') ∨
  ∃ m m', IsMerkleMessage P bs m ∧ IsMerkleMessage P bs m' ∧
    SinsemillaRelation P Constants.qMerkleCrh 0 (m, 0) (m', 0)

end Orchard.Spec
