import Verif.Model.CommitIvk
import Verif.Model.NoteCommit
import Verif.Model.Builder

/-!
# Model of the Action circuit (`/repo/src/circuit.rs:188-753`, `circuit/gadget.rs`)

`Synthesize` collects all constraints that `Circuit::synthesize` puts on the cells and the public
inputs; `assign` is the witness it generates.  Columns, rows, selectors and copies are modelled in
`Verif/Model/LayoutCircuit.lean`.
-/

namespace Orchard

open Halo2

/-! ### `circuit.rs:70-78`: offsets of the public inputs -/

namespace PublicInput

/-- `circuit.rs:70` -/
def ANCHOR : ℕ := 0
/-- `circuit.rs:71` -/
def CV_NET_X : ℕ := 1
/-- `circuit.rs:72` -/
def CV_NET_Y : ℕ := 2
/-- `circuit.rs:73` -/
def NF_OLD : ℕ := 3
/-- `circuit.rs:74` -/
def RK_X : ℕ := 4
/-- `circuit.rs:75` -/
def RK_Y : ℕ := 5
/-- `circuit.rs:76` -/
def CMX : ℕ := 6
/-- `circuit.rs:77` -/
def ENABLE_SPEND : ℕ := 7
/-- `circuit.rs:78` -/
def ENABLE_OUTPUT : ℕ := 8

end PublicInput

namespace ActionCircuit

/-- `circuit.rs:217-253`, gate "Orchard circuit checks". -/
def gate (vOld vNew magnitude sign root anchor enableSpends enableOutputs : Fp) : List Fp :=
  [ vOld - vNew - magnitude * sign,
    vOld * (root - anchor),
    vOld * (1 - enableSpends),
    vNew * (1 - enableOutputs) ]

/-- `circuit/gadget/add_chip.rs:44-51`, gate "Field element addition: c = a + b". -/
def addGate (a b c : Fp) : List Fp := [a + b - c]

/-- `circuit/gadget.rs:112-142` `value_commit_orchard`. -/
def valueCommit (magnitude sign : Fp) (rcv : Fq) (cv : Point) : Prop :=
  ∃ commitment blind, MulFixedShort Constants.valueCommitV magnitude sign commitment ∧
    MulFixed Constants.valueCommitR rcv blind ∧ Add commitment blind cv

/-- `circuit/gadget.rs:148-200` `derive_nullifier`. -/
def deriveNullifier (P : Prims) (rho psi : Fp) (cm : Point) (nk nf : Fp) : Prop :=
  ∃ hash scalar product sum, Poseidon P nk rho hash ∧ Gate (addGate hash psi scalar) ∧
    MulFixedBase Constants.nullifierK scalar product ∧ Add cm product sum ∧ nf = extractP sum

/-- The cells of the circuit that are inputs or outputs of the steps of `synthesize`
(`circuit.rs:385-753`). -/
structure Cells where
  psiOld : Fp
  rhoOld : Fp
  cmOld : Point
  gdOld : Point
  akP : Point
  nk : Fp
  vOld : Fp
  vNew : Fp
  /-- the 32 position bits, as a number -/
  pos : ℕ
  path : List Fp
  /-- the encodings hashed at each layer of the Merkle path -/
  merkle : List (ℕ × ℕ)
  root : Fp
  magnitude : Fp
  sign : Fp
  rcv : Fq
  cvNet : Point
  nfOld : Fp
  alpha : Fq
  rk : Point
  rivk : Fq
  ivk : Fp
  ivkCells : CommitIvk.Cells
  pkdOld : Point
  rcmOld : Fq
  oldCells : NoteCommit.Cells
  gdNew : Point
  pkdNew : Point
  psiNew : Fp
  rcmNew : Fq
  newCells : NoteCommit.Cells
  cmNew : Fp × Fp

/-- `layouter.constrain_instance(cell, primary, offset)`: the cell equals that public input.
Called for instance at `circuit.rs:524`. -/
def constrainInstance (inst : List Fp) (cell : Fp) (offset : ℕ) : Prop := inst[offset]? = some cell

/-- `circuit.rs:385-753` `Circuit::synthesize`: the constraints. -/
def Synthesize (P : Prims) (strict : Bool) (k : Cells) (inst : List Fp) : Prop :=
  -- private inputs (396-456)
  NonIdentity k.gdOld ∧ NonIdentity k.akP ∧
  -- Merkle path (458-471); the path is an array of 32 nodes, the position is 32 bits
  k.path.length = 32 ∧ k.pos < 2 ^ 32 ∧
  MerkleRoot P strict k.pos 0 k.path k.merkle (extractP k.cmOld) k.root ∧
  -- value commitment (473-529)
  valueCommit k.magnitude k.sign k.rcv k.cvNet ∧
  constrainInstance inst (extractP k.cvNet) PublicInput.CV_NET_X ∧
  constrainInstance inst (cellY k.cvNet) PublicInput.CV_NET_Y ∧
  -- nullifier (531-548)
  deriveNullifier P k.rhoOld k.psiOld k.cmOld k.nk k.nfOld ∧
  constrainInstance inst k.nfOld PublicInput.NF_OLD ∧
  -- spend authority (550-568)
  (∃ alphaCommitment, MulFixed Constants.spendAuthG k.alpha alphaCommitment ∧
    Add alphaCommitment k.akP k.rk) ∧
  constrainInstance inst (extractP k.rk) PublicInput.RK_X ∧
  constrainInstance inst (cellY k.rk) PublicInput.RK_Y ∧
  -- diversified address (570-614)
  CommitIvk.gadget P strict k.ivkCells (extractP k.akP) k.nk k.rivk k.ivk ∧
  (∃ derivedPkdOld, MulVar k.gdOld k.ivk derivedPkdOld ∧
    NonIdentity k.pkdOld ∧ derivedPkdOld = k.pkdOld) ∧
  -- old note commitment (616-642)
  (∃ derivedCmOld, NoteCommit.gadget P strict k.oldCells k.gdOld k.pkdOld k.vOld k.rhoOld k.psiOld
    k.rcmOld derivedCmOld ∧ derivedCmOld = cells k.cmOld) ∧
  -- new note commitment (644-702); `rho_new` is the cell of `nf_old`
  NonIdentity k.gdNew ∧ NonIdentity k.pkdNew ∧
  NoteCommit.gadget P strict k.newCells k.gdNew k.pkdNew k.vNew k.nfOld k.psiNew k.rcmNew k.cmNew ∧
  constrainInstance inst k.cmNew.1 PublicInput.CMX ∧
  -- remaining checks (704-750)
  ∃ anchor enableSpends enableOutputs,
    constrainInstance inst anchor PublicInput.ANCHOR ∧
    constrainInstance inst enableSpends PublicInput.ENABLE_SPEND ∧
    constrainInstance inst enableOutputs PublicInput.ENABLE_OUTPUT ∧
    Gate (gate k.vOld k.vNew k.magnitude k.sign k.root anchor enableSpends enableOutputs)

/-- A note value in a cell (`Assigned::from(&NoteValue)`, `value.rs:121-125`). -/
def valueCell (v : NoteValue) : Fp := (v.inner.toNat : Fp)

/-- The magnitude and sign cells (`circuit.rs:476-503`); `none` is a panic. -/
def magnitudeSignCells (vOld vNew : NoteValue) : Option (Fp × Fp) :=
  (NoteValue.sub vOld vNew).bind fun vNet => vNet.magnitudeSign.map fun ms =>
    ((ms.1.toNat : Fp), match ms.2 with
      | .positive => 1
      | .negative => -1)

/-- `circuit.rs:385-753` `Circuit::synthesize`: the values assigned to the cells.  `none` is a
synthesis error (an exceptional case in an incomplete addition) or a panic. -/
noncomputable def assign (P : Prims) (w : Circuit) : Option Cells := do
  let cmOld := w.cmOld
  let akP := w.ak.point
  let vOld := valueCell w.vOld
  let vNew := valueCell w.vNew
  let (merkle, root) ← merkleRootOf P w.pos.toNat 0 w.path (extractP cmOld)
  let (magnitude, sign) ← magnitudeSignCells w.vOld w.vNew
  let commitment := if sign = 1 then (magnitude.val : Fq) • Constants.valueCommitV
    else -((magnitude.val : Fq) • Constants.valueCommitV)
  let cvNet := commitment + w.rcv.inner • Constants.valueCommitR
  let scalar := P.poseidon w.nk w.rhoOld + w.psiOld
  let nfOld := extractP (cmOld + (scalar.val : Fq) • Constants.nullifierK)
  let rk := w.alpha • Constants.spendAuthG + akP
  let ivkCells := CommitIvk.assign (extractP akP) w.nk
  let ivk ← (sinsemillaCommitOf P Constants.qCommitIvk Constants.commitIvkR ivkCells.message
    w.rivk).map extractP
  let oldCells := NoteCommit.assign w.gdOld w.pkdOld vOld w.rhoOld w.psiOld
  let newCells := NoteCommit.assign w.gdNew w.pkdNew vNew nfOld w.psiNew
  let cmNew ← sinsemillaCommitOf P Constants.qNoteCommit Constants.noteCommitR newCells.message
    w.rcmNew
  pure
    { psiOld := w.psiOld, rhoOld := w.rhoOld, cmOld := cmOld, gdOld := w.gdOld, akP := akP,
      nk := w.nk, vOld := vOld, vNew := vNew, pos := w.pos.toNat, path := w.path,
      merkle := merkle, root := root,
      magnitude := magnitude, sign := sign, rcv := w.rcv.inner, cvNet := cvNet, nfOld := nfOld,
      alpha := w.alpha, rk := rk, rivk := w.rivk, ivk := ivk, ivkCells := ivkCells,
      pkdOld := w.pkdOld, rcmOld := w.rcmOld, oldCells := oldCells, gdNew := w.gdNew,
      pkdNew := w.pkdNew, psiNew := w.psiNew, rcmNew := w.rcmNew, newCells := newCells,
      cmNew := cells cmNew }

end ActionCircuit

end Orchard
