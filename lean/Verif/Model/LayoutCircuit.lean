import Verif.Model.LayoutNoteCommit

/-!
# Table layout of `/repo/src/circuit.rs`

See `Verif/Model/Layout.lean`.
-/

namespace Orchard

namespace Layout

open Halo2

/-- `circuit.rs:82-98`, without the configurations of the dependency's chips. -/
structure Config where
  qOrchard : Selector
  advices : ℕ → Column
  addConfig : AddConfig
  commitIvkConfig : CommitIvkConfig
  oldNoteCommitConfig : NoteCommitConfig
  newNoteCommitConfig : NoteCommitConfig

/-- Ten calls of `meta.advice_column()` (`circuit.rs:199-210`). -/
def tenColumns : ConfigureM (ℕ → Column) := do
  let cs ← (List.range 10).mapM fun _ => adviceColumn
  pure fun i => cs.getD i 0

/-- `circuit.rs:197-382` `Circuit::configure` -/
def configure : ConfigureM Config := do
  let advices ← tenColumns
  let qOrchard ← newSelector
  createGate qOrchard fun query =>
    let vOld := query (advices 0) .cur
    let vNew := query (advices 1) .cur
    let magnitude := query (advices 2) .cur
    let sign := query (advices 3) .cur
    let root := query (advices 4) .cur
    let anchor := query (advices 5) .cur
    let enableSpends := query (advices 6) .cur
    let enableOutputs := query (advices 7) .cur
    [ vOld - vNew - magnitude * sign,
      vOld * (root - anchor),
      vOld * (1 - enableSpends),
      vNew * (1 - enableOutputs) ]
  let addConfig ← AddConfig.configure (advices 7) (advices 8) (advices 6)
  (List.range 10).forM fun i => enableEquality (advices i)
  let commitIvkConfig ← CommitIvkConfig.configure advices
  let oldNoteCommitConfig ← NoteCommitConfig.configure advices
  let newNoteCommitConfig ← NoteCommitConfig.configure advices
  pure { qOrchard := qOrchard, advices := advices, addConfig := addConfig,
         commitIvkConfig := commitIvkConfig, oldNoteCommitConfig := oldNoteCommitConfig,
         newNoteCommitConfig := newNoteCommitConfig }

/-- `circuit/gadget.rs:112-142` `value_commit_orchard` -/
noncomputable def valueCommitOrchard (magnitude sign : Assigned) (rcv : Fq) : LayoutM PointCells := do
  let commitment ← mulFixedShort Constants.valueCommitV magnitude sign
  let blind ← mulFixed Constants.valueCommitR rcv
  addPoints commitment blind

/-- `circuit/gadget.rs:148-200` `derive_nullifier` -/
noncomputable def deriveNullifier (P : Prims) (addConfig : AddConfig) (rho psi : Assigned)
    (cm : PointCells) (nk : Assigned) : LayoutM Assigned := do
  let hash ← poseidonHash P nk rho
  let scalar ← addConfig.add hash psi
  let product ← mulFixedBase Constants.nullifierK scalar
  let res ← addPoints cm product
  pure res.xCell

/-- The cells of the private inputs; of points, the cells of both coordinates.  The scalars `rcv`, `α`,
`rivk`, `rcm` are decomposed inside the gadgets.
The inputs are witnessed at `circuit.rs:396-447`, `605-609`, `645-683`. -/
structure WitnessCells where
  psiOld : Cell
  rhoOld : Cell
  cmOld : Cell × Cell
  gdOld : Cell × Cell
  ak : Cell × Cell
  nk : Cell
  vOld : Cell
  vNew : Cell
  sibling : ℕ → Cell
  bit : ℕ → Cell
  pkdOld : Cell × Cell
  gdNew : Cell × Cell
  pkdNew : Cell × Cell
  psiNew : Cell

/-- `circuit.rs:385-753` `Circuit::synthesize`.  The code returns nothing; the model returns the cells
of the private inputs, to be able to speak about them. -/
noncomputable def synthesize (P : Prims) (w : Circuit) (config : Config) : LayoutM WitnessCells := do
  -- private inputs (396-456)
  let psiOld ← assignFreeAdvice (config.advices 0) w.psiOld
  let rhoOld ← assignFreeAdvice (config.advices 0) w.rhoOld
  let cmOld ← witnessPoint w.cmOld
  let gdOld ← witnessNonIdentity w.gdOld
  let akP ← witnessNonIdentity w.ak.point
  let nk ← assignFreeAdvice (config.advices 0) w.nk
  let vOld ← assignFreeAdvice (config.advices 0) (ActionCircuit.valueCell w.vOld)
  let vNew ← assignFreeAdvice (config.advices 0) (ActionCircuit.valueCell w.vNew)
  -- Merkle path (458-471)
  let merkle ← merkleRoot P w.pos.toNat w.path cmOld.xCell
  let root := merkle.root
  -- value commitment (473-529)
  let ms := (ActionCircuit.magnitudeSignCells w.vOld w.vNew).getD (0, 0)
  let magnitude ← assignFreeAdvice (config.advices 9) ms.1
  let sign ← assignFreeAdvice (config.advices 9) ms.2
  let cvNet ← valueCommitOrchard magnitude sign w.rcv.inner
  constrainInstance cvNet.x PublicInput.CV_NET_X
  constrainInstance cvNet.y PublicInput.CV_NET_Y
  -- nullifier (531-548)
  let nfOld ← deriveNullifier P config.addConfig rhoOld psiOld cmOld nk
  constrainInstance nfOld.cell PublicInput.NF_OLD
  -- spend authority (550-568)
  let alphaCommitment ← mulFixed Constants.spendAuthG w.alpha
  let rk ← addPoints alphaCommitment akP
  constrainInstance rk.x PublicInput.RK_X
  constrainInstance rk.y PublicInput.RK_Y
  -- diversified address (570-614)
  let ivk ← commitIvk P config.commitIvkConfig akP.xCell nk w.rivk
  let derivedPkdOld ← mulVar gdOld ivk
  let pkdOld ← witnessNonIdentity w.pkdOld
  constrainEqualPoints derivedPkdOld pkdOld
  -- old note commitment (616-642)
  let derivedCmOld ← noteCommit P config.oldNoteCommitConfig gdOld pkdOld vOld rhoOld psiOld w.rcmOld
  constrainEqualPoints derivedCmOld cmOld
  -- new note commitment (644-702)
  let gdNew ← witnessNonIdentity w.gdNew
  let pkdNew ← witnessNonIdentity w.pkdNew
  let rhoNew := nfOld
  let psiNew ← assignFreeAdvice (config.advices 0) w.psiNew
  let cmNew ← noteCommit P config.newNoteCommitConfig gdNew pkdNew vNew rhoNew psiNew w.rcmNew
  let cmx := cmNew.xCell
  constrainInstance cmx.cell PublicInput.CMX
  -- remaining checks (704-750)
  assignRegion fun region => do
    let _ ← copyAdvice vOld region (config.advices 0) 0
    let _ ← copyAdvice vNew region (config.advices 1) 0
    let _ ← copyAdvice magnitude region (config.advices 2) 0
    let _ ← copyAdvice sign region (config.advices 3) 0
    let _ ← copyAdvice root region (config.advices 4) 0
    let _ ← assignAdviceFromInstance PublicInput.ANCHOR region (config.advices 5) 0
    let _ ← assignAdviceFromInstance PublicInput.ENABLE_SPEND region (config.advices 6) 0
    let _ ← assignAdviceFromInstance PublicInput.ENABLE_OUTPUT region (config.advices 7) 0
    enable config.qOrchard region 0
  pure { psiOld := psiOld.cell, rhoOld := rhoOld.cell, cmOld := (cmOld.x, cmOld.y),
         gdOld := (gdOld.x, gdOld.y), ak := (akP.x, akP.y), nk := nk.cell, vOld := vOld.cell,
         vNew := vNew.cell, sibling := merkle.sibling, bit := merkle.bit, pkdOld := (pkdOld.x, pkdOld.y),
         gdNew := (gdNew.x, gdNew.y), pkdNew := (pkdNew.x, pkdNew.y), psiNew := psiNew.cell }

/-- The constraint system and the configuration that `configure` leaves behind. (`circuit.rs:197-383`). -/
def configured : Config × ConstraintSystem := configure.run ⟨0, 0, [], []⟩

/-- All events of a synthesis. (`circuit.rs:385-754`). -/
noncomputable def events (P : Prims) (plan : Plan) (inst : ℕ → Fp) (w : Circuit) : List Event :=
  (synthesize P w configured.1 ⟨plan, inst⟩ ⟨0, 0⟩).2

/-- The cells of the private inputs. (`circuit.rs:385-754`). -/
noncomputable def witnessCells (P : Prims) (plan : Plan) (inst : ℕ → Fp) (w : Circuit) : WitnessCells :=
  (synthesize P w configured.1 ⟨plan, inst⟩ ⟨0, 0⟩).1.1

end Layout

end Orchard
