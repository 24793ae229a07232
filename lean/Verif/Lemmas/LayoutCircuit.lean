import Verif.Lemmas.LayoutNoteCommit

/-!
# Lemmas on the table layout of the Action circuit
-/

namespace Orchard

namespace Layout

open Halo2

variable {cs : ConstraintSystem} {T : Table} {inst : List Fp} {env : Env} {α β : Type} {s : Counters}

/-- The gates of the selectors of the circuit, on a row of the table. -/
structure CircuitGates (cs : ConstraintSystem) (cfg : Config) : Prop where
  orchard : ∀ (T : Table) (inst : List Fp) (row : ℕ), (Event.enable cfg.qOrchard row).Holds cs T inst ↔
    Gate (ActionCircuit.gate (T (cfg.advices 0, row)) (T (cfg.advices 1, row))
      (T (cfg.advices 2, row)) (T (cfg.advices 3, row)) (T (cfg.advices 4, row))
      (T (cfg.advices 5, row)) (T (cfg.advices 6, row)) (T (cfg.advices 7, row)))
  add : ∀ (T : Table) (inst : List Fp) (row : ℕ),
    (Event.enable cfg.addConfig.qAdd row).Holds cs T inst ↔
    Gate (ActionCircuit.addGate (T (cfg.addConfig.a, row)) (T (cfg.addConfig.b, row))
      (T (cfg.addConfig.c, row)))
  ivk : IvkGate cs cfg.commitIvkConfig
  old : NoteGates cs cfg.oldNoteCommitConfig
  new : NoteGates cs cfg.newNoteCommitConfig

/-! ### The configured gates -/

theorem conf_bind (m : ConfigureM α) (f : α → ConfigureM β) (cs : ConstraintSystem) :
    (m >>= f) cs = f (m cs).1 (m cs).2 := rfl

theorem conf_pure (x : α) (cs : ConstraintSystem) : (pure x : ConfigureM α) cs = (x, cs) := rfl

theorem conf_newSelector (cs : ConstraintSystem) : newSelector cs =
    (cs.selectors, ⟨cs.selectors + 1, cs.advices, cs.gates, cs.equality⟩) := rfl

theorem conf_createGate (s : Selector) (p : Query → List Fp) (cs : ConstraintSystem) :
    createGate s p cs = ((), ⟨cs.selectors, cs.advices, cs.gates ++ [(s, p)], cs.equality⟩) := rfl

theorem conf_tenColumns : tenColumns ⟨0, 0, [], []⟩ =
    (fun i => (List.range 10).getD i 0, ⟨0, 10, [], []⟩) := rfl

theorem conf_equality (a b : ℕ) (c : List (Selector × (Query → List Fp))) (d : List Column)
    (e : ℕ → Column) : (List.range 10).forM (fun i => enableEquality (e i)) ⟨a, b, c, d⟩ =
      ((), ⟨a, b, c, d ++ (List.range 10).map e⟩) := by
  have : List.range 10 = [0, 1, 2, 3, 4, 5, 6, 7, 8, 9] := rfl
  rw [this]
  simp only [List.forM, conf_bind, conf_pure, enableEquality, List.append_assoc]
  rfl

/-- Evaluate `configured`. -/
macro "eval_configured" : tactic => `(tactic| (
  unfold configured configure
  simp only [StateT.run, conf_bind, conf_pure, conf_newSelector, conf_createGate, conf_tenColumns,
      conf_equality, AddConfig.configure, CommitIvkConfig.configure, NoteCommitConfig.configure,
      DecomposeB.configure, DecomposeD.configure, DecomposeE.configure, DecomposeG.configure,
      DecomposeH.configure, GdCanonicity.configure, PkdCanonicity.configure,
      ValueCanonicity.configure, RhoCanonicity.configure, PsiCanonicity.configure,
      YCanonicity.configure, List.nil_append, List.cons_append, List.append_assoc, Nat.reduceAdd]))

/-- Evaluate an enabled selector. -/
macro "eval_gate" : tactic => `(tactic| (
  intro T inst row
  simp only [Event.Holds, ConstraintSystem.gatesOf, List.filter_cons, List.filter_nil, Nat.reduceBEq,
    Bool.false_eq_true, if_false, BEq.rfl, if_true, List.map_cons, List.map_nil, List.mem_singleton,
    forall_eq, Nat.one_shiftLeft, Nat.cast_pow, Nat.cast_ofNat, ← pow_mul, ← pow_add, Nat.reduceMul,
    Nat.reduceAdd, Rotation.rows, Nat.add_zero, ← pow_succ]
  exact Iff.rfl))

theorem equality_configured : configured.2.equality = List.range 10 := by
  eval_configured
  rfl

theorem circuitGates_configured : CircuitGates configured.2 configured.1 := by
  eval_configured
  refine ⟨?_, ?_, ?_, ⟨?_, ?_, ?_, ?_, ?_, ?_, ?_, ?_, ?_, ?_, ?_⟩,
    ⟨?_, ?_, ?_, ?_, ?_, ?_, ?_, ?_, ?_, ?_, ?_⟩⟩ <;> eval_gate

/-! ### Satisfied tables -/

section

variable {P : Prims}

theorem ens_witnessPoint {A : Point} :
    Ensures cs T inst (witnessPoint A) fun c => ∃ A, IsPoint T c A := ens_pointGadget

theorem ens_witnessNonIdentity {A : Point} :
    Ensures cs T inst (witnessNonIdentity A) fun c => ∃ A, IsPoint T c A ∧ NonIdentity A :=
  ens_pointGadget

theorem ens_addPoints {a b : PointCells} {A B : Point} (hA : IsPoint T a A) (hB : IsPoint T b B) :
    Ensures cs T inst (addPoints a b) fun c => ∃ out, IsPoint T c out ∧ Add A B out := by
  refine ens_mono ens_pointGadget ?_
  exact fun c h => h A B hA hB

theorem ens_mulFixed {B : Point} {r : Fq} : Ensures cs T inst (mulFixed B r) fun c => ∃ r out,
    IsPoint T c out ∧ MulFixed B r out := ens_pointGadget

theorem ens_mulFixedShort {B : Point} {m g : Assigned} : Ensures cs T inst (mulFixedShort B m g)
    fun c => ∃ out, IsPoint T c out ∧ MulFixedShort B (T m.cell) (T g.cell) out := ens_pointGadget

theorem ens_mulFixedBase {B : Point} {x : Assigned} : Ensures cs T inst (mulFixedBase B x)
    fun c => ∃ out, IsPoint T c out ∧ MulFixedBase B (T x.cell) out := ens_pointGadget

theorem ens_mulVar {b : PointCells} {x : Assigned} {B : Point} (hB : IsPoint T b B) (h0 : NonIdentity B) :
    Ensures cs T inst (mulVar b x) fun c => ∃ out, IsPoint T c out ∧ MulVar B (T x.cell) out := by
  refine ens_mono ens_pointGadget ?_
  exact fun c h => h B hB h0

theorem ens_add {cfg : Config} (hg : CircuitGates cs cfg) {a b : Assigned} :
    Ensures cs T inst (cfg.addConfig.add a b) fun c =>
      Gate (ActionCircuit.addGate (T a.cell) (T b.cell) (T c.cell)) := by
  refine ens_region fun r => ?_
  refine ens_bind ens_enable fun _ hE => ?_
  refine ens_bind ens_copyAdvice fun _ h1 => ?_
  refine ens_bind ens_copyAdvice fun _ h2 => ?_
  refine ens_mono ens_assignAdvice fun x hx => ?_
  rw [hg.add] at hE
  simp only [Nat.add_zero] at *
  rw [h1.2, h2.2] at hE
  rw [hx]
  exact hE

theorem ens_valueCommitOrchard {m g : Assigned} {r : Fq} :
    Ensures cs T inst (valueCommitOrchard m g r) fun c => ∃ r out, IsPoint T c out ∧
      ActionCircuit.valueCommit (T m.cell) (T g.cell) r out := by
  refine ens_bind ens_mulFixedShort ?_
  rintro c ⟨A, hA, hm⟩
  refine ens_bind ens_mulFixed ?_
  rintro d ⟨r, B, hB, hr⟩
  refine ens_mono (ens_addPoints hA hB) ?_
  rintro e ⟨out, ho, hadd⟩
  exact ⟨r, out, ho, A, B, hm, hr, hadd⟩

theorem ens_deriveNullifier {cfg : Config} (hg : CircuitGates cs cfg) {rho psi nk : Assigned}
    {cm : PointCells} {A : Point} (hA : IsPoint T cm A) :
    Ensures cs T inst (deriveNullifier P cfg.addConfig rho psi cm nk) fun nf =>
      ActionCircuit.deriveNullifier P (T rho.cell) (T psi.cell) A (T nk.cell) (T nf.cell) := by
  refine ens_bind ens_poseidonHash fun hash hh => ?_
  refine ens_bind (ens_add hg) fun scalar hs => ?_
  refine ens_bind ens_mulFixedBase ?_
  rintro prod ⟨B, hB, hm⟩
  refine ens_bind (ens_addPoints hA hB) ?_
  rintro res ⟨out, ho, hadd⟩
  exact ens_pure ⟨_, _, B, out, hh, hs, hm, hadd, ho.1⟩

/-- What the cells of the private inputs contain. -/
structure WitnessCells.Hold (c : WitnessCells) (T : Table) (k : ActionCircuit.Cells) : Prop where
  psiOld : T c.psiOld = k.psiOld
  rhoOld : T c.rhoOld = k.rhoOld
  cmOld : T c.cmOld.1 = extractP k.cmOld ∧ T c.cmOld.2 = cellY k.cmOld
  gdOld : T c.gdOld.1 = extractP k.gdOld ∧ T c.gdOld.2 = cellY k.gdOld
  ak : T c.ak.1 = extractP k.akP ∧ T c.ak.2 = cellY k.akP
  nk : T c.nk = k.nk
  vOld : T c.vOld = k.vOld
  vNew : T c.vNew = k.vNew
  path : k.path = (List.range 32).map fun l => T (c.sibling l)
  bit : ∀ l < 32, T (c.bit l) = if k.pos.testBit l then 1 else 0
  pkdOld : T c.pkdOld.1 = extractP k.pkdOld ∧ T c.pkdOld.2 = cellY k.pkdOld
  gdNew : T c.gdNew.1 = extractP k.gdNew ∧ T c.gdNew.2 = cellY k.gdNew
  pkdNew : T c.pkdNew.1 = extractP k.pkdNew ∧ T c.pkdNew.2 = cellY k.pkdNew
  psiNew : T c.psiNew = k.psiNew

theorem ens_synthesize {cfg : Config} (hg : CircuitGates cs cfg) {w : Circuit} :
    Ensures cs T inst (synthesize P w cfg) fun c => ∃ k,
      ActionCircuit.Synthesize P false k inst ∧ c.Hold T k := by
  refine ens_bind ens_assignFreeAdvice fun psiOld _ => ?_
  refine ens_bind ens_assignFreeAdvice fun rhoOld _ => ?_
  refine ens_bind ens_witnessPoint ?_
  rintro cmOld ⟨CmOld, hCmOld⟩
  refine ens_bind ens_witnessNonIdentity ?_
  rintro gdOld ⟨GdOld, hGdOld, hGd0⟩
  refine ens_bind ens_witnessNonIdentity ?_
  rintro akP ⟨AkP, hAkP, hAk0⟩
  refine ens_bind ens_assignFreeAdvice fun nk _ => ?_
  refine ens_bind ens_assignFreeAdvice fun vOld _ => ?_
  refine ens_bind ens_assignFreeAdvice fun vNew _ => ?_
  refine ens_bind ens_merkleRoot ?_
  rintro merkle ⟨pos, encs, hpos, hbit, hroot⟩
  refine ens_bind ens_assignFreeAdvice fun magnitude _ => ?_
  refine ens_bind ens_assignFreeAdvice fun sign _ => ?_
  refine ens_bind ens_valueCommitOrchard ?_
  rintro cvNet ⟨rcv, CvNet, hCvNet, hvc⟩
  refine ens_bind ens_constrainInstance fun _ hi1 => ?_
  refine ens_bind ens_constrainInstance fun _ hi2 => ?_
  refine ens_bind (ens_deriveNullifier hg hCmOld) fun nfOld hnf => ?_
  refine ens_bind ens_constrainInstance fun _ hi3 => ?_
  refine ens_bind ens_mulFixed ?_
  rintro alphaC ⟨alpha, AlphaC, hAlphaC, halpha⟩
  refine ens_bind (ens_addPoints hAlphaC hAkP) ?_
  rintro rk ⟨Rk, hRk, hrk⟩
  refine ens_bind ens_constrainInstance fun _ hi4 => ?_
  refine ens_bind ens_constrainInstance fun _ hi5 => ?_
  refine ens_bind (ens_commitIvk hg.ivk) ?_
  rintro ivk ⟨ivkCells, rivk, hivk⟩
  refine ens_bind (ens_mulVar hGdOld hGd0) ?_
  rintro dPkd ⟨DPkd, hDPkd, hmv⟩
  refine ens_bind ens_witnessNonIdentity ?_
  rintro pkdOld ⟨PkdOld, hPkdOld, hPkd0⟩
  refine ens_bind ens_constrainEqualPoints fun _ heq1 => ?_
  refine ens_bind (ens_noteCommit hg.old hGdOld hPkdOld) ?_
  rintro dCm ⟨oldCells, rcmOld, hnc1⟩
  refine ens_bind ens_constrainEqualPoints fun _ heq2 => ?_
  refine ens_bind ens_witnessNonIdentity ?_
  rintro gdNew ⟨GdNew, hGdNew, hGdNew0⟩
  refine ens_bind ens_witnessNonIdentity ?_
  rintro pkdNew ⟨PkdNew, hPkdNew, hPkdNew0⟩
  refine ens_bind ens_assignFreeAdvice fun psiNew _ => ?_
  refine ens_bind (ens_noteCommit hg.new hGdNew hPkdNew) ?_
  rintro cmNew ⟨newCells, rcmNew, hnc2⟩
  refine ens_bind ens_constrainInstance fun _ hi6 => ?_
  refine ens_bind (Q := fun _ => ∃ anchor es eo, inst[PublicInput.ANCHOR]? = some anchor ∧
      inst[PublicInput.ENABLE_SPEND]? = some es ∧ inst[PublicInput.ENABLE_OUTPUT]? = some eo ∧
      Gate (ActionCircuit.gate (T vOld.cell) (T vNew.cell) (T magnitude.cell) (T sign.cell)
        (T merkle.root.cell) anchor es eo)) (ens_region fun r => ?_) ?_
  · refine ens_bind ens_copyAdvice fun _ h1 => ?_
    refine ens_bind ens_copyAdvice fun _ h2 => ?_
    refine ens_bind ens_copyAdvice fun _ h3 => ?_
    refine ens_bind ens_copyAdvice fun _ h4 => ?_
    refine ens_bind ens_copyAdvice fun _ h5 => ?_
    refine ens_bind ens_assignAdviceFromInstance fun _ h6 => ?_
    refine ens_bind ens_assignAdviceFromInstance fun _ h7 => ?_
    refine ens_bind ens_assignAdviceFromInstance fun _ h8 => ?_
    refine ens_mono ens_enable fun _ hE => ?_
    rw [hg.orchard] at hE
    simp only [Nat.add_zero] at *
    rw [h1.2, h2.2, h3.2, h4.2, h5.2] at hE
    exact ⟨_, _, _, h6.2, h7.2, h8.2, hE⟩
  rintro - ⟨anchor, es, eo, ia, ies, ieo, hE⟩
  have e1 : DPkd = PkdOld := isPoint_unique hDPkd ⟨heq1.1.trans hPkdOld.1, heq1.2.trans hPkdOld.2⟩
  have e2 : (T dCm.x, T dCm.y) = cells CmOld :=
    Prod.ext (heq2.1.trans hCmOld.1) (heq2.2.trans hCmOld.2)
  have x1 : T akP.xCell.cell = extractP AkP := hAkP.1
  have x2 : T cmOld.xCell.cell = extractP CmOld := hCmOld.1
  rw [x1] at hivk
  rw [x2] at hroot
  rw [hCvNet.1] at hi1
  rw [hCvNet.2] at hi2
  rw [hRk.1] at hi4
  rw [hRk.2] at hi5
  refine ens_pure ?_
  exact ⟨{ psiOld := T psiOld.cell, rhoOld := T rhoOld.cell, cmOld := CmOld, gdOld := GdOld, akP := AkP,
           nk := T nk.cell, vOld := T vOld.cell, vNew := T vNew.cell, pos := pos, path := (List.range 32).map fun l => T (merkle.sibling l),
           merkle := encs, root := T merkle.root.cell, magnitude := T magnitude.cell, sign := T sign.cell,
           rcv := rcv, cvNet := CvNet, nfOld := T nfOld.cell, alpha := alpha, rk := Rk, rivk := rivk,
           ivk := T ivk.cell, ivkCells := ivkCells, pkdOld := PkdOld, rcmOld := rcmOld,
           oldCells := oldCells, gdNew := GdNew, pkdNew := PkdNew, psiNew := T psiNew.cell,
           rcmNew := rcmNew, newCells := newCells, cmNew := (T cmNew.x, T cmNew.y) },
    ⟨hGd0, hAk0, by simp, hpos, hroot, hvc, hi1, hi2, hnf, hi3, ⟨AlphaC, halpha, hrk⟩, hi4, hi5, hivk,
    ⟨DPkd, hmv, hPkd0, e1⟩, ⟨_, hnc1, e2⟩, hGdNew0, hPkdNew0, hnc2, hi6, anchor, es, eo, ia,
    ies, ieo, hE⟩, ⟨rfl, rfl, hCmOld, hGdOld, hAkP, rfl, rfl, rfl, rfl, hbit, hPkdOld, hGdNew, hPkdNew, rfl⟩⟩

end

end Layout

end Orchard
