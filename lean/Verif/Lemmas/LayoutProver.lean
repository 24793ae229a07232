import Verif.Lemmas.LayoutChips

/-!
# Lemmas on the table the prover fills in: the Action circuit
-/

namespace Orchard

namespace Layout

open Halo2

variable {cs : ConstraintSystem} {T : Table} {inst : List Fp} {env : Env} {α β : Type} {s : Counters} {P : Prims}

/-- The columns the circuit copies into. -/
def Config.columns (cfg : Config) : List Column :=
  (List.range 10).map cfg.advices ++ (List.range 10).map cfg.commitIvkConfig.advices ++
    [cfg.addConfig.a, cfg.addConfig.b, cfg.addConfig.c] ++ cfg.oldNoteCommitConfig.columns ++
    cfg.newNoteCommitConfig.columns

theorem columns_configured : ∀ c ∈ configured.1.columns, c ∈ configured.2.equality := by
  rw [equality_configured]
  eval_configured
  decide

theorem mulFixedShort_if {B : Point} {m g : Fp} {out : Point} (h : MulFixedShort B m g out) :
    out = if g = 1 then (m.val : Fq) • B else -((m.val : Fq) • B) := by
  rcases h.2 with ⟨h1, h2⟩ | ⟨h1, h2⟩
  · rw [if_pos h1, h2]
  · have : g ≠ 1 := by
      rw [h1]
      intro h
      have h' := congrArg ZMod.val h
      have e : (-1 : Fp).val = p - 1 := by decide +kernel
      have e' : (1 : Fp).val = 1 := by decide +kernel
      rw [e, e'] at h'
      norm_num [p] at h'
    rw [if_neg this, h2]

section

variable {cfg : Config} (hg : CircuitGates cs cfg) (hc : ∀ c ∈ cfg.columns, c ∈ cs.equality)
  (hp : ∀ n i, (env.plan.gadget n i).1 ∈ cs.equality)
include hg hc hp

omit hg hp in
theorem advice_mem {i : ℕ} (hi : i < 10) : cfg.advices i ∈ cs.equality := by
  refine hc _ ?_
  simp only [Config.columns, List.mem_append, List.mem_map, List.mem_range]
  exact Or.inl (Or.inl (Or.inl (Or.inl ⟨i, hi, rfl⟩)))

omit hp in
theorem hon_add {a b : Assigned} (ha : Known cs T a) (hb : Known cs T b) :
    Honest P cs T inst env (cfg.addConfig.add a b)
      fun c => Known cs T c ∧ c.value = a.value + b.value := by
  have hm : cfg.addConfig.a ∈ cs.equality ∧ cfg.addConfig.b ∈ cs.equality ∧
      cfg.addConfig.c ∈ cs.equality :=
    ⟨hc _ (by simp [Config.columns]), hc _ (by simp [Config.columns]), hc _ (by simp [Config.columns])⟩
  refine hon_region fun r => ?_
  refine hon_enable_bind ?_
  refine hon_bind (hon_copyAdvice ha hm.1) fun _ h1 => ?_
  refine hon_bind (hon_copyAdvice hb hm.2.1) fun _ h2 => ?_
  refine hon_mono hon_assignAdvice fun x h3 => ?_
  simp only [Nat.add_zero] at *
  refine ⟨?_, by rw [h3.1]; exact ⟨h3.2, hm.2.2⟩, by rw [h3.1]⟩
  rw [hg.add, h1.2, h2.2, h3.2]
  simp [Gate, ActionCircuit.addGate]

omit hg hc in
theorem hon_valueCommitOrchard {m g : Assigned} {r : Fq} {commitment : Point} (hm : Known cs T m)
    (hs : Known cs T g) (h : MulFixedShort Constants.valueCommitV m.value g.value commitment)
    (ho : commitment = if g.value = 1 then (m.value.val : Fq) • Constants.valueCommitV
      else -((m.value.val : Fq) • Constants.valueCommitV)) :
    Honest P cs T inst env (valueCommitOrchard m g r) fun c => KnownPoint cs T c ∧
      c.value = commitment + r • Constants.valueCommitR := by
  refine hon_bind (hon_mulFixedShort hp rfl hm hs h ho) fun c hc => ?_
  refine hon_bind (hon_mulFixed hp .valueCommitR (B := Constants.valueCommitR) rfl) fun d hd => ?_
  refine hon_mono (hon_addPoints hp hc.1 hd.1) fun e he => ?_
  exact ⟨he.1, by rw [he.2, hc.2, hd.2]⟩

theorem hon_deriveNullifier {rho psi nk : Assigned} {cm : PointCells}
    (hrho : Known cs T rho) (hpsi : Known cs T psi) (hnk : Known cs T nk) (hcm : KnownPoint cs T cm) :
    Honest P cs T inst env (deriveNullifier P cfg.addConfig rho psi cm nk) fun nf => Known cs T nf ∧
      nf.value = extractP (cm.value +
        (((P.poseidon nk.value rho.value + psi.value).val : ℕ) : Fq) • Constants.nullifierK) := by
  refine hon_bind (hon_poseidonHash hp hnk hrho) fun hash h1 => ?_
  refine hon_bind (hon_add hg hc h1.1 hpsi) fun scalar h2 => ?_
  refine hon_bind (hon_mulFixedBase hp rfl h2.1) fun prod h3 => ?_
  refine hon_bind (hon_addPoints hp hcm h3.1) fun res h4 => ?_
  refine hon_pure ⟨h4.1.x, ?_⟩
  have : res.xCell.value = extractP res.value := rfl
  rw [this, h4.2, h3.2, h2.2, h1.2]

theorem hon_synthesize {w : Circuit} {k : ActionCircuit.Cells}
    (hi : ∀ row < 9, inst[row]? = some (env.inst row)) (hk : ActionCircuit.assign P w = some k)
    (h : ActionCircuit.Synthesize P true k inst) :
    Honest P cs T inst env (synthesize P w cfg) fun _ => True := by
  -- what was assigned
  simp only [ActionCircuit.assign, Option.bind_eq_bind, Option.bind_eq_some_iff, Option.pure_def,
    Option.some.injEq, Option.map_eq_some_iff] at hk
  obtain ⟨⟨merkle, root⟩, hmerkle, ⟨magnitude, sign⟩, hms, ivk, ⟨ivkPoint, hivkPoint, hivk⟩, cmNew, hcmNew,
    rfl⟩ := hk
  obtain ⟨hGd0, hAk0, hlen, hpos, hroot, ⟨commitment, blind, hshort, hblind, hadd⟩, hi1, hi2, -, hi3, -,
    hi4, hi5, hcivk, ⟨dpkd, hmv, hPkd0, e1⟩, ⟨dcm, hnc1, e2⟩, hGdNew0, hPkdNew0, hnc2, hi6, anchor, es, eo,
    i7, i8, i9, hgate⟩ := h
  dsimp only at *
  have hcv := advice_mem hc (i := 0) (by norm_num)
  have hcv9 := advice_mem hc (i := 9) (by norm_num)
  unfold synthesize
  rw [hms]
  refine hon_bind (hon_assignFreeAdvice hcv) fun psiOld k1 => ?_
  refine hon_bind (hon_assignFreeAdvice hcv) fun rhoOld k2 => ?_
  refine hon_bind (hon_witnessPoint hp) fun cmOld k3 => ?_
  refine hon_bind (hon_witnessNonIdentity hp hGd0) fun gdOld k4 => ?_
  refine hon_bind (hon_witnessNonIdentity hp hAk0) fun akP k5 => ?_
  refine hon_bind (hon_assignFreeAdvice hcv) fun nk k6 => ?_
  refine hon_bind (hon_assignFreeAdvice hcv) fun vOld k7 => ?_
  refine hon_bind (hon_assignFreeAdvice hcv) fun vNew k8 => ?_
  have x3 : cmOld.xCell.value = extractP w.cmOld := by rw [← k3.2]; rfl
  refine hon_bind (hon_merkleRoot hp k3.1.x (by rw [x3]; exact hmerkle) (by rw [x3]; exact hroot) hlen
    hpos) fun root' k9 => ?_
  refine hon_bind (hon_assignFreeAdvice hcv9) fun mag k10 => ?_
  refine hon_bind (hon_assignFreeAdvice hcv9) fun sgn k11 => ?_
  have hs := mulFixedShort_if hshort
  refine hon_bind (hon_valueCommitOrchard hp k10.1 k11.1 (by rw [k10.2, k11.2]; exact hshort)
    (by rw [k10.2, k11.2]; exact hs)) fun cvNet k12 => ?_
  rw [hs] at k12
  refine hon_bind (hon_constrainInstance (by rw [k12.1.1.1, k12.2]; exact hi1) k12.1.2.1) fun _ _ => ?_
  refine hon_bind (hon_constrainInstance (by rw [k12.1.1.2, k12.2]; exact hi2) k12.1.2.2) fun _ _ => ?_
  refine hon_bind (hon_deriveNullifier hg hc hp k2.1 k1.1 k6.1 k3.1) fun nfOld k13 => ?_
  rw [k1.2, k2.2, k3.2, k6.2] at k13
  refine hon_bind (hon_constrainInstance (by rw [k13.1.1, k13.2]; exact hi3) k13.1.2) fun _ _ => ?_
  refine hon_bind (hon_mulFixed hp .spendAuthG (B := Constants.spendAuthG) rfl) fun alphaC k14 => ?_
  refine hon_bind (hon_addPoints hp k14.1 k5.1) fun rk k15 => ?_
  rw [k14.2, k5.2] at k15
  refine hon_bind (hon_constrainInstance (by rw [k15.1.1.1, k15.2]; exact hi4) k15.1.2.1) fun _ _ => ?_
  refine hon_bind (hon_constrainInstance (by rw [k15.1.1.2, k15.2]; exact hi5) k15.1.2.2) fun _ _ => ?_
  have x5 : akP.xCell.value = extractP w.ak.point := by rw [← k5.2]; rfl
  refine hon_bind (hon_commitIvk hp hg.ivk ?_ k5.1.x k6.1 (by rw [x5, k6.2]; exact hcivk))
    fun ivk' k16 => ?_
  · intro i hi
    refine hc _ ?_
    simp only [Config.columns, List.mem_append, List.mem_map, List.mem_range]
    exact Or.inl (Or.inl (Or.inl (Or.inr ⟨i, hi, rfl⟩)))
  refine hon_bind (hon_mulVar hp k4.1 (by rw [k4.2]; exact hGd0) k16.1) fun dPkd k17 => ?_
  refine hon_bind (hon_witnessNonIdentity hp hPkd0) fun pkdOld k18 => ?_
  refine hon_bind (hon_constrainEqualPoints k17.1 k18.1 ?_) fun _ _ => ?_
  · rw [k17.2, k18.2, k16.2, k4.2, ← e1]; exact hmv.symm
  have hco : ∀ c ∈ cfg.oldNoteCommitConfig.columns, c ∈ cs.equality := fun c h =>
    hc c (List.mem_append_left _ (List.mem_append_right _ h))
  have hcn : ∀ c ∈ cfg.newNoteCommitConfig.columns, c ∈ cs.equality := fun c h =>
    hc c (List.mem_append_right _ h)
  refine hon_bind (hon_noteCommit hg.old hco hp (cm := w.cmOld) k4.1 k18.1 k7.1 k2.1 k1.1
    (by rw [k4.2, k18.2, k7.2, k2.2, k1.2]; rw [← e2]; exact hnc1)) fun dCm k19 => ?_
  refine hon_bind (hon_constrainEqualPoints k19.1 k3.1 (by rw [k19.2, k3.2])) fun _ _ => ?_
  refine hon_bind (hon_witnessNonIdentity hp hGdNew0) fun gdNew k20 => ?_
  refine hon_bind (hon_witnessNonIdentity hp hPkdNew0) fun pkdNew k21 => ?_
  refine hon_bind (hon_assignFreeAdvice hcv) fun psiNew k22 => ?_
  refine hon_bind (hon_noteCommit hg.new hcn hp (cm := cmNew) k20.1 k21.1 k8.1 k13.1 k22.1
    (by rw [k20.2, k21.2, k8.2, k13.2, k22.2]; exact hnc2)) fun cmNew' k23 => ?_
  refine hon_bind (hon_constrainInstance (c := cmNew'.xCell.cell) ?_ k23.1.2.1) fun _ _ => ?_
  · rw [k23.1.x.1, show cmNew'.xCell.value = extractP cmNew'.value from rfl, k23.2]; exact hi6
  refine hon_bind (Q := fun _ => True) (hon_region fun r => ?_) fun _ _ => hon_pure trivial
  have ha : ∀ i, i < 10 → cfg.advices i ∈ cs.equality := fun i hi => advice_mem hc hi
  refine hon_bind (hon_copyAdvice k7.1 (ha 0 (by norm_num))) fun _ h0 => ?_
  refine hon_bind (hon_copyAdvice k8.1 (ha 1 (by norm_num))) fun _ h1 => ?_
  refine hon_bind (hon_copyAdvice k10.1 (ha 2 (by norm_num))) fun _ h2 => ?_
  refine hon_bind (hon_copyAdvice k11.1 (ha 3 (by norm_num))) fun _ h3 => ?_
  refine hon_bind (hon_copyAdvice k9.1 (ha 4 (by norm_num))) fun _ h4 => ?_
  refine hon_bind (hon_assignAdviceFromInstance (hi _ (by decide)) (ha 5 (by norm_num))) fun _ h5 => ?_
  refine hon_bind (hon_assignAdviceFromInstance (hi _ (by decide)) (ha 6 (by norm_num))) fun _ h6 => ?_
  refine hon_bind (hon_assignAdviceFromInstance (hi _ (by decide)) (ha 7 (by norm_num))) fun _ h7 => ?_
  refine hon_enable ?_
  have j7 : env.inst PublicInput.ANCHOR = anchor :=
    Option.some.inj ((hi PublicInput.ANCHOR (by decide)).symm.trans i7)
  have j8 : env.inst PublicInput.ENABLE_SPEND = es :=
    Option.some.inj ((hi PublicInput.ENABLE_SPEND (by decide)).symm.trans i8)
  have j9 : env.inst PublicInput.ENABLE_OUTPUT = eo :=
    Option.some.inj ((hi PublicInput.ENABLE_OUTPUT (by decide)).symm.trans i9)
  simp only [Nat.add_zero] at h0 h1 h2 h3 h4 h5 h6 h7 ⊢
  rw [hg.orchard, h0.2, h1.2, h2.2, h3.2, h4.2, h5, h6, h7, k7.2, k8.2, k10.2, k11.2, k9.2, j7, j8, j9]
  exact hgate

end

end Layout

end Orchard
