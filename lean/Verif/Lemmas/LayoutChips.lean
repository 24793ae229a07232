import Verif.Lemmas.LayoutHonest

/-!
# Lemmas on the table the prover fills in: `commit_ivk` and `note_commit`
-/

namespace Orchard

namespace Layout

open Halo2

variable {cs : ConstraintSystem} {T : Table} {inst : List Fp} {env : Env} {α β : Type} {s : Counters} {P : Prims}

/-- A pair of cells that hold the first and the last value of a running sum. -/
def KnownCheck (cs : ConstraintSystem) (T : Table) (n : ℕ) (v : Fp) (x : Assigned × Assigned) : Prop :=
  Known cs T x.1 ∧ Known cs T x.2 ∧ x.1.value = runningSumOf v 0 ∧ x.2.value = runningSumOf v n

theorem hon_check (hp : ∀ n i, (env.plan.gadget n i).1 ∈ cs.equality) {v : Fp} {n : ℕ} :
    Honest P cs T inst env (do let zs ← witnessCheck v n false; pure (zs 0, zs n))
      (KnownCheck cs T n v) := by
  refine hon_bind (hon_witnessCheck hp (rangeCheck_runningSumOf n v)) fun zs h => hon_pure ?_
  exact ⟨(h 0 (by omega)).1, (h n le_rfl).1, (h 0 (by omega)).2, (h n le_rfl).2⟩

/-! ### `commit_ivk` -/

theorem hon_assignGate {cfg : CommitIvkConfig} {k : GateCells} (hg : IvkGate cs cfg)
    (hc : ∀ i < 10, cfg.advices i ∈ cs.equality)
    (k_ak : Known cs T k.ak)
    (k_a : Known cs T k.a)
    (k_b : Known cs T k.b)
    (k_b0 : Known cs T k.b0)
    (k_b2 : Known cs T k.b2)
    (k_z13a : Known cs T k.z13a)
    (k_aPrime : Known cs T k.aPrime)
    (k_z13aPrime : Known cs T k.z13aPrime)
    (k_nk : Known cs T k.nk)
    (k_c : Known cs T k.c)
    (k_d : Known cs T k.d)
    (k_d0 : Known cs T k.d0)
    (k_z13c : Known cs T k.z13c)
    (k_b2cPrime : Known cs T k.b2cPrime)
    (k_z14b2cPrime : Known cs T k.z14b2cPrime)
    (h : Gate (CommitIvk.gate k.ak.value k.a.value k.b.value k.b0.value k.b1 k.b2.value k.z13a.value k.aPrime.value k.z13aPrime.value k.nk.value k.c.value k.d.value k.d0.value k.d1 k.z13c.value k.b2cPrime.value k.z14b2cPrime.value)) :
    Honest P cs T inst env (cfg.assignGate k) fun _ => True := by
  refine hon_region fun r => ?_
  refine hon_enable_bind ?_
  refine hon_bind (hon_copyAdvice k_ak (hc _ (by norm_num))) fun _ h0 => ?_
  refine hon_bind (hon_copyAdvice k_a (hc _ (by norm_num))) fun _ h1 => ?_
  refine hon_bind (hon_copyAdvice k_b (hc _ (by norm_num))) fun _ h2 => ?_
  refine hon_bind (hon_copyAdvice k_b0 (hc _ (by norm_num))) fun _ h3 => ?_
  refine hon_bind hon_assignAdvice fun _ h4 => ?_
  refine hon_bind (hon_copyAdvice k_b2 (hc _ (by norm_num))) fun _ h5 => ?_
  refine hon_bind (hon_copyAdvice k_z13a (hc _ (by norm_num))) fun _ h6 => ?_
  refine hon_bind (hon_copyAdvice k_aPrime (hc _ (by norm_num))) fun _ h7 => ?_
  refine hon_bind (hon_copyAdvice k_z13aPrime (hc _ (by norm_num))) fun _ h8 => ?_
  refine hon_bind (hon_copyAdvice k_nk (hc _ (by norm_num))) fun _ h9 => ?_
  refine hon_bind (hon_copyAdvice k_c (hc _ (by norm_num))) fun _ h10 => ?_
  refine hon_bind (hon_copyAdvice k_d (hc _ (by norm_num))) fun _ h11 => ?_
  refine hon_bind (hon_copyAdvice k_d0 (hc _ (by norm_num))) fun _ h12 => ?_
  refine hon_bind hon_assignAdvice fun _ h13 => ?_
  refine hon_bind (hon_copyAdvice k_z13c (hc _ (by norm_num))) fun _ h14 => ?_
  refine hon_bind (hon_copyAdvice k_b2cPrime (hc _ (by norm_num))) fun _ h15 => ?_
  refine hon_bind (hon_copyAdvice k_z14b2cPrime (hc _ (by norm_num))) fun _ h16 => ?_
  refine hon_pure ⟨?_, trivial⟩
  rw [hg]
  simp only [Nat.add_zero] at *
  rw [h0.2, h1.2, h2.2, h3.2, h4.2, h5.2, h6.2, h7.2, h8.2, h9.2, h10.2, h11.2, h12.2, h13.2, h14.2, h15.2, h16.2]
  exact h

theorem hon_commitIvk {cfg : CommitIvkConfig} {ak nk : Assigned} {rivk : Fq} {ivk : Fp}
    (hp : ∀ n i, (env.plan.gadget n i).1 ∈ cs.equality) (hg : IvkGate cs cfg)
    (hc : ∀ i < 10, cfg.advices i ∈ cs.equality) (hak : Known cs T ak) (hnk : Known cs T nk)
    (h : CommitIvk.gadget P true (CommitIvk.assign ak.value nk.value) ak.value nk.value rivk ivk) :
    Honest P cs T inst env (commitIvk P cfg ak nk rivk) fun x => Known cs T x ∧ x.value = ivk := by
  obtain ⟨hb0, hb2, hd0, ⟨out, hcom, hivk⟩, -, -, hgate⟩ := h
  obtain ⟨out, -, rfl⟩ := returns_true hcom.2
  refine hon_bind (hon_messagePiece hp 25 (by simp)) fun a ha => ?_
  refine hon_bind (hon_witnessShort hp hb0) fun b0 kb0 => ?_
  refine hon_bind (hon_witnessShort hp hb2) fun b2 kb2 => ?_
  refine hon_bind (hon_messagePiece hp 1 (by simp)) fun b hb => ?_
  refine hon_bind (hon_messagePiece hp 24 (by simp)) fun c hc' => ?_
  refine hon_bind (hon_witnessShort hp hd0) fun d0 kd0 => ?_
  refine hon_bind (hon_messagePiece hp 1 (by simp)) fun d hd => ?_
  rw [kb0.2, kb2.2] at hb
  rw [kd0.2] at hd
  refine hon_bind (hon_sinsemillaCommit hp .commitIvkR rfl (out := out) ?_ ?_) ?_
  · simp only [List.mem_cons, List.not_mem_nil, or_false, forall_eq_or_imp, forall_eq]
    exact ⟨ha.2.1, hb.2.1, hc'.2.1, hd.2.1⟩
  · simp only [List.map_cons, List.map_nil, ha.1, ha.2.2, hb.1, hb.2.2, hc'.1, hc'.2.2, hd.1, hd.2.2]
    exact hcom
  rintro ⟨ivk', zs⟩ ⟨ho, hov, hz⟩
  refine hon_bind (hon_check hp) ?_
  rintro ⟨aPrime, z13aPrime⟩ ⟨ka, ka13, va, va13⟩
  refine hon_bind (hon_check hp) ?_
  rintro ⟨bPrime, z14bPrime⟩ ⟨kb, kb14, vb, vb14⟩
  have z0 := hz 0 a rfl 13 (by rw [ha.1]; norm_num)
  have z2 := hz 2 c rfl 13 (by rw [hc'.1]; norm_num)
  dsimp only at *
  refine hon_bind (hon_assignGate hg hc hak ha.2.1 hb.2.1 kb0.1 kb2.1 z0.1 ka ka13 hnk hc'.2.1 hd.2.1
    kd0.1 z2.1 kb kb14 ?_) fun _ _ => hon_pure ⟨ho.x, ?_⟩
  · dsimp only
    rw [ha.2.2, hb.2.2, hc'.2.2, hd.2.2, kb0.2, kb2.2, kd0.2, z0.2, z2.2, va, va13, vb, vb14, ha.2.2,
      hc'.2.2, kb2.2]
    simp only [Nat.one_shiftLeft, Nat.cast_pow, Nat.cast_ofNat, ← pow_mul, Nat.reduceMul]
    simp only [CommitIvk.assign, runningSumOf_zero] at hgate ⊢
    exact hgate
  · rw [hivk, ← hov]; rfl

/-! ### `note_commit` -/

/-- The columns the chip copies into. -/
def NoteCommitConfig.columns (cfg : NoteCommitConfig) : List Column :=
  [cfg.b.colL, cfg.b.colM, cfg.b.colR, cfg.d.colL, cfg.d.colM, cfg.d.colR, cfg.e.colL, cfg.e.colM,
    cfg.e.colR, cfg.g.colL, cfg.g.colM, cfg.h.colL, cfg.h.colM, cfg.h.colR, cfg.gd.colL, cfg.gd.colM,
    cfg.gd.colR, cfg.gd.colZ, cfg.pkd.colL, cfg.pkd.colM, cfg.pkd.colR, cfg.pkd.colZ, cfg.value.colL,
    cfg.value.colM, cfg.value.colR, cfg.value.colZ, cfg.rho.colL, cfg.rho.colM, cfg.rho.colR,
    cfg.rho.colZ, cfg.psi.colL, cfg.psi.colM, cfg.psi.colR, cfg.psi.colZ, cfg.yCanon.advices 5,
    cfg.yCanon.advices 6, cfg.yCanon.advices 7, cfg.yCanon.advices 8, cfg.yCanon.advices 9]

section noteCommit

variable {cfg : NoteCommitConfig} (hg : NoteGates cs cfg) (hc : ∀ c ∈ cfg.columns, c ∈ cs.equality)
include hg hc

theorem hon_assign_b {b : MessagePiece} {b0 b2 b3 : Assigned} {b1 : Fp}
    (k_b : Known cs T b.cell)
    (k_b0 : Known cs T b0)
    (k_b2 : Known cs T b2)
    (k_b3 : Known cs T b3)
    (h : Gate (NoteCommit.gateB b.cell.value b0.value b1 b2.value b3.value)) :
    Honest P cs T inst env (cfg.b.assign b b0 b1 b2 b3) fun x => Known cs T x ∧ x.value = b1 := by
  refine hon_region fun r => ?_
  refine hon_enable_bind ?_
  refine hon_bind (hon_copyAdvice k_b (hc _ (by simp [NoteCommitConfig.columns]))) fun _ h0 => ?_
  refine hon_bind (hon_copyAdvice k_b0 (hc _ (by simp [NoteCommitConfig.columns]))) fun _ h1 => ?_
  refine hon_bind hon_assignAdvice fun x_b1 h2 => ?_
  refine hon_bind (hon_copyAdvice k_b2 (hc _ (by simp [NoteCommitConfig.columns]))) fun _ h3 => ?_
  refine hon_bind (hon_copyAdvice k_b3 (hc _ (by simp [NoteCommitConfig.columns]))) fun _ h4 => ?_
  simp only [Nat.add_zero] at *
  exact hon_pure ⟨by rw [hg.b, h0.2, h1.2, h2.2, h3.2, h4.2]; exact h, ⟨by rw [h2.1]; exact ⟨h2.2, (hc _ (by simp [NoteCommitConfig.columns]))⟩, by rw [h2.1]⟩⟩

theorem hon_assign_d {d : MessagePiece} {d1 d2 z1d : Assigned} {d0 : Fp}
    (k_d : Known cs T d.cell)
    (k_d1 : Known cs T d1)
    (k_d2 : Known cs T d2)
    (k_z1d : Known cs T z1d)
    (h : Gate (NoteCommit.gateD d.cell.value d0 d1.value d2.value z1d.value)) :
    Honest P cs T inst env (cfg.d.assign d d0 d1 d2 z1d) fun x => Known cs T x ∧ x.value = d0 := by
  refine hon_region fun r => ?_
  refine hon_enable_bind ?_
  refine hon_bind (hon_copyAdvice k_d (hc _ (by simp [NoteCommitConfig.columns]))) fun _ h0 => ?_
  refine hon_bind hon_assignAdvice fun x_d0 h1 => ?_
  refine hon_bind (hon_copyAdvice k_d1 (hc _ (by simp [NoteCommitConfig.columns]))) fun _ h2 => ?_
  refine hon_bind (hon_copyAdvice k_d2 (hc _ (by simp [NoteCommitConfig.columns]))) fun _ h3 => ?_
  refine hon_bind (hon_copyAdvice k_z1d (hc _ (by simp [NoteCommitConfig.columns]))) fun _ h4 => ?_
  simp only [Nat.add_zero] at *
  exact hon_pure ⟨by rw [hg.d, h0.2, h1.2, h2.2, h3.2, h4.2]; exact h, ⟨by rw [h1.1]; exact ⟨h1.2, (hc _ (by simp [NoteCommitConfig.columns]))⟩, by rw [h1.1]⟩⟩

theorem hon_assign_e {e : MessagePiece} {e0 e1 : Assigned}
    (k_e : Known cs T e.cell)
    (k_e0 : Known cs T e0)
    (k_e1 : Known cs T e1)
    (h : Gate (NoteCommit.gateE e.cell.value e0.value e1.value)) :
    Honest P cs T inst env (cfg.e.assign e e0 e1) fun _ => True := by
  refine hon_region fun r => ?_
  refine hon_enable_bind ?_
  refine hon_bind (hon_copyAdvice k_e (hc _ (by simp [NoteCommitConfig.columns]))) fun _ h0 => ?_
  refine hon_bind (hon_copyAdvice k_e0 (hc _ (by simp [NoteCommitConfig.columns]))) fun _ h1 => ?_
  refine hon_bind (hon_copyAdvice k_e1 (hc _ (by simp [NoteCommitConfig.columns]))) fun _ h2 => ?_
  simp only [Nat.add_zero] at *
  exact hon_pure ⟨by rw [hg.e, h0.2, h1.2, h2.2]; exact h, trivial⟩

theorem hon_assign_g {g : MessagePiece} {g1 z1g : Assigned} {g0 : Fp}
    (k_g : Known cs T g.cell)
    (k_g1 : Known cs T g1)
    (k_z1g : Known cs T z1g)
    (h : Gate (NoteCommit.gateG g.cell.value g0 g1.value z1g.value)) :
    Honest P cs T inst env (cfg.g.assign g g0 g1 z1g) fun x => Known cs T x ∧ x.value = g0 := by
  refine hon_region fun r => ?_
  refine hon_enable_bind ?_
  refine hon_bind (hon_copyAdvice k_g (hc _ (by simp [NoteCommitConfig.columns]))) fun _ h0 => ?_
  refine hon_bind hon_assignAdvice fun x_g0 h1 => ?_
  refine hon_bind (hon_copyAdvice k_g1 (hc _ (by simp [NoteCommitConfig.columns]))) fun _ h2 => ?_
  refine hon_bind (hon_copyAdvice k_z1g (hc _ (by simp [NoteCommitConfig.columns]))) fun _ h3 => ?_
  simp only [Nat.add_zero] at *
  exact hon_pure ⟨by rw [hg.g, h0.2, h1.2, h2.2, h3.2]; exact h, ⟨by rw [h1.1]; exact ⟨h1.2, (hc _ (by simp [NoteCommitConfig.columns]))⟩, by rw [h1.1]⟩⟩

theorem hon_assign_h {m : MessagePiece} {h0 : Assigned} {h1 : Fp}
    (k_m : Known cs T m.cell)
    (k_h0 : Known cs T h0)
    (h : Gate (NoteCommit.gateH m.cell.value h0.value h1)) :
    Honest P cs T inst env (cfg.h.assign m h0 h1) fun x => Known cs T x ∧ x.value = h1 := by
  refine hon_region fun r => ?_
  refine hon_enable_bind ?_
  refine hon_bind (hon_copyAdvice k_m (hc _ (by simp [NoteCommitConfig.columns]))) fun _ h0 => ?_
  refine hon_bind (hon_copyAdvice k_h0 (hc _ (by simp [NoteCommitConfig.columns]))) fun _ h1 => ?_
  refine hon_mono hon_assignAdvice fun x_h1 h2 => ?_
  simp only [Nat.add_zero] at *
  exact ⟨by rw [hg.h, h0.2, h1.2, h2.2]; exact h, ⟨by rw [h2.1]; exact ⟨h2.2, (hc _ (by simp [NoteCommitConfig.columns]))⟩, by rw [h2.1]⟩⟩

theorem hon_assign_gd {gd : PointCells} {a : MessagePiece} {b0 b1 aPrime z13a z13aPrime : Assigned}
    (k_gd : Known cs T gd.xCell)
    (k_b0 : Known cs T b0)
    (k_b1 : Known cs T b1)
    (k_a : Known cs T a.cell)
    (k_aPrime : Known cs T aPrime)
    (k_z13a : Known cs T z13a)
    (k_z13aPrime : Known cs T z13aPrime)
    (h : Gate (NoteCommit.gateGd gd.xCell.value b0.value b1.value a.cell.value aPrime.value z13a.value z13aPrime.value)) :
    Honest P cs T inst env (cfg.gd.assign gd a b0 b1 aPrime z13a z13aPrime) fun _ => True := by
  refine hon_region fun r => ?_
  refine hon_bind (hon_copyAdvice k_gd (hc _ (by simp [NoteCommitConfig.columns]))) fun _ h0 => ?_
  refine hon_bind (hon_copyAdvice k_b0 (hc _ (by simp [NoteCommitConfig.columns]))) fun _ h1 => ?_
  refine hon_bind (hon_copyAdvice k_b1 (hc _ (by simp [NoteCommitConfig.columns]))) fun _ h2 => ?_
  refine hon_bind (hon_copyAdvice k_a (hc _ (by simp [NoteCommitConfig.columns]))) fun _ h3 => ?_
  refine hon_bind (hon_copyAdvice k_aPrime (hc _ (by simp [NoteCommitConfig.columns]))) fun _ h4 => ?_
  refine hon_bind (hon_copyAdvice k_z13a (hc _ (by simp [NoteCommitConfig.columns]))) fun _ h5 => ?_
  refine hon_bind (hon_copyAdvice k_z13aPrime (hc _ (by simp [NoteCommitConfig.columns]))) fun _ h6 => ?_
  simp only [Nat.add_zero] at *
  refine hon_enable ?_
  rw [Nat.add_zero, hg.gd, h0.2, h1.2, h2.2, h3.2, h4.2, h5.2, h6.2]
  exact h

theorem hon_assign_pkd {pkd : PointCells} {c : MessagePiece} {b3 d0 b3cPrime z13c z14b3cPrime : Assigned}
    (k_pkd : Known cs T pkd.xCell)
    (k_b3 : Known cs T b3)
    (k_d0 : Known cs T d0)
    (k_c : Known cs T c.cell)
    (k_b3cPrime : Known cs T b3cPrime)
    (k_z13c : Known cs T z13c)
    (k_z14b3cPrime : Known cs T z14b3cPrime)
    (h : Gate (NoteCommit.gatePkd pkd.xCell.value b3.value d0.value c.cell.value b3cPrime.value z13c.value z14b3cPrime.value)) :
    Honest P cs T inst env (cfg.pkd.assign pkd b3 c d0 b3cPrime z13c z14b3cPrime) fun _ => True := by
  refine hon_region fun r => ?_
  refine hon_bind (hon_copyAdvice k_pkd (hc _ (by simp [NoteCommitConfig.columns]))) fun _ h0 => ?_
  refine hon_bind (hon_copyAdvice k_b3 (hc _ (by simp [NoteCommitConfig.columns]))) fun _ h1 => ?_
  refine hon_bind (hon_copyAdvice k_d0 (hc _ (by simp [NoteCommitConfig.columns]))) fun _ h2 => ?_
  refine hon_bind (hon_copyAdvice k_c (hc _ (by simp [NoteCommitConfig.columns]))) fun _ h3 => ?_
  refine hon_bind (hon_copyAdvice k_b3cPrime (hc _ (by simp [NoteCommitConfig.columns]))) fun _ h4 => ?_
  refine hon_bind (hon_copyAdvice k_z13c (hc _ (by simp [NoteCommitConfig.columns]))) fun _ h5 => ?_
  refine hon_bind (hon_copyAdvice k_z14b3cPrime (hc _ (by simp [NoteCommitConfig.columns]))) fun _ h6 => ?_
  simp only [Nat.add_zero] at *
  refine hon_enable ?_
  rw [Nat.add_zero, hg.pkd, h0.2, h1.2, h2.2, h3.2, h4.2, h5.2, h6.2]
  exact h

theorem hon_assign_value {value d2 z1d e0 : Assigned}
    (k_value : Known cs T value)
    (k_d2 : Known cs T d2)
    (k_z1d : Known cs T z1d)
    (k_e0 : Known cs T e0)
    (h : Gate (NoteCommit.gateValue value.value d2.value z1d.value e0.value)) :
    Honest P cs T inst env (cfg.value.assign value d2 z1d e0) fun _ => True := by
  refine hon_region fun r => ?_
  refine hon_bind (hon_copyAdvice k_value (hc _ (by simp [NoteCommitConfig.columns]))) fun _ h0 => ?_
  refine hon_bind (hon_copyAdvice k_d2 (hc _ (by simp [NoteCommitConfig.columns]))) fun _ h1 => ?_
  refine hon_bind (hon_copyAdvice k_z1d (hc _ (by simp [NoteCommitConfig.columns]))) fun _ h2 => ?_
  refine hon_bind (hon_copyAdvice k_e0 (hc _ (by simp [NoteCommitConfig.columns]))) fun _ h3 => ?_
  simp only [Nat.add_zero] at *
  refine hon_enable ?_
  rw [Nat.add_zero, hg.value, h0.2, h1.2, h2.2, h3.2]
  exact h

theorem hon_assign_rho {rho e1 : Assigned} {f : MessagePiece} {g0 e1fPrime z13f z14e1fPrime : Assigned}
    (k_rho : Known cs T rho)
    (k_e1 : Known cs T e1)
    (k_g0 : Known cs T g0)
    (k_f : Known cs T f.cell)
    (k_e1fPrime : Known cs T e1fPrime)
    (k_z13f : Known cs T z13f)
    (k_z14e1fPrime : Known cs T z14e1fPrime)
    (h : Gate (NoteCommit.gateRho rho.value e1.value g0.value f.cell.value e1fPrime.value z13f.value z14e1fPrime.value)) :
    Honest P cs T inst env (cfg.rho.assign rho e1 f g0 e1fPrime z13f z14e1fPrime) fun _ => True := by
  refine hon_region fun r => ?_
  refine hon_bind (hon_copyAdvice k_rho (hc _ (by simp [NoteCommitConfig.columns]))) fun _ h0 => ?_
  refine hon_bind (hon_copyAdvice k_e1 (hc _ (by simp [NoteCommitConfig.columns]))) fun _ h1 => ?_
  refine hon_bind (hon_copyAdvice k_g0 (hc _ (by simp [NoteCommitConfig.columns]))) fun _ h2 => ?_
  refine hon_bind (hon_copyAdvice k_f (hc _ (by simp [NoteCommitConfig.columns]))) fun _ h3 => ?_
  refine hon_bind (hon_copyAdvice k_e1fPrime (hc _ (by simp [NoteCommitConfig.columns]))) fun _ h4 => ?_
  refine hon_bind (hon_copyAdvice k_z13f (hc _ (by simp [NoteCommitConfig.columns]))) fun _ h5 => ?_
  refine hon_bind (hon_copyAdvice k_z14e1fPrime (hc _ (by simp [NoteCommitConfig.columns]))) fun _ h6 => ?_
  simp only [Nat.add_zero] at *
  refine hon_enable ?_
  rw [Nat.add_zero, hg.rho, h0.2, h1.2, h2.2, h3.2, h4.2, h5.2, h6.2]
  exact h

theorem hon_assign_psi {psi g1 z1g h0 h1 g1g2Prime z13g z13g1g2Prime : Assigned}
    (k_psi : Known cs T psi)
    (k_h0 : Known cs T h0)
    (k_g1 : Known cs T g1)
    (k_h1 : Known cs T h1)
    (k_z1g : Known cs T z1g)
    (k_g1g2Prime : Known cs T g1g2Prime)
    (k_z13g : Known cs T z13g)
    (k_z13g1g2Prime : Known cs T z13g1g2Prime)
    (h : Gate (NoteCommit.gatePsi psi.value h0.value g1.value h1.value z1g.value g1g2Prime.value z13g.value z13g1g2Prime.value)) :
    Honest P cs T inst env (cfg.psi.assign psi g1 z1g h0 h1 g1g2Prime z13g z13g1g2Prime) fun _ => True := by
  refine hon_region fun r => ?_
  refine hon_bind (hon_copyAdvice k_psi (hc _ (by simp [NoteCommitConfig.columns]))) fun _ h0 => ?_
  refine hon_bind (hon_copyAdvice k_h0 (hc _ (by simp [NoteCommitConfig.columns]))) fun _ h1 => ?_
  refine hon_bind (hon_copyAdvice k_g1 (hc _ (by simp [NoteCommitConfig.columns]))) fun _ h2 => ?_
  refine hon_bind (hon_copyAdvice k_h1 (hc _ (by simp [NoteCommitConfig.columns]))) fun _ h3 => ?_
  refine hon_bind (hon_copyAdvice k_z1g (hc _ (by simp [NoteCommitConfig.columns]))) fun _ h4 => ?_
  refine hon_bind (hon_copyAdvice k_g1g2Prime (hc _ (by simp [NoteCommitConfig.columns]))) fun _ h5 => ?_
  refine hon_bind (hon_copyAdvice k_z13g (hc _ (by simp [NoteCommitConfig.columns]))) fun _ h6 => ?_
  refine hon_bind (hon_copyAdvice k_z13g1g2Prime (hc _ (by simp [NoteCommitConfig.columns]))) fun _ h7 => ?_
  simp only [Nat.add_zero] at *
  refine hon_enable ?_
  rw [Nat.add_zero, hg.psi, h0.2, h1.2, h2.2, h3.2, h4.2, h5.2, h6.2, h7.2]
  exact h

theorem hon_assign_yCanon {y k0 k2 j z1j z13j jPrime z13jPrime : Assigned} {lsb k3 : Fp}
    (k_y : Known cs T y)
    (k_k0 : Known cs T k0)
    (k_k2 : Known cs T k2)
    (k_j : Known cs T j)
    (k_z1j : Known cs T z1j)
    (k_z13j : Known cs T z13j)
    (k_jPrime : Known cs T jPrime)
    (k_z13jPrime : Known cs T z13jPrime)
    (h : Gate (NoteCommit.gateY y.value lsb k0.value k2.value k3 j.value z1j.value z13j.value jPrime.value z13jPrime.value)) :
    Honest P cs T inst env (cfg.yCanon.assign y lsb k0 k2 k3 j z1j z13j jPrime z13jPrime) fun x => Known cs T x ∧ x.value = lsb := by
  refine hon_region fun r => ?_
  refine hon_enable_bind ?_
  refine hon_bind (hon_copyAdvice k_y (hc _ (by simp [NoteCommitConfig.columns]))) fun _ h0 => ?_
  refine hon_bind hon_assignAdvice fun x_lsb h1 => ?_
  refine hon_bind (hon_copyAdvice k_k0 (hc _ (by simp [NoteCommitConfig.columns]))) fun _ h2 => ?_
  refine hon_bind (hon_copyAdvice k_k2 (hc _ (by simp [NoteCommitConfig.columns]))) fun _ h3 => ?_
  refine hon_bind hon_assignAdvice fun x_k3 h4 => ?_
  refine hon_bind (hon_copyAdvice k_j (hc _ (by simp [NoteCommitConfig.columns]))) fun _ h5 => ?_
  refine hon_bind (hon_copyAdvice k_z1j (hc _ (by simp [NoteCommitConfig.columns]))) fun _ h6 => ?_
  refine hon_bind (hon_copyAdvice k_z13j (hc _ (by simp [NoteCommitConfig.columns]))) fun _ h7 => ?_
  refine hon_bind (hon_copyAdvice k_jPrime (hc _ (by simp [NoteCommitConfig.columns]))) fun _ h8 => ?_
  refine hon_bind (hon_copyAdvice k_z13jPrime (hc _ (by simp [NoteCommitConfig.columns]))) fun _ h9 => ?_
  simp only [Nat.add_zero] at *
  exact hon_pure ⟨by rw [hg.yCanon, h0.2, h1.2, h2.2, h3.2, h4.2, h5.2, h6.2, h7.2, h8.2, h9.2]; exact h, ⟨by rw [h1.1]; exact ⟨h1.2, (hc _ (by simp [NoteCommitConfig.columns]))⟩, by rw [h1.1]⟩⟩

variable (hp : ∀ n i, (env.plan.gadget n i).1 ∈ cs.equality)
include hp

theorem hon_yCanonicity {y : Assigned} {lsb : Fp} (hy : Known cs T y)
    (h : NoteCommit.yCanonicity (NoteCommit.assignY y.value lsb) y.value lsb) :
    Honest P cs T inst env (yCanonicity cfg.yCanon y lsb) fun x => Known cs T x ∧ x.value = lsb := by
  obtain ⟨h0, h2, hj, -, hgate⟩ := h
  refine hon_bind (hon_witnessShort hp h0) fun k0 kk0 => ?_
  refine hon_bind (hon_witnessShort hp h2) fun k2 kk2 => ?_
  have e : lsb + ((2 : ℕ) : Fp) * k0.value + ((1 <<< 10 : ℕ) : Fp) * bitrange y.value 10 250 =
      lsb + 2 * bitrange y.value 1 10 + 2 ^ 10 * bitrange y.value 10 250 := by
    rw [kk0.2, Nat.one_shiftLeft, Nat.cast_pow, Nat.cast_ofNat]
  refine hon_bind (hon_witnessCheck hp (by rw [e]; exact hj)) fun zs hz => ?_
  rw [e] at hz
  refine hon_bind (hon_check hp) ?_
  rintro ⟨jP, z13⟩ ⟨ka, ka13, va, va13⟩
  have z0 := hz 0 (by norm_num)
  have z1 := hz 1 (by norm_num)
  have z13' := hz 13 (by norm_num)
  dsimp only at *
  refine hon_assign_yCanon hg hc hy kk0.1 kk2.1 z0.1 z1.1 z13'.1 ka ka13 ?_
  rw [kk0.2, kk2.2, va, va13, z0.2, z1.2, z13'.2]
  simp only [Nat.one_shiftLeft, Nat.cast_pow, Nat.cast_ofNat, ← pow_mul, Nat.reduceMul]
  simp only [NoteCommit.assignY, runningSumOf_zero] at hgate ⊢
  exact hgate

omit hg hc in
theorem hon_decomposeB {gd pkd : PointCells} (h0 : ShortCheck 4 (bitrange (extractP gd.value) 250 254))
    (h3 : ShortCheck 4 (bitrange (extractP pkd.value) 0 4)) :
    Honest P cs T inst env (DecomposeB.decompose gd pkd) fun x =>
      (x.1.words = 1 ∧ Known cs T x.1.cell ∧ x.1.cell.value = fromSubpieces
        [(4, bitrange (extractP gd.value) 250 254), (1, bitrange (extractP gd.value) 254 255),
          (1, bitrange (cellY gd.value) 0 1), (4, bitrange (extractP pkd.value) 0 4)]) ∧
      (Known cs T x.2.1 ∧ x.2.1.value = bitrange (extractP gd.value) 250 254) ∧
      x.2.2.1 = bitrange (extractP gd.value) 254 255 ∧ x.2.2.2.1 = bitrange (cellY gd.value) 0 1 ∧
      (Known cs T x.2.2.2.2 ∧ x.2.2.2.2.value = bitrange (extractP pkd.value) 0 4) := by
  refine hon_bind (hon_witnessShort hp h0) fun b0 k0 => ?_
  refine hon_bind (hon_witnessShort hp h3) fun b3 k3 => ?_
  refine hon_bind (hon_messagePiece hp 1 (by simp)) fun b k => ?_
  rw [k0.2, k3.2] at k
  exact hon_pure ⟨k, k0, rfl, rfl, k3⟩

omit hg hc in
theorem hon_decomposeD {pkd : PointCells} {v : Assigned} (h2 : ShortCheck 8 (bitrange v.value 0 8)) :
    Honest P cs T inst env (DecomposeD.decompose pkd v) fun x =>
      (x.1.words = 6 ∧ Known cs T x.1.cell ∧ x.1.cell.value = fromSubpieces
        [(1, bitrange (extractP pkd.value) 254 255), (1, bitrange (cellY pkd.value) 0 1),
          (8, bitrange v.value 0 8), (50, bitrange v.value 8 58)]) ∧
      x.2.1 = bitrange (extractP pkd.value) 254 255 ∧ x.2.2.1 = bitrange (cellY pkd.value) 0 1 ∧
      (Known cs T x.2.2.2 ∧ x.2.2.2.value = bitrange v.value 0 8) := by
  refine hon_bind (hon_witnessShort hp h2) fun d2 k2 => ?_
  refine hon_bind (hon_messagePiece hp 6 (by simp)) fun d k => ?_
  rw [k2.2] at k
  exact hon_pure ⟨k, rfl, rfl, k2⟩

omit hg hc in
theorem hon_decomposeE {v rho : Assigned} (h0 : ShortCheck 6 (bitrange v.value 58 64))
    (h1 : ShortCheck 4 (bitrange rho.value 0 4)) :
    Honest P cs T inst env (DecomposeE.decompose v rho) fun x =>
      (x.1.words = 1 ∧ Known cs T x.1.cell ∧ x.1.cell.value = fromSubpieces
        [(6, bitrange v.value 58 64), (4, bitrange rho.value 0 4)]) ∧
      (Known cs T x.2.1 ∧ x.2.1.value = bitrange v.value 58 64) ∧
      (Known cs T x.2.2 ∧ x.2.2.value = bitrange rho.value 0 4) := by
  refine hon_bind (hon_witnessShort hp h0) fun e0 k0 => ?_
  refine hon_bind (hon_witnessShort hp h1) fun e1 k1 => ?_
  refine hon_bind (hon_messagePiece hp 1 (by simp)) fun e k => ?_
  rw [k0.2, k1.2] at k
  exact hon_pure ⟨k, k0, k1⟩

omit hg hc in
theorem hon_decomposeG {rho psi : Assigned} (h1 : ShortCheck 9 (bitrange psi.value 0 9)) :
    Honest P cs T inst env (DecomposeG.decompose rho psi) fun x =>
      (x.1.words = 25 ∧ Known cs T x.1.cell ∧ x.1.cell.value = fromSubpieces
        [(1, bitrange rho.value 254 255), (9, bitrange psi.value 0 9),
          (240, bitrange psi.value 9 249)]) ∧
      x.2.1 = bitrange rho.value 254 255 ∧
      (Known cs T x.2.2 ∧ x.2.2.value = bitrange psi.value 0 9) := by
  refine hon_bind (hon_witnessShort hp h1) fun g1 k1 => ?_
  refine hon_bind (hon_messagePiece hp 25 (by simp)) fun g k => ?_
  rw [k1.2] at k
  exact hon_pure ⟨k, rfl, k1⟩

omit hg hc in
theorem hon_decomposeH {psi : Assigned} (h0 : ShortCheck 5 (bitrange psi.value 249 254)) :
    Honest P cs T inst env (DecomposeH.decompose psi) fun x =>
      (x.1.words = 1 ∧ Known cs T x.1.cell ∧ x.1.cell.value = fromSubpieces
        [(5, bitrange psi.value 249 254), (1, bitrange psi.value 254 255), (4, bitrange 0 0 4)]) ∧
      (Known cs T x.2.1 ∧ x.2.1.value = bitrange psi.value 249 254) ∧
      x.2.2 = bitrange psi.value 254 255 := by
  refine hon_bind (hon_witnessShort hp h0) fun h0 k0 => ?_
  refine hon_bind (hon_messagePiece hp 1 (by simp)) fun h k => ?_
  rw [k0.2] at k
  exact hon_pure ⟨k, k0, rfl⟩

theorem hon_noteCommit {gd pkd : PointCells} {value rho psi : Assigned} {rcm : Fq}
    {cm : Point} (kgd : KnownPoint cs T gd) (kpkd : KnownPoint cs T pkd) (kvalue : Known cs T value)
    (krho : Known cs T rho) (kpsi : Known cs T psi)
    (h : NoteCommit.gadget P true
      (NoteCommit.assign gd.value pkd.value value.value rho.value psi.value) gd.value pkd.value
      value.value rho.value psi.value rcm (cells cm)) :
    Honest P cs T inst env (noteCommit P cfg gd pkd value rho psi rcm) fun x =>
      KnownPoint cs T x ∧ x.value = cm := by
  obtain ⟨sb0, sb3, sd2, se0, se1, sg1, sh0, yGd, yPkd, hcom, -, -, -, -, gB, gD, gE, gG, gH, gGd, gPkd,
    gValue, gRho, gPsi⟩ := h
  refine hon_bind (hon_messagePiece hp 25 (by simp)) fun a ka => ?_
  refine hon_bind (hon_decomposeB hp sb0 sb3) ?_
  rintro ⟨b, b0, b1, b2, b3⟩ ⟨kb, kb0, vb1, vb2, kb3⟩
  refine hon_bind (hon_messagePiece hp 25 (by simp)) fun c kc => ?_
  refine hon_bind (hon_decomposeD hp sd2) ?_
  rintro ⟨d, d0, d1, d2⟩ ⟨kd, vd0, vd1, kd2⟩
  refine hon_bind (hon_decomposeE hp se0 se1) ?_
  rintro ⟨e, e0, e1⟩ ⟨ke, ke0, ke1⟩
  refine hon_bind (hon_messagePiece hp 25 (by simp)) fun f kf => ?_
  refine hon_bind (hon_decomposeG hp sg1) ?_
  rintro ⟨g, g0, g1⟩ ⟨kg, vg0, kg1⟩
  refine hon_bind (hon_decomposeH hp sh0) ?_
  rintro ⟨h, h0, h1⟩ ⟨kh, kh0, vh1⟩
  dsimp only at *
  subst vb1 vb2 vd0 vd1 vg0 vh1
  refine hon_bind (hon_yCanonicity hg hc hp kgd.y yGd) fun b2 kb2 => ?_
  refine hon_bind (hon_yCanonicity hg hc hp kpkd.y yPkd) fun d1 kd1 => ?_
  refine hon_bind (hon_sinsemillaCommit hp .noteCommitR rfl (out := cm) ?_ ?_) ?_
  · simp only [List.mem_cons, List.not_mem_nil, or_false, forall_eq_or_imp, forall_eq]
    exact ⟨ka.2.1, kb.2.1, kc.2.1, kd.2.1, ke.2.1, kf.2.1, kg.2.1, kh.2.1⟩
  · simp only [List.map_cons, List.map_nil, ka.1, ka.2.2, kb.1, kb.2.2, kc.1, kc.2.2, kd.1, kd.2.2,
      ke.1, ke.2.2, kf.1, kf.2.2, kg.1, kg.2.2, kh.1, kh.2.2]
    exact hcom
  rintro ⟨cm', zs⟩ ⟨ho, hov, hz⟩
  have z13a := hz 0 a rfl 13 (by rw [ka.1]; norm_num)
  have z13c := hz 2 c rfl 13 (by rw [kc.1]; norm_num)
  have z1d := hz 3 d rfl 1 (by rw [kd.1]; norm_num)
  have z13f := hz 5 f rfl 13 (by rw [kf.1]; norm_num)
  have z1g := hz 6 g rfl 1 (by rw [kg.1]; norm_num)
  have z13g := hz 6 g rfl 13 (by rw [kg.1]; norm_num)
  refine hon_bind (hon_check hp) ?_
  rintro ⟨aP, aP'⟩ ⟨kaP, kaP', vaP, vaP'⟩
  refine hon_bind (hon_check hp) ?_
  rintro ⟨bP, bP'⟩ ⟨kbP, kbP', vbP, vbP'⟩
  refine hon_bind (hon_check hp) ?_
  rintro ⟨eP, eP'⟩ ⟨keP, keP', veP, veP'⟩
  refine hon_bind (hon_check hp) ?_
  rintro ⟨gP, gP'⟩ ⟨kgP, kgP', vgP, vgP'⟩
  dsimp only at *
  simp only [ka.2.2, kc.2.2, kf.2.2, kb3.2, ke1.2, kg1.2, z1g.2, kg.2.2, Nat.one_shiftLeft,
    Nat.cast_pow, Nat.cast_ofNat, ← pow_mul, Nat.reduceMul] at vaP vaP' vbP vbP' veP veP' vgP vgP'
  simp only [NoteCommit.assign, runningSumOf_zero] at gB gD gE gG gH gGd gPkd gValue gRho gPsi
  refine hon_bind (hon_assign_b hg hc kb.2.1 kb0.1 kb2.1 kb3.1 ?_) fun b1 kb1 => ?_
  · rw [kb.2.2, kb0.2, kb2.2, kb3.2]; exact gB
  refine hon_bind (hon_assign_d hg hc kd.2.1 kd1.1 kd2.1 z1d.1 ?_) fun d0 kd0 => ?_
  · rw [kd.2.2, kd1.2, kd2.2, z1d.2, kd.2.2]; exact gD
  refine hon_bind (hon_assign_e hg hc ke.2.1 ke0.1 ke1.1 ?_) fun _ _ => ?_
  · rw [ke.2.2, ke0.2, ke1.2]; exact gE
  refine hon_bind (hon_assign_g hg hc kg.2.1 kg1.1 z1g.1 ?_) fun g0 kg0 => ?_
  · rw [kg.2.2, kg1.2, z1g.2, kg.2.2]; exact gG
  refine hon_bind (hon_assign_h hg hc kh.2.1 kh0.1 ?_) fun h1 kh1 => ?_
  · rw [kh.2.2, kh0.2]; exact gH
  refine hon_bind (hon_assign_gd hg hc kgd.x kb0.1 kb1.1 ka.2.1 kaP z13a.1 kaP' ?_) fun _ _ => ?_
  · rw [kb0.2, kb1.2, ka.2.2, vaP, vaP', z13a.2, ka.2.2, runningSumOf_zero]; exact gGd
  refine hon_bind (hon_assign_pkd hg hc kpkd.x kb3.1 kd0.1 kc.2.1 kbP z13c.1 kbP' ?_) fun _ _ => ?_
  · rw [kb3.2, kd0.2, kc.2.2, vbP, vbP', z13c.2, kc.2.2, runningSumOf_zero]; exact gPkd
  refine hon_bind (hon_assign_value hg hc kvalue kd2.1 z1d.1 ke0.1 ?_) fun _ _ => ?_
  · rw [kd2.2, z1d.2, kd.2.2, ke0.2]; exact gValue
  refine hon_bind (hon_assign_rho hg hc krho ke1.1 kg0.1 kf.2.1 keP z13f.1 keP' ?_) fun _ _ => ?_
  · rw [ke1.2, kg0.2, kf.2.2, veP, veP', z13f.2, kf.2.2, runningSumOf_zero]; exact gRho
  refine hon_bind (hon_assign_psi hg hc kpsi kh0.1 kg1.1 kh1.1 z1g.1 kgP z13g.1 kgP' ?_) fun _ _ => ?_
  · rw [kh0.2, kg1.2, kh1.2, z1g.2, vgP, vgP', z13g.2, kg.2.2, runningSumOf_zero]; exact gPsi
  exact hon_pure ⟨ho, hov⟩

end noteCommit

end Layout

end Orchard
