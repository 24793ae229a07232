import Verif.Lemmas.Layout

/-!
# Lemmas on the table layout of `note_commit`
-/

namespace Orchard

namespace Layout

open Halo2

variable {cs : ConstraintSystem} {T : Table} {inst : List Fp} {env : Env} {α β : Type} {s : Counters}

/-- The gates of the selectors of the chip, on a row of the table. -/
structure NoteGates (cs : ConstraintSystem) (cfg : NoteCommitConfig) : Prop where
  b : ∀ (T : Table) (inst : List Fp) (row : ℕ), (Event.enable cfg.b.q row).Holds cs T inst ↔
    Gate (NoteCommit.gateB (T (cfg.b.colL, row)) (T (cfg.b.colM, row)) (T (cfg.b.colR, row)) (T (cfg.b.colM, row + 1)) (T (cfg.b.colR, row + 1)))
  d : ∀ (T : Table) (inst : List Fp) (row : ℕ), (Event.enable cfg.d.q row).Holds cs T inst ↔
    Gate (NoteCommit.gateD (T (cfg.d.colL, row)) (T (cfg.d.colM, row)) (T (cfg.d.colR, row)) (T (cfg.d.colM, row + 1)) (T (cfg.d.colR, row + 1)))
  e : ∀ (T : Table) (inst : List Fp) (row : ℕ), (Event.enable cfg.e.q row).Holds cs T inst ↔
    Gate (NoteCommit.gateE (T (cfg.e.colL, row)) (T (cfg.e.colM, row)) (T (cfg.e.colR, row)))
  g : ∀ (T : Table) (inst : List Fp) (row : ℕ), (Event.enable cfg.g.q row).Holds cs T inst ↔
    Gate (NoteCommit.gateG (T (cfg.g.colL, row)) (T (cfg.g.colM, row)) (T (cfg.g.colL, row + 1)) (T (cfg.g.colM, row + 1)))
  h : ∀ (T : Table) (inst : List Fp) (row : ℕ), (Event.enable cfg.h.q row).Holds cs T inst ↔
    Gate (NoteCommit.gateH (T (cfg.h.colL, row)) (T (cfg.h.colM, row)) (T (cfg.h.colR, row)))
  gd : ∀ (T : Table) (inst : List Fp) (row : ℕ), (Event.enable cfg.gd.q row).Holds cs T inst ↔
    Gate (NoteCommit.gateGd (T (cfg.gd.colL, row)) (T (cfg.gd.colM, row)) (T (cfg.gd.colM, row + 1)) (T (cfg.gd.colR, row)) (T (cfg.gd.colR, row + 1)) (T (cfg.gd.colZ, row)) (T (cfg.gd.colZ, row + 1)))
  pkd : ∀ (T : Table) (inst : List Fp) (row : ℕ), (Event.enable cfg.pkd.q row).Holds cs T inst ↔
    Gate (NoteCommit.gatePkd (T (cfg.pkd.colL, row)) (T (cfg.pkd.colM, row)) (T (cfg.pkd.colM, row + 1)) (T (cfg.pkd.colR, row)) (T (cfg.pkd.colR, row + 1)) (T (cfg.pkd.colZ, row)) (T (cfg.pkd.colZ, row + 1)))
  value : ∀ (T : Table) (inst : List Fp) (row : ℕ), (Event.enable cfg.value.q row).Holds cs T inst ↔
    Gate (NoteCommit.gateValue (T (cfg.value.colL, row)) (T (cfg.value.colM, row)) (T (cfg.value.colR, row)) (T (cfg.value.colZ, row)))
  rho : ∀ (T : Table) (inst : List Fp) (row : ℕ), (Event.enable cfg.rho.q row).Holds cs T inst ↔
    Gate (NoteCommit.gateRho (T (cfg.rho.colL, row)) (T (cfg.rho.colM, row)) (T (cfg.rho.colM, row + 1)) (T (cfg.rho.colR, row)) (T (cfg.rho.colR, row + 1)) (T (cfg.rho.colZ, row)) (T (cfg.rho.colZ, row + 1)))
  psi : ∀ (T : Table) (inst : List Fp) (row : ℕ), (Event.enable cfg.psi.q row).Holds cs T inst ↔
    Gate (NoteCommit.gatePsi (T (cfg.psi.colL, row)) (T (cfg.psi.colL, row + 1)) (T (cfg.psi.colM, row)) (T (cfg.psi.colM, row + 1)) (T (cfg.psi.colR, row)) (T (cfg.psi.colR, row + 1)) (T (cfg.psi.colZ, row)) (T (cfg.psi.colZ, row + 1)))
  yCanon : ∀ (T : Table) (inst : List Fp) (row : ℕ),
    (Event.enable cfg.yCanon.q row).Holds cs T inst ↔
    Gate (NoteCommit.gateY (T (cfg.yCanon.advices 5, row)) (T (cfg.yCanon.advices 6, row)) (T (cfg.yCanon.advices 7, row)) (T (cfg.yCanon.advices 8, row)) (T (cfg.yCanon.advices 9, row)) (T (cfg.yCanon.advices 5, row + 1)) (T (cfg.yCanon.advices 6, row + 1)) (T (cfg.yCanon.advices 7, row + 1)) (T (cfg.yCanon.advices 8, row + 1)) (T (cfg.yCanon.advices 9, row + 1)))

variable {cfg : NoteCommitConfig} (hg : NoteGates cs cfg)
include hg

theorem ens_assign_b {b : MessagePiece} {b0 b2 b3 : Assigned} {b1 : Fp} :
    Ensures cs T inst (cfg.b.assign b b0 b1 b2 b3) fun b1 =>
      Gate (NoteCommit.gateB (T b.cell.cell) (T b0.cell) (T b1.cell) (T b2.cell) (T b3.cell)) := by
  refine ens_region fun r => ?_
  refine ens_bind ens_enable fun _ hE => ?_
  refine ens_bind ens_copyAdvice fun _ h1 => ?_
  refine ens_bind ens_copyAdvice fun _ h2 => ?_
  refine ens_bind ens_assignAdvice fun x hx => ?_
  refine ens_bind ens_copyAdvice fun _ h3 => ?_
  refine ens_bind ens_copyAdvice fun _ h4 => ?_
  apply ens_pure
  rw [hg.b] at hE
  simp only [Nat.add_zero] at *
  rw [h1.2, h2.2, h3.2, h4.2] at hE
  rw [hx]
  exact hE

theorem ens_assign_d {d : MessagePiece} {d1 d2 z1d : Assigned} {d0 : Fp} :
    Ensures cs T inst (cfg.d.assign d d0 d1 d2 z1d) fun d0 =>
      Gate (NoteCommit.gateD (T d.cell.cell) (T d0.cell) (T d1.cell) (T d2.cell) (T z1d.cell)) := by
  refine ens_region fun r => ?_
  refine ens_bind ens_enable fun _ hE => ?_
  refine ens_bind ens_copyAdvice fun _ h1 => ?_
  refine ens_bind ens_assignAdvice fun x hx => ?_
  refine ens_bind ens_copyAdvice fun _ h2 => ?_
  refine ens_bind ens_copyAdvice fun _ h3 => ?_
  refine ens_bind ens_copyAdvice fun _ h4 => ?_
  apply ens_pure
  rw [hg.d] at hE
  simp only [Nat.add_zero] at *
  rw [h1.2, h2.2, h3.2, h4.2] at hE
  rw [hx]
  exact hE

theorem ens_assign_e {e : MessagePiece} {e0 e1 : Assigned} :
    Ensures cs T inst (cfg.e.assign e e0 e1) fun _ =>
      Gate (NoteCommit.gateE (T e.cell.cell) (T e0.cell) (T e1.cell)) := by
  refine ens_region fun r => ?_
  refine ens_bind ens_enable fun _ hE => ?_
  refine ens_bind ens_copyAdvice fun _ h1 => ?_
  refine ens_bind ens_copyAdvice fun _ h2 => ?_
  refine ens_bind ens_copyAdvice fun _ h3 => ?_
  apply ens_pure
  rw [hg.e] at hE
  simp only [Nat.add_zero] at *
  rw [h1.2, h2.2, h3.2] at hE
  exact hE

theorem ens_assign_g {g : MessagePiece} {g1 z1g : Assigned} {g0 : Fp} :
    Ensures cs T inst (cfg.g.assign g g0 g1 z1g) fun g0 =>
      Gate (NoteCommit.gateG (T g.cell.cell) (T g0.cell) (T g1.cell) (T z1g.cell)) := by
  refine ens_region fun r => ?_
  refine ens_bind ens_enable fun _ hE => ?_
  refine ens_bind ens_copyAdvice fun _ h1 => ?_
  refine ens_bind ens_assignAdvice fun x hx => ?_
  refine ens_bind ens_copyAdvice fun _ h2 => ?_
  refine ens_bind ens_copyAdvice fun _ h3 => ?_
  apply ens_pure
  rw [hg.g] at hE
  simp only [Nat.add_zero] at *
  rw [h1.2, h2.2, h3.2] at hE
  rw [hx]
  exact hE

theorem ens_assign_h {h : MessagePiece} {h0 : Assigned} {h1 : Fp} :
    Ensures cs T inst (cfg.h.assign h h0 h1) fun h1 =>
      Gate (NoteCommit.gateH (T h.cell.cell) (T h0.cell) (T h1.cell)) := by
  refine ens_region fun r => ?_
  refine ens_bind ens_enable fun _ hE => ?_
  refine ens_bind ens_copyAdvice fun _ h1 => ?_
  refine ens_bind ens_copyAdvice fun _ h2 => ?_
  refine ens_mono ens_assignAdvice fun x hx => ?_
  rw [hg.h] at hE
  simp only [Nat.add_zero] at *
  rw [h1.2, h2.2] at hE
  rw [hx]
  exact hE

theorem ens_assign_gd {gd : PointCells} {a : MessagePiece} {b0 b1 aPrime z13a z13aPrime : Assigned} :
    Ensures cs T inst (cfg.gd.assign gd a b0 b1 aPrime z13a z13aPrime) fun _ =>
      Gate (NoteCommit.gateGd (T gd.x) (T b0.cell) (T b1.cell) (T a.cell.cell) (T aPrime.cell) (T z13a.cell) (T z13aPrime.cell)) := by
  refine ens_region fun r => ?_
  refine ens_bind ens_copyAdvice fun _ h1 => ?_
  refine ens_bind ens_copyAdvice fun _ h2 => ?_
  refine ens_bind ens_copyAdvice fun _ h3 => ?_
  refine ens_bind ens_copyAdvice fun _ h4 => ?_
  refine ens_bind ens_copyAdvice fun _ h5 => ?_
  refine ens_bind ens_copyAdvice fun _ h6 => ?_
  refine ens_bind ens_copyAdvice fun _ h7 => ?_
  refine ens_mono ens_enable fun _ hE => ?_
  rw [hg.gd] at hE
  simp only [Nat.add_zero] at *
  rw [h1.2, h2.2, h3.2, h4.2, h5.2, h6.2, h7.2] at hE
  exact hE

theorem ens_assign_pkd {pkd : PointCells} {c : MessagePiece} {b3 d0 b3cPrime z13c z14b3cPrime : Assigned} :
    Ensures cs T inst (cfg.pkd.assign pkd b3 c d0 b3cPrime z13c z14b3cPrime) fun _ =>
      Gate (NoteCommit.gatePkd (T pkd.x) (T b3.cell) (T d0.cell) (T c.cell.cell) (T b3cPrime.cell) (T z13c.cell) (T z14b3cPrime.cell)) := by
  refine ens_region fun r => ?_
  refine ens_bind ens_copyAdvice fun _ h1 => ?_
  refine ens_bind ens_copyAdvice fun _ h2 => ?_
  refine ens_bind ens_copyAdvice fun _ h3 => ?_
  refine ens_bind ens_copyAdvice fun _ h4 => ?_
  refine ens_bind ens_copyAdvice fun _ h5 => ?_
  refine ens_bind ens_copyAdvice fun _ h6 => ?_
  refine ens_bind ens_copyAdvice fun _ h7 => ?_
  refine ens_mono ens_enable fun _ hE => ?_
  rw [hg.pkd] at hE
  simp only [Nat.add_zero] at *
  rw [h1.2, h2.2, h3.2, h4.2, h5.2, h6.2, h7.2] at hE
  exact hE

theorem ens_assign_value {value d2 z1d e0 : Assigned} :
    Ensures cs T inst (cfg.value.assign value d2 z1d e0) fun _ =>
      Gate (NoteCommit.gateValue (T value.cell) (T d2.cell) (T z1d.cell) (T e0.cell)) := by
  refine ens_region fun r => ?_
  refine ens_bind ens_copyAdvice fun _ h1 => ?_
  refine ens_bind ens_copyAdvice fun _ h2 => ?_
  refine ens_bind ens_copyAdvice fun _ h3 => ?_
  refine ens_bind ens_copyAdvice fun _ h4 => ?_
  refine ens_mono ens_enable fun _ hE => ?_
  rw [hg.value] at hE
  simp only [Nat.add_zero] at *
  rw [h1.2, h2.2, h3.2, h4.2] at hE
  exact hE

theorem ens_assign_rho {rho e1 : Assigned} {f : MessagePiece} {g0 e1fPrime z13f z14e1fPrime : Assigned} :
    Ensures cs T inst (cfg.rho.assign rho e1 f g0 e1fPrime z13f z14e1fPrime) fun _ =>
      Gate (NoteCommit.gateRho (T rho.cell) (T e1.cell) (T g0.cell) (T f.cell.cell) (T e1fPrime.cell) (T z13f.cell) (T z14e1fPrime.cell)) := by
  refine ens_region fun r => ?_
  refine ens_bind ens_copyAdvice fun _ h1 => ?_
  refine ens_bind ens_copyAdvice fun _ h2 => ?_
  refine ens_bind ens_copyAdvice fun _ h3 => ?_
  refine ens_bind ens_copyAdvice fun _ h4 => ?_
  refine ens_bind ens_copyAdvice fun _ h5 => ?_
  refine ens_bind ens_copyAdvice fun _ h6 => ?_
  refine ens_bind ens_copyAdvice fun _ h7 => ?_
  refine ens_mono ens_enable fun _ hE => ?_
  rw [hg.rho] at hE
  simp only [Nat.add_zero] at *
  rw [h1.2, h2.2, h3.2, h4.2, h5.2, h6.2, h7.2] at hE
  exact hE

theorem ens_assign_psi {psi g1 z1g h0 h1 g1g2Prime z13g z13g1g2Prime : Assigned} :
    Ensures cs T inst (cfg.psi.assign psi g1 z1g h0 h1 g1g2Prime z13g z13g1g2Prime) fun _ =>
      Gate (NoteCommit.gatePsi (T psi.cell) (T h0.cell) (T g1.cell) (T h1.cell) (T z1g.cell) (T g1g2Prime.cell) (T z13g.cell) (T z13g1g2Prime.cell)) := by
  refine ens_region fun r => ?_
  refine ens_bind ens_copyAdvice fun _ h1 => ?_
  refine ens_bind ens_copyAdvice fun _ h2 => ?_
  refine ens_bind ens_copyAdvice fun _ h3 => ?_
  refine ens_bind ens_copyAdvice fun _ h4 => ?_
  refine ens_bind ens_copyAdvice fun _ h5 => ?_
  refine ens_bind ens_copyAdvice fun _ h6 => ?_
  refine ens_bind ens_copyAdvice fun _ h7 => ?_
  refine ens_bind ens_copyAdvice fun _ h8 => ?_
  refine ens_mono ens_enable fun _ hE => ?_
  rw [hg.psi] at hE
  simp only [Nat.add_zero] at *
  rw [h1.2, h2.2, h3.2, h4.2, h5.2, h6.2, h7.2, h8.2] at hE
  exact hE

theorem ens_assign_yCanon {y k0 k2 j z1j z13j jPrime z13jPrime : Assigned} {lsb k3 : Fp} :
    Ensures cs T inst (cfg.yCanon.assign y lsb k0 k2 k3 j z1j z13j jPrime z13jPrime) fun lsb => ∃ k3,
      Gate (NoteCommit.gateY (T y.cell) (T lsb.cell) (T k0.cell) (T k2.cell) k3 (T j.cell) (T z1j.cell) (T z13j.cell) (T jPrime.cell) (T z13jPrime.cell)) := by
  refine ens_region fun r => ?_
  refine ens_bind ens_enable fun _ hE => ?_
  refine ens_bind ens_copyAdvice fun _ h1 => ?_
  refine ens_bind ens_assignAdvice fun x hx => ?_
  refine ens_bind ens_copyAdvice fun _ h2 => ?_
  refine ens_bind ens_copyAdvice fun _ h3 => ?_
  refine ens_bind ens_assignAdvice fun _ _ => ?_
  refine ens_bind ens_copyAdvice fun _ h4 => ?_
  refine ens_bind ens_copyAdvice fun _ h5 => ?_
  refine ens_bind ens_copyAdvice fun _ h6 => ?_
  refine ens_bind ens_copyAdvice fun _ h7 => ?_
  refine ens_bind ens_copyAdvice fun _ h8 => ?_
  apply ens_pure
  rw [hg.yCanon] at hE
  simp only [Nat.add_zero] at *
  rw [h1.2, h2.2, h3.2, h4.2, h5.2, h6.2, h7.2, h8.2] at hE
  rw [hx]
  exact ⟨_, hE⟩

omit hg in
theorem ens_canonBitshift130 {a : Assigned} :
    Ensures cs T inst (canonBitshift130 a) (CheckPost T 13) :=
  ens_bind ens_witnessCheck fun _ h => ens_pure ⟨_, h, rfl, rfl⟩

omit hg in
theorem ens_pkdXCanonicity {b c : Assigned} :
    Ensures cs T inst (pkdXCanonicity b c) (CheckPost T 14) :=
  ens_bind ens_witnessCheck fun _ h => ens_pure ⟨_, h, rfl, rfl⟩

omit hg in
theorem ens_rhoCanonicity {b c : Assigned} :
    Ensures cs T inst (rhoCanonicity b c) (CheckPost T 14) :=
  ens_bind ens_witnessCheck fun _ h => ens_pure ⟨_, h, rfl, rfl⟩

omit hg in
theorem ens_psiCanonicity {b c : Assigned} :
    Ensures cs T inst (psiCanonicity b c) (CheckPost T 13) :=
  ens_bind ens_witnessCheck fun _ h => ens_pure ⟨_, h, rfl, rfl⟩

theorem ens_yCanonicity {y : Assigned} {lsb : Fp} :
    Ensures cs T inst (yCanonicity cfg.yCanon y lsb) fun x => ∃ k,
      NoteCommit.yCanonicity k (T y.cell) (T x.cell) := by
  refine ens_bind ens_witnessShort fun k0 hk0 => ?_
  refine ens_bind ens_witnessShort fun k2 hk2 => ?_
  refine ens_bind ens_witnessCheck fun zs hzs => ?_
  refine ens_bind ens_canonBitshift130 fun x hx => ?_
  obtain ⟨z, hz, hz0, hz13⟩ := hx
  refine ens_mono (ens_assign_yCanon hg) ?_
  rintro lsb ⟨k3, h⟩
  rw [hz0, hz13] at h
  exact ⟨⟨T k0.cell, T k2.cell, k3, fun i => T (zs i).cell, z⟩, hk0, hk2, hzs, hz, h⟩

omit hg in
theorem ens_decomposeB {gd pkd : PointCells} : Ensures cs T inst (DecomposeB.decompose gd pkd)
    fun x => x.1.words = 1 ∧ ShortCheck 4 (T x.2.1.cell) ∧ ShortCheck 4 (T x.2.2.2.2.cell) := by
  refine ens_bind ens_witnessShort fun b0 hb0 => ?_
  refine ens_bind ens_witnessShort fun b3 hb3 => ?_
  refine ens_bind (ens_messagePiece 1 (by simp)) fun b hb => ?_
  exact ens_pure ⟨hb, hb0, hb3⟩

omit hg in
theorem ens_decomposeD {pkd : PointCells} {v : Assigned} :
    Ensures cs T inst (DecomposeD.decompose pkd v)
      fun x => x.1.words = 6 ∧ ShortCheck 8 (T x.2.2.2.cell) := by
  refine ens_bind ens_witnessShort fun d2 hd2 => ?_
  refine ens_bind (ens_messagePiece 6 (by simp)) fun d hd => ?_
  exact ens_pure ⟨hd, hd2⟩

omit hg in
theorem ens_decomposeE {v rho : Assigned} : Ensures cs T inst (DecomposeE.decompose v rho)
    fun x => x.1.words = 1 ∧ ShortCheck 6 (T x.2.1.cell) ∧ ShortCheck 4 (T x.2.2.cell) := by
  refine ens_bind ens_witnessShort fun e0 he0 => ?_
  refine ens_bind ens_witnessShort fun e1 he1 => ?_
  refine ens_bind (ens_messagePiece 1 (by simp)) fun e he => ?_
  exact ens_pure ⟨he, he0, he1⟩

omit hg in
theorem ens_decomposeG {rho psi : Assigned} : Ensures cs T inst (DecomposeG.decompose rho psi)
    fun x => x.1.words = 25 ∧ ShortCheck 9 (T x.2.2.cell) := by
  refine ens_bind ens_witnessShort fun g1 hg1 => ?_
  refine ens_bind (ens_messagePiece 25 (by simp)) fun g hg => ?_
  exact ens_pure ⟨hg, hg1⟩

omit hg in
theorem ens_decomposeH {psi : Assigned} : Ensures cs T inst (DecomposeH.decompose psi)
    fun x => x.1.words = 1 ∧ ShortCheck 5 (T x.2.1.cell) := by
  refine ens_bind ens_witnessShort fun h0 hh0 => ?_
  refine ens_bind (ens_messagePiece 1 (by simp)) fun h hh => ?_
  exact ens_pure ⟨hh, hh0⟩

theorem ens_noteCommit {P : Prims} {gd pkd : PointCells} {value rho psi : Assigned} {rcm : Fq}
    {A B : Point} (hA : IsPoint T gd A) (hB : IsPoint T pkd B) :
    Ensures cs T inst (noteCommit P cfg gd pkd value rho psi rcm) fun cm => ∃ k r,
      NoteCommit.gadget P false k A B (T value.cell) (T rho.cell) (T psi.cell) r
        (T cm.x, T cm.y) := by
  refine ens_bind (ens_messagePiece 25 (by simp)) fun a ha => ?_
  refine ens_bind ens_decomposeB ?_
  rintro ⟨b, b0, b1, b2, b3⟩ ⟨hb, hb0, hb3⟩
  refine ens_bind (ens_messagePiece 25 (by simp)) fun c hc => ?_
  refine ens_bind ens_decomposeD ?_
  rintro ⟨d, d0, d1, d2⟩ ⟨hd, hd2⟩
  refine ens_bind ens_decomposeE ?_
  rintro ⟨e, e0, e1⟩ ⟨he, he0, he1⟩
  refine ens_bind (ens_messagePiece 25 (by simp)) fun f hf => ?_
  refine ens_bind ens_decomposeG ?_
  rintro ⟨g, g0, g1⟩ ⟨hgw, hg1⟩
  refine ens_bind ens_decomposeH ?_
  rintro ⟨h, h0, h1⟩ ⟨hh, hh0⟩
  refine ens_bind (ens_yCanonicity hg) ?_
  rintro b2 ⟨yGd, hyGd⟩
  refine ens_bind (ens_yCanonicity hg) ?_
  rintro d1 ⟨yPkd, hyPkd⟩
  refine ens_bind ens_sinsemillaCommit ?_
  rintro ⟨cm, zs⟩ ⟨r, zz, hcom, hz⟩
  refine ens_bind ens_canonBitshift130 ?_
  rintro ⟨aPrime, z13aPrime⟩ ⟨aP, haP, ha0, ha13⟩
  refine ens_bind ens_pkdXCanonicity ?_
  rintro ⟨b3cPrime, z14b3cPrime⟩ ⟨bP, hbP, hbP0, hbP14⟩
  refine ens_bind ens_rhoCanonicity ?_
  rintro ⟨e1fPrime, z14e1fPrime⟩ ⟨eP, heP, heP0, heP14⟩
  refine ens_bind ens_psiCanonicity ?_
  rintro ⟨g1g2Prime, z13g1g2Prime⟩ ⟨gP, hgP, hgP0, hgP13⟩
  refine ens_bind (ens_assign_b hg) fun b1 gB => ?_
  refine ens_bind (ens_assign_d hg) fun d0 gD => ?_
  refine ens_bind (ens_assign_e hg) fun _ gE => ?_
  refine ens_bind (ens_assign_g hg) fun g0 gG => ?_
  refine ens_bind (ens_assign_h hg) fun h1 gH => ?_
  refine ens_bind (ens_assign_gd hg) fun _ gGd => ?_
  refine ens_bind (ens_assign_pkd hg) fun _ gPkd => ?_
  refine ens_bind (ens_assign_value hg) fun _ gValue => ?_
  refine ens_bind (ens_assign_rho hg) fun _ gRho => ?_
  refine ens_bind (ens_assign_psi hg) fun _ gPsi => ?_
  have z0 := hz 0 a rfl
  have z1 := hz 1 b rfl
  have z2 := hz 2 c rfl
  have z3 := hz 3 d rfl
  have z4 := hz 4 e rfl
  have z5 := hz 5 f rfl
  have z6 := hz 6 g rfl
  have z7 := hz 7 h rfl
  dsimp only at *
  rw [ha] at z0
  rw [hb] at z1
  rw [hc] at z2
  rw [hd] at z3
  rw [he] at z4
  rw [hf] at z5
  rw [hgw] at z6
  rw [hh] at z7
  have y0 := z0.1 (by norm_num)
  have y1 := z1.1 (by norm_num)
  have y2 := z2.1 (by norm_num)
  have y3 := z3.1 (by norm_num)
  have y4 := z4.1 (by norm_num)
  have y5 := z5.1 (by norm_num)
  have y6 := z6.1 (by norm_num)
  have y7 := z7.1 (by norm_num)
  refine ens_pure ⟨⟨zz 0, zz 1, zz 2, zz 3, zz 4, zz 5, zz 6, zz 7, T b0.cell, T b1.cell, T b2.cell,
    T b3.cell, T d0.cell, T d1.cell, T d2.cell, T e0.cell, T e1.cell, T g0.cell, T g1.cell,
    T h0.cell, T h1.cell, yGd, yPkd, aP, bP, eP, gP⟩, r, hb0, hb3, hd2, he0, he1, hg1, hh0,
    ?_, ?_, ?_, haP, hbP, heP, hgP, ?_, ?_, ?_, ?_, ?_, ?_, ?_, ?_, ?_, ?_⟩
  · rw [← hA.2]; exact hyGd
  · rw [← hB.2]; exact hyPkd
  · have : [a, b, c, d, e, f, g, h].zipIdx =
        [(a, 0), (b, 1), (c, 2), (d, 3), (e, 4), (f, 5), (g, 6), (h, 7)] := rfl
    rw [this] at hcom
    simp only [List.map_cons, List.map_nil, ha, hb, hc, hd, he, hf, hgw, hh] at hcom
    exact hcom
  · dsimp only
    rw [y1]
    exact gB
  · dsimp only
    rw [y3, z3.2 1 (by norm_num)]
    exact gD
  · dsimp only
    rw [y4]
    exact gE
  · dsimp only
    rw [y6, z6.2 1 (by norm_num)]
    exact gG
  · dsimp only
    rw [y7]
    exact gH
  · dsimp only
    rw [y0, z0.2 13 (by norm_num), ← ha0, ← ha13, ← hA.1]
    exact gGd
  · dsimp only
    rw [y2, z2.2 13 (by norm_num), ← hbP0, ← hbP14, ← hB.1]
    exact gPkd
  · dsimp only
    rw [z3.2 1 (by norm_num)]
    exact gValue
  · dsimp only
    rw [y5, z5.2 13 (by norm_num), ← heP0, ← heP14]
    exact gRho
  · dsimp only
    rw [z6.2 1 (by norm_num), z6.2 13 (by norm_num), ← hgP0, ← hgP13]
    exact gPsi

end Layout

end Orchard
