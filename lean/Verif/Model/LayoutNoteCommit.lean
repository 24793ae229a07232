import Verif.Model.Layout

/-!
# Table layout of `/repo/src/circuit/note_commit.rs`

See `Verif/Model/Layout.lean`.
-/

namespace Orchard

namespace Layout

open Halo2

/-! ### Message pieces -/

/-- `note_commit.rs:66-71` -/
structure DecomposeB where
  q : Selector
  colL : Column
  colM : Column
  colR : Column

/-- `note_commit.rs:74-119` -/
def DecomposeB.configure (colL colM colR : Column) (twoPow4 twoPow5 twoPow6 : Fp) :
    ConfigureM DecomposeB := do
  let q ← newSelector
  createGate q fun query =>
    let b := query colL .cur
    let b0 := query colM .cur
    let b1 := query colR .cur
    let b2 := query colM .next
    let b3 := query colR .next
    let decompositionCheck := b - (b0 + b1 * twoPow4 + b2 * twoPow5 + b3 * twoPow6)
    [boolCheck b1, boolCheck b2, decompositionCheck]
  pure { q := q, colL := colL, colM := colM, colR := colR }

/-- `note_commit.rs:122-167` -/
def DecomposeB.decompose (gd pkd : PointCells) :
    LayoutM (MessagePiece × Assigned × Fp × Fp × Assigned) := do
  let b0 ← witnessShort gd.xCell.value 250 254
  let b1 := bitrange gd.xCell.value 254 255
  let b2 := bitrange gd.yCell.value 0 1
  let b3 ← witnessShort pkd.xCell.value 0 4
  let b ← messagePiece [(4, b0.value), (1, b1), (1, b2), (4, b3.value)]
  pure (b, b0, b1, b2, b3)

/-- `note_commit.rs:169-198` -/
def DecomposeB.assign (cfg : DecomposeB) (b : MessagePiece) (b0 : Assigned) (b1 : Fp)
    (b2 b3 : Assigned) : LayoutM Assigned :=
  assignRegion fun region => do
    enable cfg.q region 0
    let _ ← copyAdvice b.cell region cfg.colL 0
    let _ ← copyAdvice b0 region cfg.colM 0
    let b1 ← assignAdvice region cfg.colR 0 b1
    let _ ← copyAdvice b2 region cfg.colM 1
    let _ ← copyAdvice b3 region cfg.colR 1
    pure b1

/-- `note_commit.rs:211-216` -/
structure DecomposeD where
  q : Selector
  colL : Column
  colM : Column
  colR : Column

/-- `note_commit.rs:219-264` -/
def DecomposeD.configure (colL colM colR : Column) (two twoPow2 twoPow10 : Fp) :
    ConfigureM DecomposeD := do
  let q ← newSelector
  createGate q fun query =>
    let d := query colL .cur
    let d0 := query colM .cur
    let d1 := query colR .cur
    let d2 := query colM .next
    let d3 := query colR .next
    let decompositionCheck := d - (d0 + d1 * two + d2 * twoPow2 + d3 * twoPow10)
    [boolCheck d0, boolCheck d1, decompositionCheck]
  pure { q := q, colL := colL, colM := colM, colR := colR }

/-- `note_commit.rs:267-306` -/
def DecomposeD.decompose (pkd : PointCells) (value : Assigned) :
    LayoutM (MessagePiece × Fp × Fp × Assigned) := do
  let d0 := bitrange pkd.xCell.value 254 255
  let d1 := bitrange pkd.yCell.value 0 1
  let d2 ← witnessShort value.value 0 8
  let d3 := bitrange value.value 8 58
  let d ← messagePiece [(1, d0), (1, d1), (8, d2.value), (50, d3)]
  pure (d, d0, d1, d2)

/-- `note_commit.rs:308-336` -/
def DecomposeD.assign (cfg : DecomposeD) (d : MessagePiece) (d0 : Fp) (d1 d2 z1d : Assigned) :
    LayoutM Assigned :=
  assignRegion fun region => do
    enable cfg.q region 0
    let _ ← copyAdvice d.cell region cfg.colL 0
    let d0 ← assignAdvice region cfg.colM 0 d0
    let _ ← copyAdvice d1 region cfg.colR 0
    let _ ← copyAdvice d2 region cfg.colM 1
    let _ ← copyAdvice z1d region cfg.colR 1
    pure d0

/-- `note_commit.rs:347-352` -/
structure DecomposeE where
  q : Selector
  colL : Column
  colM : Column
  colR : Column

/-- `note_commit.rs:355-386` -/
def DecomposeE.configure (colL colM colR : Column) (twoPow6 : Fp) : ConfigureM DecomposeE := do
  let q ← newSelector
  createGate q fun query =>
    let e := query colL .cur
    let e0 := query colM .cur
    let e1 := query colR .cur
    let decompositionCheck := e - (e0 + e1 * twoPow6)
    [decompositionCheck]
  pure { q := q, colL := colL, colM := colM, colR := colR }

/-- `note_commit.rs:389-428` -/
def DecomposeE.decompose (value rho : Assigned) : LayoutM (MessagePiece × Assigned × Assigned) := do
  let e0 ← witnessShort value.value 58 64
  let e1 ← witnessShort rho.value 0 4
  let e ← messagePiece [(6, e0.value), (4, e1.value)]
  pure (e, e0, e1)

/-- `note_commit.rs:430-453` -/
def DecomposeE.assign (cfg : DecomposeE) (e : MessagePiece) (e0 e1 : Assigned) : LayoutM Unit :=
  assignRegion fun region => do
    enable cfg.q region 0
    let _ ← copyAdvice e.cell region cfg.colL 0
    let _ ← copyAdvice e0 region cfg.colM 0
    let _ ← copyAdvice e1 region cfg.colR 0

/-- `note_commit.rs:466-470` -/
structure DecomposeG where
  q : Selector
  colL : Column
  colM : Column

/-- `note_commit.rs:473-511` -/
def DecomposeG.configure (colL colM : Column) (two twoPow10 : Fp) : ConfigureM DecomposeG := do
  let q ← newSelector
  createGate q fun query =>
    let g := query colL .cur
    let g0 := query colM .cur
    let g1 := query colL .next
    let g2 := query colM .next
    let decompositionCheck := g - (g0 + g1 * two + g2 * twoPow10)
    [boolCheck g0, decompositionCheck]
  pure { q := q, colL := colL, colM := colM }

/-- `note_commit.rs:514-549` -/
def DecomposeG.decompose (rho psi : Assigned) : LayoutM (MessagePiece × Fp × Assigned) := do
  let g0 := bitrange rho.value 254 255
  let g1 ← witnessShort psi.value 0 9
  let g2 := bitrange psi.value 9 249
  let g ← messagePiece [(1, g0), (9, g1.value), (240, g2)]
  pure (g, g0, g1)

/-- `note_commit.rs:551-576` -/
def DecomposeG.assign (cfg : DecomposeG) (g : MessagePiece) (g0 : Fp) (g1 z1g : Assigned) :
    LayoutM Assigned :=
  assignRegion fun region => do
    enable cfg.q region 0
    let _ ← copyAdvice g.cell region cfg.colL 0
    let g0 ← assignAdvice region cfg.colM 0 g0
    let _ ← copyAdvice g1 region cfg.colL 1
    let _ ← copyAdvice z1g region cfg.colM 1
    pure g0

/-- `note_commit.rs:588-593` -/
structure DecomposeH where
  q : Selector
  colL : Column
  colM : Column
  colR : Column

/-- `note_commit.rs:596-633` -/
def DecomposeH.configure (colL colM colR : Column) (twoPow5 : Fp) : ConfigureM DecomposeH := do
  let q ← newSelector
  createGate q fun query =>
    let h := query colL .cur
    let h0 := query colM .cur
    let h1 := query colR .cur
    let decompositionCheck := h - (h0 + h1 * twoPow5)
    [boolCheck h1, decompositionCheck]
  pure { q := q, colL := colL, colM := colM, colR := colR }

/-- `note_commit.rs:636-671` -/
def DecomposeH.decompose (psi : Assigned) : LayoutM (MessagePiece × Assigned × Fp) := do
  let h0 ← witnessShort psi.value 249 254
  let h1 := bitrange psi.value 254 255
  let h ← messagePiece [(5, h0.value), (1, h1), (4, bitrange 0 0 4)]
  pure (h, h0, h1)

/-- `note_commit.rs:673-695` -/
def DecomposeH.assign (cfg : DecomposeH) (h : MessagePiece) (h0 : Assigned) (h1 : Fp) :
    LayoutM Assigned :=
  assignRegion fun region => do
    enable cfg.q region 0
    let _ ← copyAdvice h.cell region cfg.colL 0
    let _ ← copyAdvice h0 region cfg.colM 0
    let h1 ← assignAdvice region cfg.colR 0 h1
    pure h1

/-! ### Canonicity of the inputs -/

/-- `note_commit.rs:705-711` -/
structure GdCanonicity where
  q : Selector
  colL : Column
  colM : Column
  colR : Column
  colZ : Column

/-- `note_commit.rs:715-778` -/
def GdCanonicity.configure (colL colM colR colZ : Column) (twoPow130 twoPow250 twoPow254 tP : Fp) :
    ConfigureM GdCanonicity := do
  let q ← newSelector
  createGate q fun query =>
    let gdX := query colL .cur
    let b0 := query colM .cur
    let b1 := query colM .next
    let a := query colR .cur
    let aPrime := query colR .next
    let z13a := query colZ .cur
    let z13aPrime := query colZ .next
    let decompositionCheck := a + b0 * twoPow250 + b1 * twoPow254 - gdX
    let aPrimeCheck := a + twoPow130 - tP - aPrime
    [decompositionCheck, aPrimeCheck] ++ [b0, z13a, z13aPrime].map fun poly => b1 * poly
  pure { q := q, colL := colL, colM := colM, colR := colR, colZ := colZ }

/-- `note_commit.rs:781-812` -/
def GdCanonicity.assign (cfg : GdCanonicity) (gd : PointCells) (a : MessagePiece)
    (b0 b1 aPrime z13a z13aPrime : Assigned) : LayoutM Unit :=
  assignRegion fun region => do
    let _ ← copyAdvice gd.xCell region cfg.colL 0
    let _ ← copyAdvice b0 region cfg.colM 0
    let _ ← copyAdvice b1 region cfg.colM 1
    let _ ← copyAdvice a.cell region cfg.colR 0
    let _ ← copyAdvice aPrime region cfg.colR 1
    let _ ← copyAdvice z13a region cfg.colZ 0
    let _ ← copyAdvice z13aPrime region cfg.colZ 1
    enable cfg.q region 0

/-- `note_commit.rs:822-828` -/
structure PkdCanonicity where
  q : Selector
  colL : Column
  colM : Column
  colR : Column
  colZ : Column

/-- `note_commit.rs:832-894` -/
def PkdCanonicity.configure (colL colM colR colZ : Column) (twoPow4 twoPow140 twoPow254 tP : Fp) :
    ConfigureM PkdCanonicity := do
  let q ← newSelector
  createGate q fun query =>
    let pkdX := query colL .cur
    let b3 := query colM .cur
    let d0 := query colM .next
    let c := query colR .cur
    let b3cPrime := query colR .next
    let z13c := query colZ .cur
    let z14b3cPrime := query colZ .next
    let decompositionCheck := b3 + c * twoPow4 + d0 * twoPow254 - pkdX
    let b3cPrimeCheck := b3 + c * twoPow4 + twoPow140 - tP - b3cPrime
    [decompositionCheck, b3cPrimeCheck] ++ [z13c, z14b3cPrime].map fun poly => d0 * poly
  pure { q := q, colL := colL, colM := colM, colR := colR, colZ := colZ }

/-- `note_commit.rs:897-929` -/
def PkdCanonicity.assign (cfg : PkdCanonicity) (pkd : PointCells) (b3 : Assigned) (c : MessagePiece)
    (d0 b3cPrime z13c z14b3cPrime : Assigned) : LayoutM Unit :=
  assignRegion fun region => do
    let _ ← copyAdvice pkd.xCell region cfg.colL 0
    let _ ← copyAdvice b3 region cfg.colM 0
    let _ ← copyAdvice d0 region cfg.colM 1
    let _ ← copyAdvice c.cell region cfg.colR 0
    let _ ← copyAdvice b3cPrime region cfg.colR 1
    let _ ← copyAdvice z13c region cfg.colZ 0
    let _ ← copyAdvice z14b3cPrime region cfg.colZ 1
    enable cfg.q region 0

/-- `note_commit.rs:938-944` -/
structure ValueCanonicity where
  q : Selector
  colL : Column
  colM : Column
  colR : Column
  colZ : Column

/-- `note_commit.rs:947-983` -/
def ValueCanonicity.configure (colL colM colR colZ : Column) (twoPow8 twoPow58 : Fp) :
    ConfigureM ValueCanonicity := do
  let q ← newSelector
  createGate q fun query =>
    let value := query colL .cur
    let d2 := query colM .cur
    let z1d := query colR .cur
    let d3 := z1d
    let e0 := query colZ .cur
    let valueCheck := d2 + d3 * twoPow8 + e0 * twoPow58 - value
    [valueCheck]
  pure { q := q, colL := colL, colM := colM, colR := colR, colZ := colZ }

/-- `note_commit.rs:985-1006` -/
def ValueCanonicity.assign (cfg : ValueCanonicity) (value d2 z1d e0 : Assigned) : LayoutM Unit :=
  assignRegion fun region => do
    let _ ← copyAdvice value region cfg.colL 0
    let _ ← copyAdvice d2 region cfg.colM 0
    let _ ← copyAdvice z1d region cfg.colR 0
    let _ ← copyAdvice e0 region cfg.colZ 0
    enable cfg.q region 0

/-- `note_commit.rs:1016-1022` -/
structure RhoCanonicity where
  q : Selector
  colL : Column
  colM : Column
  colR : Column
  colZ : Column

/-- `note_commit.rs:1026-1087` -/
def RhoCanonicity.configure (colL colM colR colZ : Column) (twoPow4 twoPow140 twoPow254 tP : Fp) :
    ConfigureM RhoCanonicity := do
  let q ← newSelector
  createGate q fun query =>
    let rho := query colL .cur
    let e1 := query colM .cur
    let g0 := query colM .next
    let f := query colR .cur
    let e1fPrime := query colR .next
    let z13f := query colZ .cur
    let z14e1fPrime := query colZ .next
    let decompositionCheck := e1 + f * twoPow4 + g0 * twoPow254 - rho
    let e1fPrimeCheck := e1 + f * twoPow4 + twoPow140 - tP - e1fPrime
    [decompositionCheck, e1fPrimeCheck] ++ [z13f, z14e1fPrime].map fun poly => g0 * poly
  pure { q := q, colL := colL, colM := colM, colR := colR, colZ := colZ }

/-- `note_commit.rs:1090-1121` -/
def RhoCanonicity.assign (cfg : RhoCanonicity) (rho e1 : Assigned) (f : MessagePiece)
    (g0 e1fPrime z13f z14e1fPrime : Assigned) : LayoutM Unit :=
  assignRegion fun region => do
    let _ ← copyAdvice rho region cfg.colL 0
    let _ ← copyAdvice e1 region cfg.colM 0
    let _ ← copyAdvice g0 region cfg.colM 1
    let _ ← copyAdvice f.cell region cfg.colR 0
    let _ ← copyAdvice e1fPrime region cfg.colR 1
    let _ ← copyAdvice z13f region cfg.colZ 0
    let _ ← copyAdvice z14e1fPrime region cfg.colZ 1
    enable cfg.q region 0

/-- `note_commit.rs:1131-1137` -/
structure PsiCanonicity where
  q : Selector
  colL : Column
  colM : Column
  colR : Column
  colZ : Column

/-- `note_commit.rs:1141-1207` -/
def PsiCanonicity.configure (colL colM colR colZ : Column)
    (twoPow9 twoPow130 twoPow249 twoPow254 tP : Fp) : ConfigureM PsiCanonicity := do
  let q ← newSelector
  createGate q fun query =>
    let psi := query colL .cur
    let h0 := query colL .next
    let g1 := query colM .cur
    let h1 := query colM .next
    let z1g := query colR .cur
    let g2 := z1g
    let g1g2Prime := query colR .next
    let z13g := query colZ .cur
    let z13g1g2Prime := query colZ .next
    let decompositionCheck := g1 + g2 * twoPow9 + h0 * twoPow249 + h1 * twoPow254 - psi
    let g1g2PrimeCheck := g1 + g2 * twoPow9 + twoPow130 - tP - g1g2Prime
    [decompositionCheck, g1g2PrimeCheck] ++ [h0, z13g, z13g1g2Prime].map fun poly => h1 * poly
  pure { q := q, colL := colL, colM := colM, colR := colR, colZ := colZ }

/-- `note_commit.rs:1210-1242` -/
def PsiCanonicity.assign (cfg : PsiCanonicity) (psi g1 z1g h0 h1 g1g2Prime z13g z13g1g2Prime : Assigned) :
    LayoutM Unit :=
  assignRegion fun region => do
    let _ ← copyAdvice psi region cfg.colL 0
    let _ ← copyAdvice h0 region cfg.colL 1
    let _ ← copyAdvice g1 region cfg.colM 0
    let _ ← copyAdvice h1 region cfg.colM 1
    let _ ← copyAdvice z1g region cfg.colR 0
    let _ ← copyAdvice g1g2Prime region cfg.colR 1
    let _ ← copyAdvice z13g region cfg.colZ 0
    let _ ← copyAdvice z13g1g2Prime region cfg.colZ 1
    enable cfg.q region 0

/-- `note_commit.rs:1258-1261` -/
structure YCanonicity where
  q : Selector
  advices : ℕ → Column

/-- `note_commit.rs:1265-1334` -/
def YCanonicity.configure (advices : ℕ → Column)
    (two twoPow10 twoPow130 twoPow250 twoPow254 tP : Fp) : ConfigureM YCanonicity := do
  let q ← newSelector
  createGate q fun query =>
    let y := query (advices 5) .cur
    let lsb := query (advices 6) .cur
    let k0 := query (advices 7) .cur
    let k2 := query (advices 8) .cur
    let k3 := query (advices 9) .cur
    let j := query (advices 5) .next
    let z1j := query (advices 6) .next
    let z13j := query (advices 7) .next
    let jPrime := query (advices 8) .next
    let z13jPrime := query (advices 9) .next
    let k3Check := boolCheck k3
    let k1 := z1j
    let jCheck := j - (lsb + k0 * two + k1 * twoPow10)
    let yCheck := y - (j + k2 * twoPow250 + k3 * twoPow254)
    let jPrimeCheck := j + twoPow130 - tP - jPrime
    [k3Check, jCheck, yCheck, jPrimeCheck] ++ [k2, z13j, z13jPrime].map fun poly => k3 * poly
  pure { q := q, advices := advices }

/-- `note_commit.rs:1337-1410` -/
def YCanonicity.assign (cfg : YCanonicity) (y : Assigned) (lsb : Fp) (k0 k2 : Assigned) (k3 : Fp)
    (j z1j z13j jPrime z13jPrime : Assigned) : LayoutM Assigned :=
  assignRegion fun region => do
    enable cfg.q region 0
    -- offset 0
    let _ ← copyAdvice y region (cfg.advices 5) 0
    let lsb ← assignAdvice region (cfg.advices 6) 0 lsb
    let _ ← copyAdvice k0 region (cfg.advices 7) 0
    let _ ← copyAdvice k2 region (cfg.advices 8) 0
    let _ ← assignAdvice region (cfg.advices 9) 0 k3
    -- offset 1
    let _ ← copyAdvice j region (cfg.advices 5) 1
    let _ ← copyAdvice z1j region (cfg.advices 6) 1
    let _ ← copyAdvice z13j region (cfg.advices 7) 1
    let _ ← copyAdvice jPrime region (cfg.advices 8) 1
    let _ ← copyAdvice z13jPrime region (cfg.advices 9) 1
    pure lsb

/-- `note_commit.rs:1415-1430`, without the Sinsemilla configuration. -/
structure NoteCommitConfig where
  b : DecomposeB
  d : DecomposeD
  e : DecomposeE
  g : DecomposeG
  h : DecomposeH
  gd : GdCanonicity
  pkd : PkdCanonicity
  value : ValueCanonicity
  rho : RhoCanonicity
  psi : PsiCanonicity
  yCanon : YCanonicity

/-- `note_commit.rs:1440-1557` `NoteCommitChip::configure` -/
def NoteCommitConfig.configure (advices : ℕ → Column) : ConfigureM NoteCommitConfig := do
  let two : Fp := ((2 : ℕ) : Fp)
  let twoPow2 : Fp := ((1 <<< 2 : ℕ) : Fp)
  let twoPow4 := twoPow2 ^ 2
  let twoPow5 := twoPow4 * two
  let twoPow6 := twoPow5 * two
  let twoPow8 := twoPow4 ^ 2
  let twoPow9 := twoPow8 * two
  let twoPow10 := twoPow9 * two
  let twoPow58 : Fp := ((1 <<< 58 : ℕ) : Fp)
  let twoPow130 : Fp := ((1 <<< 65 : ℕ) : Fp) ^ 2
  let twoPow140 : Fp := ((1 <<< 70 : ℕ) : Fp) ^ 2
  let twoPow249 := ((1 <<< 124 : ℕ) : Fp) ^ 2 * two
  let twoPow250 := twoPow249 * two
  let twoPow254 : Fp := ((1 <<< 127 : ℕ) : Fp) ^ 2
  let tP : Fp := (Constants.T_P : Fp)
  let colL := advices 6
  let colM := advices 7
  let colR := advices 8
  let colZ := advices 9
  let b ← DecomposeB.configure colL colM colR twoPow4 twoPow5 twoPow6
  let d ← DecomposeD.configure colL colM colR two twoPow2 twoPow10
  let e ← DecomposeE.configure colL colM colR twoPow6
  let g ← DecomposeG.configure colL colM two twoPow10
  let h ← DecomposeH.configure colL colM colR twoPow5
  let gd ← GdCanonicity.configure colL colM colR colZ twoPow130 twoPow250 twoPow254 tP
  let pkd ← PkdCanonicity.configure colL colM colR colZ twoPow4 twoPow140 twoPow254 tP
  let value ← ValueCanonicity.configure colL colM colR colZ twoPow8 twoPow58
  let rho ← RhoCanonicity.configure colL colM colR colZ twoPow4 twoPow140 twoPow254 tP
  let psi ← PsiCanonicity.configure colL colM colR colZ twoPow9 twoPow130 twoPow249 twoPow254 tP
  let yCanon ← YCanonicity.configure advices two twoPow10 twoPow130 twoPow250 twoPow254 tP
  pure { b := b, d := d, e := e, g := g, h := h, gd := gd, pkd := pkd, value := value, rho := rho,
         psi := psi, yCanon := yCanon }

/-! ### The gadget -/

/-- `note_commit.rs:1782-1811` `canon_bitshift_130` -/
def canonBitshift130 (a : Assigned) : LayoutM (Assigned × Assigned) := do
  let twoPow130 : Fp := ((1 <<< 65 : ℕ) : Fp) ^ 2
  let tP : Fp := (Constants.T_P : Fp)
  let zs ← witnessCheck (a.value + twoPow130 - tP) 13 false
  pure (zs 0, zs 13)

/-- `note_commit.rs:1816-1852` `pkd_x_canonicity` -/
def pkdXCanonicity (b3 c : Assigned) : LayoutM (Assigned × Assigned) := do
  let twoPow4 : Fp := ((1 <<< 4 : ℕ) : Fp)
  let twoPow140 : Fp := ((1 <<< 70 : ℕ) : Fp) ^ 2
  let tP : Fp := (Constants.T_P : Fp)
  let zs ← witnessCheck (b3.value + twoPow4 * c.value + twoPow140 - tP) 14 false
  pure (zs 0, zs 14)

/-- `note_commit.rs:1857-1893` `rho_canonicity` -/
def rhoCanonicity (e1 f : Assigned) : LayoutM (Assigned × Assigned) := do
  let twoPow4 : Fp := ((1 <<< 4 : ℕ) : Fp)
  let twoPow140 : Fp := ((1 <<< 70 : ℕ) : Fp) ^ 2
  let tP : Fp := (Constants.T_P : Fp)
  let zs ← witnessCheck (e1.value + twoPow4 * f.value + twoPow140 - tP) 14 false
  pure (zs 0, zs 14)

/-- `note_commit.rs:1898-1932` `psi_canonicity` -/
def psiCanonicity (g1 g2 : Assigned) : LayoutM (Assigned × Assigned) := do
  let twoPow9 : Fp := ((1 <<< 9 : ℕ) : Fp)
  let twoPow130 : Fp := ((1 <<< 65 : ℕ) : Fp) ^ 2
  let tP : Fp := (Constants.T_P : Fp)
  let zs ← witnessCheck (g1.value + twoPow9 * g2.value + twoPow130 - tP) 13 false
  pure (zs 0, zs 13)

/-- `note_commit.rs:1940-2011` `y_canonicity` -/
def yCanonicity (cfg : YCanonicity) (y : Assigned) (lsb : Fp) : LayoutM Assigned := do
  let k0 ← witnessShort y.value 1 10
  let k1 := bitrange y.value 10 250
  let k2 ← witnessShort y.value 250 254
  let k3 := bitrange y.value 254 255
  let two : Fp := ((2 : ℕ) : Fp)
  let twoPow10 : Fp := ((1 <<< 10 : ℕ) : Fp)
  let zs ← witnessCheck (lsb + two * k0.value + twoPow10 * k1) 25 true
  let (jPrime, z13jPrime) ← canonBitshift130 (zs 0)
  cfg.assign y lsb k0 k2 k3 (zs 0) (zs 1) (zs 13) jPrime z13jPrime

/-- `note_commit.rs:1572-1775` `note_commit` -/
noncomputable def noteCommit (P : Prims) (cfg : NoteCommitConfig) (gd pkd : PointCells)
    (value rho psi : Assigned) (rcm : Fq) : LayoutM PointCells := do
  let a ← messagePiece [(250, bitrange gd.xCell.value 0 250)]
  let (b, b0, b1, b2, b3) ← DecomposeB.decompose gd pkd
  let c ← messagePiece [(250, bitrange pkd.xCell.value 4 254)]
  let (d, d0, d1, d2) ← DecomposeD.decompose pkd value
  let (e, e0, e1) ← DecomposeE.decompose value rho
  let f ← messagePiece [(250, bitrange rho.value 4 254)]
  let (g, g0, g1) ← DecomposeG.decompose rho psi
  let (h, h0, h1) ← DecomposeH.decompose psi
  let b2 ← yCanonicity cfg.yCanon gd.yCell b2
  let d1 ← yCanonicity cfg.yCanon pkd.yCell d1
  let (cm, zs) ← sinsemillaCommit P Constants.qNoteCommit Constants.noteCommitR
    [a, b, c, d, e, f, g, h] rcm
  let z13a := zs 0 13
  let z13c := zs 2 13
  let z1d := zs 3 1
  let z13f := zs 5 13
  let z1g := zs 6 1
  let g2 := z1g
  let z13g := zs 6 13
  let (aPrime, z13aPrime) ← canonBitshift130 a.cell
  let (b3cPrime, z14b3cPrime) ← pkdXCanonicity b3 c.cell
  let (e1fPrime, z14e1fPrime) ← rhoCanonicity e1 f.cell
  let (g1g2Prime, z13g1g2Prime) ← psiCanonicity g1 g2
  let b1 ← cfg.b.assign b b0 b1 b2 b3
  let d0 ← cfg.d.assign d d0 d1 d2 z1d
  cfg.e.assign e e0 e1
  let g0 ← cfg.g.assign g g0 g1 z1g
  let h1 ← cfg.h.assign h h0 h1
  cfg.gd.assign gd a b0 b1 aPrime z13a z13aPrime
  cfg.pkd.assign pkd b3 c d0 b3cPrime z13c z14b3cPrime
  cfg.value.assign value d2 z1d e0
  cfg.rho.assign rho e1 f g0 e1fPrime z13f z14e1fPrime
  cfg.psi.assign psi g1 z1g h0 h1 g1g2Prime z13g z13g1g2Prime
  pure cm

end Layout

end Orchard
