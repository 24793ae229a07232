import Verif.Model.Halo2

/-!
# Model of `/repo/src/circuit/note_commit.rs`

Conventions as in `Verif/Model/CommitIvk.lean`.  Each gate is the list of its polynomials; the
arguments are the cells it queries.  The constants (`note_commit.rs:1450-1465`) are written as powers
of two.
-/

namespace Orchard

open Halo2

namespace NoteCommit

/-- `note_commit.rs:85-111`, gate "NoteCommit MessagePiece b". -/
def gateB (b b0 b1 b2 b3 : Fp) : List Fp :=
  [boolCheck b1, boolCheck b2, b - (b0 + b1 * 2 ^ 4 + b2 * 2 ^ 5 + b3 * 2 ^ 6)]

/-- `note_commit.rs:230-256`, gate "NoteCommit MessagePiece d". -/
def gateD (d d0 d1 d2 d3 : Fp) : List Fp :=
  [boolCheck d0, boolCheck d1, d - (d0 + d1 * 2 + d2 * 2 ^ 2 + d3 * 2 ^ 10)]

/-- `note_commit.rs:364-378`, gate "NoteCommit MessagePiece e". -/
def gateE (e e0 e1 : Fp) : List Fp := [e - (e0 + e1 * 2 ^ 6)]

/-- `note_commit.rs:482-504`, gate "NoteCommit MessagePiece g". -/
def gateG (g g0 g1 g2 : Fp) : List Fp := [boolCheck g0, g - (g0 + g1 * 2 + g2 * 2 ^ 10)]

/-- `note_commit.rs:605-625`, gate "NoteCommit MessagePiece h". -/
def gateH (h h0 h1 : Fp) : List Fp := [boolCheck h1, h - (h0 + h1 * 2 ^ 5)]

/-- `note_commit.rs:728-769`, gate "NoteCommit input g_d". -/
def gateGd (gdX b0 b1 a aPrime z13a z13aPrime : Fp) : List Fp :=
  [ a + b0 * 2 ^ 250 + b1 * 2 ^ 254 - gdX,
    a + 2 ^ 130 - (Constants.T_P : Fp) - aPrime,
    b1 * b0, b1 * z13a, b1 * z13aPrime ]

/-- `note_commit.rs:845-885`, gate "NoteCommit input pk_d". -/
def gatePkd (pkdX b3 d0 c b3cPrime z13c z14b3cPrime : Fp) : List Fp :=
  [ b3 + c * 2 ^ 4 + d0 * 2 ^ 254 - pkdX,
    b3 + c * 2 ^ 4 + 2 ^ 140 - (Constants.T_P : Fp) - b3cPrime,
    d0 * z13c, d0 * z14b3cPrime ]

/-- `note_commit.rs:958-974`, gate "NoteCommit input value". -/
def gateValue (value d2 d3 e0 : Fp) : List Fp := [d2 + d3 * 2 ^ 8 + e0 * 2 ^ 58 - value]

/-- `note_commit.rs:1039-1078`, gate "NoteCommit input rho". -/
def gateRho (rho e1 g0 f e1fPrime z13f z14e1fPrime : Fp) : List Fp :=
  [ e1 + f * 2 ^ 4 + g0 * 2 ^ 254 - rho,
    e1 + f * 2 ^ 4 + 2 ^ 140 - (Constants.T_P : Fp) - e1fPrime,
    g0 * z13f, g0 * z14e1fPrime ]

/-- `note_commit.rs:1155-1198`, gate "NoteCommit input psi". -/
def gatePsi (psi h0 g1 h1 g2 g1g2Prime z13g z13g1g2Prime : Fp) : List Fp :=
  [ g1 + g2 * 2 ^ 9 + h0 * 2 ^ 249 + h1 * 2 ^ 254 - psi,
    g1 + g2 * 2 ^ 9 + 2 ^ 130 - (Constants.T_P : Fp) - g1g2Prime,
    h1 * h0, h1 * z13g, h1 * z13g1g2Prime ]

/-- `note_commit.rs:1277-1331`, gate "y coordinate checks". -/
def gateY (y lsb k0 k2 k3 j z1j z13j jPrime z13jPrime : Fp) : List Fp :=
  [ boolCheck k3,
    j - (lsb + k0 * 2 + z1j * 2 ^ 10),
    y - (j + k2 * 2 ^ 250 + k3 * 2 ^ 254),
    j + 2 ^ 130 - (Constants.T_P : Fp) - jPrime,
    k3 * k2, k3 * z13j, k3 * z13jPrime ]

/-- The cells witnessed by `y_canonicity` (`note_commit.rs:1940-2011`), apart from the low bit. -/
structure YCells where
  k0 : Fp
  k2 : Fp
  k3 : Fp
  j : ℕ → Fp
  jPrime : ℕ → Fp

/-- `note_commit.rs:1940-2011` `y_canonicity`, with `canon_bitshift_130` (1782-1811) and
`YCanonicity::assign` (1337-1412); `lsb` is the witnessed low bit it returns. -/
def yCanonicity (k : YCells) (y lsb : Fp) : Prop :=
  ShortCheck 9 k.k0 ∧ ShortCheck 4 k.k2 ∧ RangeCheck 25 true k.j ∧ RangeCheck 13 false k.jPrime ∧
    Gate (gateY y lsb k.k0 k.k2 k.k3 (k.j 0) (k.j 1) (k.j 13) (k.jPrime 0) (k.jPrime 13))

/-- The cells witnessed by `note_commit` (`note_commit.rs:1572-1775`): running sums of the message
pieces `a` to `h`, subpieces, and the running sums of the shifted values. -/
structure Cells where
  a : ℕ → Fp
  b : ℕ → Fp
  c : ℕ → Fp
  d : ℕ → Fp
  e : ℕ → Fp
  f : ℕ → Fp
  g : ℕ → Fp
  h : ℕ → Fp
  b0 : Fp
  b1 : Fp
  b2 : Fp
  b3 : Fp
  d0 : Fp
  d1 : Fp
  d2 : Fp
  e0 : Fp
  e1 : Fp
  g0 : Fp
  g1 : Fp
  h0 : Fp
  h1 : Fp
  yGd : YCells
  yPkd : YCells
  aPrime : ℕ → Fp
  b3cPrime : ℕ → Fp
  e1fPrime : ℕ → Fp
  g1g2Prime : ℕ → Fp

/-- The message `a, ..., h` (`note_commit.rs:1657-1669`); the piece sizes are those of the
subpieces. -/
def Cells.message (k : Cells) : List Piece :=
  [⟨250 / 10, k.a⟩, ⟨(4 + 1 + 1 + 4) / 10, k.b⟩, ⟨250 / 10, k.c⟩, ⟨(1 + 1 + 8 + 50) / 10, k.d⟩,
    ⟨(6 + 4) / 10, k.e⟩, ⟨250 / 10, k.f⟩, ⟨(1 + 9 + 240) / 10, k.g⟩, ⟨(5 + 1 + 4) / 10, k.h⟩]

/-- `note_commit.rs:1572-1775` `note_commit`, with the `decompose` functions (122-167, 267-306,
389-428, 514-549, 636-671), the canonicity functions (1782-1937) and the `assign` functions: all
constraints it puts on its arguments, cells and result. -/
def gadget (P : Prims) (strict : Bool) (k : Cells) (gd pkd : Point) (value rho psi : Fp) (rcm : Fq)
    (cm : Fp × Fp) : Prop :=
  -- subpieces
  ShortCheck 4 k.b0 ∧ ShortCheck 4 k.b3 ∧ ShortCheck 8 k.d2 ∧ ShortCheck 6 k.e0 ∧
  ShortCheck 4 k.e1 ∧ ShortCheck 9 k.g1 ∧ ShortCheck 5 k.h0 ∧
  -- `y` coordinates
  yCanonicity k.yGd (cellY gd) k.b2 ∧
  yCanonicity k.yPkd (cellY pkd) k.d1 ∧
  -- the commitment
  SinsemillaCommit P strict Constants.qNoteCommit Constants.noteCommitR k.message rcm cm ∧
  -- bounds
  RangeCheck 13 false k.aPrime ∧
  RangeCheck 14 false k.b3cPrime ∧
  RangeCheck 14 false k.e1fPrime ∧
  RangeCheck 13 false k.g1g2Prime ∧
  -- gates
  Gate (gateB (k.b 0) k.b0 k.b1 k.b2 k.b3) ∧
  Gate (gateD (k.d 0) k.d0 k.d1 k.d2 (k.d 1)) ∧
  Gate (gateE (k.e 0) k.e0 k.e1) ∧
  Gate (gateG (k.g 0) k.g0 k.g1 (k.g 1)) ∧
  Gate (gateH (k.h 0) k.h0 k.h1) ∧
  Gate (gateGd (extractP gd) k.b0 k.b1 (k.a 0) (k.aPrime 0) (k.a 13) (k.aPrime 13)) ∧
  Gate (gatePkd (extractP pkd) k.b3 k.d0 (k.c 0) (k.b3cPrime 0) (k.c 13) (k.b3cPrime 14)) ∧
  Gate (gateValue value k.d2 (k.d 1) k.e0) ∧
  Gate (gateRho rho k.e1 k.g0 (k.f 0) (k.e1fPrime 0) (k.f 13) (k.e1fPrime 14)) ∧
  Gate (gatePsi psi k.h0 k.g1 k.h1 (k.g 1) (k.g1g2Prime 0) (k.g 13) (k.g1g2Prime 13))

/-- The values `y_canonicity` assigns (`note_commit.rs:1940-2011`). -/
def assignY (y lsb : Fp) : YCells :=
  let k0 := bitrange y 1 10
  let k1 := bitrange y 10 250
  let j := lsb + 2 * k0 + 2 ^ 10 * k1
  { k0 := k0, k2 := bitrange y 250 254, k3 := bitrange y 254 255, j := runningSumOf j,
    jPrime := runningSumOf (j + 2 ^ 130 - (Constants.T_P : Fp)) }

/-- The values `note_commit` assigns to its cells (`note_commit.rs:1572-1775` and the functions it
calls).  `d_3` and `g_2` are not cells of their own: the cells `z1_d` and `z1_g` are used, and the
values enter through the pieces. -/
def assign (gd pkd : Point) (value rho psi : Fp) : Cells :=
  let gdX := extractP gd
  let gdY := cellY gd
  let pkdX := extractP pkd
  let pkdY := cellY pkd
  let a := fromSubpieces [(250, bitrange gdX 0 250)]
  let b0 := bitrange gdX 250 254
  let b1 := bitrange gdX 254 255
  let b2 := bitrange gdY 0 1
  let b3 := bitrange pkdX 0 4
  let b := fromSubpieces [(4, b0), (1, b1), (1, b2), (4, b3)]
  let c := fromSubpieces [(250, bitrange pkdX 4 254)]
  let d0 := bitrange pkdX 254 255
  let d1 := bitrange pkdY 0 1
  let d2 := bitrange value 0 8
  let d := fromSubpieces [(1, d0), (1, d1), (8, d2), (50, bitrange value 8 58)]
  let e0 := bitrange value 58 64
  let e1 := bitrange rho 0 4
  let e := fromSubpieces [(6, e0), (4, e1)]
  let f := fromSubpieces [(250, bitrange rho 4 254)]
  let g0 := bitrange rho 254 255
  let g1 := bitrange psi 0 9
  let g := fromSubpieces [(1, g0), (9, g1), (240, bitrange psi 9 249)]
  let h0 := bitrange psi 249 254
  let h1 := bitrange psi 254 255
  let h := fromSubpieces [(5, h0), (1, h1), (4, bitrange 0 0 4)]
  { a := runningSumOf a, b := runningSumOf b, c := runningSumOf c, d := runningSumOf d,
    e := runningSumOf e, f := runningSumOf f, g := runningSumOf g, h := runningSumOf h,
    b0 := b0, b1 := b1, b2 := b2, b3 := b3, d0 := d0, d1 := d1, d2 := d2, e0 := e0, e1 := e1,
    g0 := g0, g1 := g1, h0 := h0, h1 := h1,
    yGd := assignY gdY b2, yPkd := assignY pkdY d1,
    aPrime := runningSumOf (a + 2 ^ 130 - (Constants.T_P : Fp)),
    b3cPrime := runningSumOf (b3 + 2 ^ 4 * c + 2 ^ 140 - (Constants.T_P : Fp)),
    e1fPrime := runningSumOf (e1 + 2 ^ 4 * f + 2 ^ 140 - (Constants.T_P : Fp)),
    g1g2Prime := runningSumOf (g1 + 2 ^ 9 * runningSumOf g 1 + 2 ^ 130 - (Constants.T_P : Fp)) }

end NoteCommit

end Orchard
