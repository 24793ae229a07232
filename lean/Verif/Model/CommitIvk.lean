import Verif.Model.Halo2

/-!
# Model of `/repo/src/circuit/commit_ivk.rs`

A chip's cells are the fields of a structure; copying a cell (`copy_advice`) makes two cells equal
and is modelled by using the same value.  Powers of two and `t_P` are written as such; the code
computes them by field arithmetic.
-/

namespace Orchard

open Halo2

namespace CommitIvk

/-- `commit_ivk.rs:67-220`, gate "CommitIvk canonicity check"; the arguments in the order of the
layout (`commit_ivk.rs:59-66`). -/
def gate (ak a b b0 b1 b2 z13a aPrime z13aPrime nk c d d0 d1 z13c b2cPrime z14b2cPrime : Fp) :
    List Fp :=
  [ boolCheck b1,
    boolCheck d1,
    b - (b0 + b1 * 2 ^ 4 + b2 * 2 ^ 5),
    d - (d0 + d1 * 2 ^ 9),
    a + b0 * 2 ^ 250 + b1 * 2 ^ 254 - ak,
    b2 + c * 2 ^ 5 + d0 * 2 ^ 245 + d1 * 2 ^ 254 - nk,
    -- `ak` canonicity
    b1 * b0,
    b1 * z13a,
    a + 2 ^ 130 - (Constants.T_P : Fp) - aPrime,
    b1 * z13aPrime,
    -- `nk` canonicity
    d1 * d0,
    d1 * z13c,
    b2 + c * 2 ^ 5 + 2 ^ 140 - (Constants.T_P : Fp) - b2cPrime,
    d1 * z14b2cPrime ]

/-- The cells witnessed by `commit_ivk` (`commit_ivk.rs:241-395`): the running sums of the message
pieces `a`, `b`, `c`, `d`, the subpieces, and the running sums of `a'` and `b2c'`. -/
structure Cells where
  a : ℕ → Fp
  b : ℕ → Fp
  c : ℕ → Fp
  d : ℕ → Fp
  b0 : Fp
  b1 : Fp
  b2 : Fp
  d0 : Fp
  d1 : Fp
  aPrime : ℕ → Fp
  b2cPrime : ℕ → Fp

/-- The message `a, b, c, d` (`commit_ivk.rs:341-344`); the piece sizes are those of the subpieces. -/
def Cells.message (k : Cells) : List Piece :=
  [⟨250 / 10, k.a⟩, ⟨(4 + 1 + 5) / 10, k.b⟩, ⟨240 / 10, k.c⟩, ⟨(9 + 1) / 10, k.d⟩]

/-- `commit_ivk.rs:241-395` `commit_ivk`, with `ak_canonicity` (401-436), `nk_canonicity` (442-481) and
`assign_gate` (497-640): all constraints it puts on its arguments, cells and result. -/
def gadget (P : Prims) (strict : Bool) (k : Cells) (ak nk : Fp) (rivk : Fq) (ivk : Fp) : Prop :=
  ShortCheck 4 k.b0 ∧ ShortCheck 5 k.b2 ∧ ShortCheck 9 k.d0 ∧
  (∃ out, SinsemillaCommit P strict Constants.qCommitIvk Constants.commitIvkR k.message rivk out ∧
    ivk = out.1) ∧
  RangeCheck 13 false k.aPrime ∧
  RangeCheck 14 false k.b2cPrime ∧
  Gate (gate ak (k.a 0) (k.b 0) k.b0 k.b1 k.b2 (k.a 13) (k.aPrime 0) (k.aPrime 13)
    nk (k.c 0) (k.d 0) k.d0 k.d1 (k.c 13) (k.b2cPrime 0) (k.b2cPrime 14))

/-- The values `commit_ivk` assigns to its cells (`commit_ivk.rs:241-395`, 420-425, 462-468). -/
def assign (ak nk : Fp) : Cells :=
  let a := fromSubpieces [(250, bitrange ak 0 250)]
  let b0 := bitrange ak 250 254
  let b1 := bitrange ak 254 255
  let b2 := bitrange nk 0 5
  let b := fromSubpieces [(4, b0), (1, b1), (5, b2)]
  let c := fromSubpieces [(240, bitrange nk 5 245)]
  let d0 := bitrange nk 245 254
  let d1 := bitrange nk 254 255
  let d := fromSubpieces [(9, d0), (1, d1)]
  { a := runningSumOf a, b := runningSumOf b, c := runningSumOf c, d := runningSumOf d,
    b0 := b0, b1 := b1, b2 := b2, d0 := d0, d1 := d1,
    aPrime := runningSumOf (a + 2 ^ 130 - (Constants.T_P : Fp)),
    b2cPrime := runningSumOf (b2 + c * 2 ^ 5 + 2 ^ 140 - (Constants.T_P : Fp)) }

end CommitIvk

end Orchard
