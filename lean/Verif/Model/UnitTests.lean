import Verif.Model.Tests
import Verif.Model.Zip32
import Verif.Model.FixedBase
import Verif.Model.MulFixed
import Verif.Crypto.HashToCurve

/-!
# Model of the crate's unit tests

Those of `spec.rs`, `constants.rs`, `constants/sinsemilla.rs`, `constants/fixed_bases/*.rs`, `keys.rs`,
`zip32.rs`, `circuit/commit_ivk.rs` and `circuit/note_commit.rs` that do not compare with test vectors.
Inputs fixed in a test are arguments here wherever the test makes sense for other inputs too.
-/

namespace Orchard.Tests

open RedPallas Zip32 Testing Halo2

/-- `assert_eq!`. For instance `spec.rs:333`. -/
def assertEqO {α : Type} [DecidableEq α] (a b : α) : Outcome Unit := assertO (decide (a = b))

/-! ### `spec.rs` -/

/-- `spec.rs:321-326` `diversify_hash_substitution`. -/
noncomputable def diversifyHashSubstitution (P : Prims) : Outcome Unit :=
  assertO (!decide (P.hashToCurve (ascii "z.cash:Orchard-gd") [] = 0))

/-- `spec.rs:332-333`, and 336-340 with fixed numbers: there and back from an integer. -/
def lebs2ipOf (int : UInt64) : Outcome Unit := do
  let bits ← i2lebsp 64 int
  let n ← lebs2ip bits
  assertEqO n int

/-- `spec.rs:328-341` `lebs2ip_round_trip`. -/
def lebs2ipRoundTrip (int : UInt64) : Outcome Unit := do
  lebs2ipOf int
  lebs2ipOf 0
  lebs2ipOf 0xFFFFFFFFFFFFFFFF

/-- `spec.rs:346-347`, and 350-362 with fixed bits: there and back from a bit string. -/
def i2lebspOf (bits : List Bool) : Outcome Unit := do
  let n ← lebs2ip bits
  let bits' ← i2lebsp bits.length n
  assertEqO bits' bits

/-- `spec.rs:343-363` `i2lebsp_round_trip`. -/
def i2lebspRoundTrip (bits : List Bool) : Outcome Unit := do
  i2lebspOf bits
  i2lebspOf (List.replicate 64 false)
  i2lebspOf (List.replicate 64 true)
  i2lebspOf []

/-! ### `constants.rs` and `constants/sinsemilla.rs` -/

/-- `constants.rs:50-54` `t_q`. -/
def tQTest : Outcome Unit := assertEqO ((Constants.T_Q : Fq) + (2 ^ 127) ^ 2) 0

/-- `constants.rs:57-61` `t_p`. -/
def tPTest : Outcome Unit := assertEqO ((Constants.T_P : Fp) + (2 ^ 127) ^ 2) 0

/-- `constants/sinsemilla.rs:153-154`, and 157-158 with fixed numbers. -/
def lebs2ipKOf (int : UInt64) : Outcome Unit := do
  let bits ← i2lebspK int
  let n ← lebs2ipK bits
  assertEqO n.toUInt64 int

/-- `constants/sinsemilla.rs:149-159` `lebs2ip_k_round_trip`. -/
def lebs2ipKRoundTrip (int : UInt64) : Outcome Unit := do
  lebs2ipKOf int
  lebs2ipKOf 0
  lebs2ipKOf ((1 <<< UInt64.ofNat Constants.K) - 1)

/-- `constants/sinsemilla.rs:164-165`, and 168-175 with fixed bits. -/
def i2lebspKOf (bits : List Bool) : Outcome Unit := do
  let n ← lebs2ipK bits
  let bits' ← i2lebspK n.toUInt64
  assertEqO bits' bits

/-- `constants/sinsemilla.rs:161-176` `i2lebsp_k_round_trip`. -/
def i2lebspKRoundTrip (bits : List Bool) : Outcome Unit := do
  i2lebspKOf bits
  i2lebspKOf (List.replicate Constants.K false)
  i2lebspKOf (List.replicate Constants.K true)

/-- `constants/sinsemilla.rs:227-232` `inv_two_pow_k`. -/
def invTwoPowKTest : Outcome Unit := do
  let inv ← Option.unwrapO (Fp.fromRepr Constants.invTwoPowK)
  assertEqO (((1 <<< Constants.K : ℕ) : Fp) * inv) 1

/-- A point is tabulated by the two coordinates. For instance `constants/sinsemilla.rs:180-191`
`q_note_commitment_m`: coordinates of the identity do not exist, and the entries must decode. -/
def coordinatesTest (A : Point) (t : Bytes 32 × Bytes 32) : Outcome Unit :=
  match A with
  | .zero => .panic
  | .some x y _ => do
    let tx ← Option.unwrapO (Fp.fromRepr t.1)
    assertEqO x tx
    let ty ← Option.unwrapO (Fp.fromRepr t.2)
    assertEqO y ty

/-- `CommitDomain::new(s).Q()` and `HashDomain::new(s).Q()` in crate `sinsemilla`, the former with suffix
`-M` in the name. Called at `constants/sinsemilla.rs:180-181`, 196-197 and 212-213. -/
noncomputable def domainQ (P : Prims) (name : String) : Point :=
  P.hashToCurve (ascii "z.cash:SinsemillaQ") (ascii name)

/-- `constants/sinsemilla.rs:178-224`: `q_note_commitment_m`, `q_commit_ivk_m` and `q_merkle_crh`. -/
noncomputable def qTests (P : Prims) : Outcome Unit := do
  coordinatesTest (domainQ P "z.cash:Orchard-NoteCommit-M") Constants.qNoteCommitBytes
  coordinatesTest (domainQ P "z.cash:Orchard-CommitIvk-M") Constants.qCommitIvkBytes
  coordinatesTest (domainQ P "z.cash:Orchard-MerkleCRH") Constants.qMerkleCrhBytes

/-! ### `constants/fixed_bases/*.rs` -/

/-- The tests `generator` of `constants/fixed_bases/*.rs`, for instance `spend_auth_g.rs:2943-2950`. -/
noncomputable def generatorTests (P : Prims) : Outcome Unit := do
  coordinatesTest (P.hashToCurve (ascii "z.cash:Orchard") (ascii "G")) Constants.spendAuthGBytes
  coordinatesTest (P.hashToCurve (ascii "z.cash:Orchard") (ascii "K")) Constants.nullifierKBytes
  coordinatesTest (P.hashToCurve (ascii "z.cash:Orchard-cv") (ascii "v")) Constants.valueCommitVBytes
  coordinatesTest (P.hashToCurve (ascii "z.cash:Orchard-cv") (ascii "r")) Constants.valueCommitRBytes
  coordinatesTest (P.hashToCurve (ascii "z.cash:Orchard-NoteCommit-r") (ascii ""))
    Constants.noteCommitRBytes
  coordinatesTest (P.hashToCurve (ascii "z.cash:Orchard-CommitIvk-r") (ascii ""))
    Constants.commitIvkRBytes

/-- One window table point in `test_zs_and_us` of crate `halo2_gadgets`: `u` decodes, `z + y = u²`, and
`z - y` has no square root. Called at `constants/fixed_bases/spend_auth_g.rs:2961`. -/
noncomputable def zuTest (A : Point) (z u : ℕ) : Outcome Unit :=
  match A with
  | .zero => .panic
  | .some _ y _ => do
    assertO (decide (u < p))
    assertEqO ((z : Fp) + y) ((u : Fp) * u)
    assertO (Point.fpSqrt ((z : Fp) - y)).isNone

/-- `compute_window_table` of crate `halo2_gadgets`: `[(k + 2) 8^w] B`, in the last window
`[k 8^w - (2 8^0 + … + 2 8^(n - 2))] B`.
Called through `test_zs_and_us` at `constants/fixed_bases/spend_auth_g.rs:2961`. -/
noncomputable def windowTable (B : Point) (n : ℕ) : List (List Point) :=
  ((List.range (n - 1)).map fun w =>
      (List.range fixedBaseH).map fun k => ((k + 2) * fixedBaseH ^ w : ℕ) • B) ++
    [(List.range fixedBaseH).map fun k =>
      (k * fixedBaseH ^ (n - 1) : ℕ) • B -
        (((List.range (n - 1)).map fun j => 2 * fixedBaseH ^ j).sum : ℕ) • B]

/-- `test_zs_and_us` of crate `halo2_gadgets`: all windows and digits, as far as all three tables have
them. Called at `constants/fixed_bases/spend_auth_g.rs:2961`. -/
noncomputable def zsAndUsTest (b : FixedBase) (n : ℕ) : Outcome Unit :=
  ((b.u.zip b.z).zip (windowTable b.generator n)).forM fun x =>
    (x.1.1.zip x.2).forM fun y => zuTest y.2 x.1.2 y.1

/-- The tests `z` of `constants/fixed_bases/*.rs`, for instance `spend_auth_g.rs:2959-2962`. -/
noncomputable def zTests : Outcome Unit := do
  [FixedBasesFull.commitIvkR, .noteCommitR, .valueCommitR, .spendAuthG].forM fun b =>
    zsAndUsTest b.point numWindows
  zsAndUsTest nullifierKPoint numWindows
  zsAndUsTest valueCommitVPoint numWindowsShort

/-- `test_lagrange_coeffs` of crate `halo2_gadgets`: the interpolated `x` coordinates of all window points
are those of the points. Called at `constants/fixed_bases/spend_auth_g.rs:2955`. -/
noncomputable def lagrangeCoeffsTest (B : Point) (n : ℕ) : Outcome Unit :=
  (List.range n).forM fun w => (List.range fixedBaseH).forM fun k =>
    match ((windowTable B n).getD w []).getD k 0 with
    | .zero => .panic
    | .some x _ _ =>
      assertEqO x (∑ i ∈ Finset.range fixedBaseH, (k : Fp) ^ i * Halo2.lagrangeCoeffs B n w i)

/-- The tests `lagrange_coeffs` of `constants/fixed_bases/*.rs`, for instance `spend_auth_g.rs:2952-2956`. -/
noncomputable def lagrangeTests : Outcome Unit := do
  [FixedBasesFull.commitIvkR, .noteCommitR, .valueCommitR, .spendAuthG].forM fun b =>
    lagrangeCoeffsTest b.point.generator numWindows
  lagrangeCoeffsTest nullifierKPoint.generator numWindows
  lagrangeCoeffsTest valueCommitVPoint.generator numWindowsShort

/-! ### `keys.rs` -/

/-- `keys.rs:981-985` `spend_validating_key_from_bytes`. -/
noncomputable def spendValidatingKeyFromBytes : Outcome Unit :=
  assertO (SpendValidatingKey.fromBytes (Bytes.replicate 32 0)).isNone

/-- `keys.rs:987-995` `parsers_reject_invalid`. -/
noncomputable def parsersRejectInvalid : Outcome Unit := do
  assertO (eskFromBytes (Bytes.replicate 32 0xff)).isNone
  assertO (epkFromBytes (Bytes.replicate 32 0xff)).isNone

/-! ### `zip32.rs` -/

/-- `zip32.rs:245-254` `derive_child`, with any seed and index. -/
noncomputable def deriveChildTest (P : Prims) (seed : List UInt8) (i : UInt32) : Outcome Unit := do
  let r ← ExtendedSpendingKey.master P seed
  let xskM ← unwrapResult r
  let i ← ChildIndex.mkHardened i
  let xsk ← ExtendedSpendingKey.deriveChild P xskM i
  assertO xsk.toBool

/-- `zip32.rs:256-277` `path`, with any seed and indices. -/
noncomputable def pathTest (P : Prims) (seed : List UInt8) (i j : UInt32) : Outcome Unit := do
  let r ← ExtendedSpendingKey.master P seed
  let xskM ← unwrapResult r
  let i ← ChildIndex.mkHardened i
  let r ← ExtendedSpendingKey.deriveChild P xskM i
  let xsk1 ← unwrapResult r
  let r ← ExtendedSpendingKey.fromPath P seed [i]
  let y ← unwrapResult r
  assertO (y.ctEq xsk1)
  let j ← ChildIndex.mkHardened j
  let r ← ExtendedSpendingKey.deriveChild P xsk1 j
  let xsk2 ← unwrapResult r
  let r ← ExtendedSpendingKey.fromPath P seed [i, j]
  let y ← unwrapResult r
  assertO (y.ctEq xsk2)

/-! ### `circuit/commit_ivk.rs` -/

open Classical in
/-- `circuit/commit_ivk.rs:691-901` `commit_ivk`, for any inputs: the honest assignment satisfies the
constraints of the gadget with some output, and that output is what the primitive returns.  The mock
prover checks all constraints on the assigned cells, at the level of C52. -/
noncomputable def commitIvkTest (P : Prims) (ak nk : Fp) (rivk : Fq) : Outcome Unit := do
  let expected ← Option.unwrapO (sinsemillaShortCommit P Constants.qCommitIvk Constants.commitIvkR
    (Fp.toLeBits 255 ak ++ Fp.toLeBits 255 nk) rivk)
  assertO (decide (∃ ivk, CommitIvk.gadget P true (CommitIvk.assign ak nk) ak nk rivk ivk ∧
    expected = ivk))

/-! ### `circuit/note_commit.rs` -/

/-- `circuit/note_commit.rs:2162-2169` and 2180-2187: the point with the given `x` whose `y` has the parity
of `lsb`. -/
noncomputable def pointWithX (x lsb : Fp) : Outcome Point := do
  let y ← Option.unwrapO (Point.fpSqrt (x ^ 2 * x + 5))
  let y := if xor (decide (y.val % 2 = 1)) (decide (lsb.val % 2 = 1)) then -y else y
  if h : y ^ 2 = x ^ 3 + 5 then .ret (Point.ofXY x y h) else .panic

open Classical in
/-- `circuit/note_commit.rs:2051-2359` `note_commit`, for any inputs.  `NonIdentityPoint::new` fails for
the identity.  The mock prover checks all constraints on the assigned cells, at the level of C53. -/
noncomputable def noteCommitTest (P : Prims) (gdX gdLsb pkdX pkdLsb : Fp) (value : NoteValue) (rho psi : Fp)
    (rcm : Fq) : Outcome Unit := do
  let gd ← pointWithX gdX gdLsb
  let pkd ← pointWithX pkdX pkdLsb
  let expected ← Option.unwrapO (sinsemillaCommit P Constants.qNoteCommit Constants.noteCommitR
    (Fp.toLeBits 255 gdX ++ [decide (gdLsb = 1)] ++ (Fp.toLeBits 255 pkdX ++ [decide (pkdLsb = 1)]) ++
      value.toLeBits ++ Fp.toLeBits 255 rho ++ Fp.toLeBits 255 psi) rcm)
  assertO (decide (expected ≠ 0))
  let v : Fp := (value.inner.toNat : Fp)
  assertO (decide (NoteCommit.gadget P true (NoteCommit.assign gd pkd v rho psi) gd pkd v rho psi rcm
    (cells expected)))

end Orchard.Tests
