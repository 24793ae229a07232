import Verif.Model.MulFixed
import Verif.Crypto.Poseidon

/-!
# The gates of the gadgets the circuit is built from (dependency `halo2_gadgets`)

Gate polynomials as functions of the values of the cells they query, in the order in which the gadgets create
them.  The gadgets are not in `/repo`, but `/repo/src/circuit_description` lists what their `configure`
functions create; theorem `C81_gates` says that these polynomials, on the columns of `circuit.rs:197-382`, are
the ones listed there.
-/

namespace Orchard.Halo2

/-- `utilities::ternary(a, b, c)`: `b` if `a` is 1, `c` if it is 0.
Chip configured at `circuit.rs:303-304`. -/
def ternary (a b c : Fp) : Fp := a * b + (1 - a) * c

/-- The constant `(Base::ONE + Base::ONE)⁻¹`. Chip configured at `circuit.rs:303-304`. -/
noncomputable def half : Fp := 2⁻¹

/-- `utilities/lookup_range_check.rs`, "Short lookup bitshift": on three rows of the running sum column, the
word, the shifted word and the inverse of `2^s`. -/
def bitshiftGate (word shifted invTwoPowS : Fp) : List Fp := [word * 2 ^ 10 * invTwoPowS - shifted]

/-- `y² - x³ - 5`. Chip configured at `circuit.rs:303-304`. -/
def curveEqn (A : Fp × Fp) : Fp := A.2 ^ 2 - A.1 ^ 3 - 5

/-- `ecc/chip/witness_point.rs`, "witness point": on the curve, or `(0, 0)`. -/
def witnessPointGate (A : Fp × Fp) : List Fp := [A.1 * curveEqn A, A.2 * curveEqn A]

/-- `ecc/chip/witness_point.rs`, "witness non-identity point". Chip configured at `circuit.rs:303-304`. -/
def witnessNonIdGate (A : Fp × Fp) : List Fp := [curveEqn A]

/-! ### `ecc/chip/mul` -/

/-- The cells of a row of `ecc/chip/mul/incomplete.rs`. Chip configured at `circuit.rs:303-304`. -/
structure MulRow where
  z : Fp
  xA : Fp
  xP : Fp
  yP : Fp
  lambda1 : Fp
  lambda2 : Fp

/-- `x_r = λ₁² - x_a - x_p`. Chip configured at `circuit.rs:303-304`. -/
def MulRow.xR (r : MulRow) : Fp := r.lambda1 ^ 2 - r.xA - r.xP

/-- `y_a = (λ₁ + λ₂) (x_a - x_r) / 2`. Chip configured at `circuit.rs:303-304`. -/
noncomputable def MulRow.yA (r : MulRow) : Fp := (r.lambda1 + r.lambda2) * (r.xA - r.xR) * half

/-- "q_mul_1 == 1 checks": the witnessed `y_a` is the one of the first row.
Chip configured at `circuit.rs:303-304`. -/
noncomputable def mulInitGate (yA : Fp) (next : MulRow) : List Fp := [yA - next.yA]

/-- The bit of a row: the difference of the running sum to twice the one before.
Chip configured at `circuit.rs:303-304`. -/
def mulBit (zPrev z : Fp) : Fp := z - zPrev * 2

/-- `for_loop`: a double-and-add step with the bit of the row. Chip configured at `circuit.rs:303-304`. -/
noncomputable def mulLoop (zPrev : Fp) (r : MulRow) (xANext yANext : Fp) : List Fp :=
  [boolCheck (mulBit zPrev r.z),
    r.lambda1 * (r.xA - r.xP) - r.yA + (mulBit zPrev r.z * 2 - 1) * r.yP,
    r.lambda2 ^ 2 - xANext - r.xR - r.xA,
    r.lambda2 * (r.xA - xANext) - r.yA - yANext]

/-- "q_mul_2 == 1 checks": the base does not change, and the next row continues.
Chip configured at `circuit.rs:303-304`. -/
noncomputable def mulStepGate (zPrev : Fp) (r next : MulRow) : List Fp :=
  [r.xP - next.xP, r.yP - next.yP] ++ mulLoop zPrev r next.xA next.yA

/-- "q_mul_3 == 1 checks": the last row, with `y_a` in the `λ₁` cell of the next.
Chip configured at `circuit.rs:303-304`. -/
noncomputable def mulLastGate (zPrev : Fp) (r next : MulRow) : List Fp :=
  mulLoop zPrev r next.xA next.lambda1

/-- `ecc/chip/mul/complete.rs`, "Decompose scalar for complete bits of variable-base mul".
Chip configured at `circuit.rs:303-304`. -/
def mulCompleteGate (zPrev zNext baseY yP : Fp) : List Fp :=
  let k := zNext - 2 * zPrev
  [boolCheck k, ternary k (baseY - yP) (baseY + yP)]

/-- `ecc/chip/mul/overflow.rs`, "overflow checks". Chip configured at `circuit.rs:303-304`. -/
def mulOverflowGate (z0 z130 eta k254 alpha sMinusLo s : Fp) : List Fp :=
  [s - (alpha + k254 * 2 ^ 130),
    z0 - alpha - (Constants.T_Q : ℕ),
    k254 * (z130 - 2 ^ 124),
    k254 * sMinusLo,
    (1 - k254) * (1 - z130 * eta) * sMinusLo]

/-- `ecc/chip/mul.rs`, "LSB check". Chip configured at `circuit.rs:303-304`. -/
def mulLsbGate (z1 z0 : Fp) (P base : Fp × Fp) : List Fp :=
  let k := z0 - z1 * 2
  [boolCheck k, ternary k P.1 (P.1 - base.1), ternary k P.2 (P.2 + base.2)]

/-! ### `ecc/chip/mul_fixed` -/

/-- "Running sum coordinates check": the window of a running sum, and its point.
Chip configured at `circuit.rs:303-304`. -/
def runningSumCoordsGate (coeffs : ℕ → Fp) (fixedZ z zNext u : Fp) (A : Fp × Fp) : List Fp :=
  rangePoly fixedBaseH (z - 2 ^ fixedBaseWindowSize * zNext) ::
    coordsCheck coeffs fixedZ (z - 2 ^ fixedBaseWindowSize * zNext) u A

/-- `mul_fixed/full_width.rs`, "Full-width fixed-base scalar mul". Chip configured at `circuit.rs:303-304`. -/
def fullWidthGate (coeffs : ℕ → Fp) (fixedZ window u : Fp) (A : Fp × Fp) : List Fp :=
  coordsCheck coeffs fixedZ window u A ++ [rangePoly fixedBaseH window]

/-- `mul_fixed/short.rs`, "Short fixed-base mul gate". Chip configured at `circuit.rs:303-304`. -/
def shortGate (lastWindow sign : Fp) (yP yA : Fp) : List Fp :=
  [boolCheck lastWindow, sign ^ 2 - 1, (yP - yA) * (yP + yA), sign * yP - yA]

/-- `mul_fixed/base_field_elem.rs`, "Canonicity checks". Chip configured at `circuit.rs:303-304`. -/
def canonicityGate (alpha z84 α₁ α₂ z43 z44 α₀' z13α₀' : Fp) : List Fp :=
  [α₂ * α₁, α₂ * (z44 - z84 * 2 ^ 120), α₂ * boolCheck (z43 - z44 * 2 ^ 3), α₂ * z13α₀',
    rangePoly 4 α₁, boolCheck α₂, z84 - (α₁ + α₂ * 4),
    α₀' - (alpha - z84 * 2 ^ 252 + 2 ^ 130 - (Constants.T_P : ℕ))]

/-! ### `poseidon/pow5.rs` -/

/-- Differences of the elements of two states. Chip configured at `circuit.rs:306-313`. -/
def stateDiff (s t : Fp × Fp × Fp) : List Fp := [s.1 - t.1, s.2.1 - t.2.1, s.2.2 - t.2.2]

/-- "full round". Chip configured at `circuit.rs:306-313`. -/
def fullRoundGate (s rc next : Fp × Fp × Fp) : List Fp :=
  stateDiff (Poseidon.mds ((s.1 + rc.1) ^ 5, (s.2.1 + rc.2.1) ^ 5, (s.2.2 + rc.2.2) ^ 5)) next

/-- Entries of the inverse of the MDS matrix, by rows. Chip configured at `circuit.rs:306-313`. -/
def mdsInv : (ℕ × ℕ × ℕ) × (ℕ × ℕ × ℕ) × (ℕ × ℕ × ℕ) :=
  ((0x2cc057f3fa14687acc59ffd00de864434543705f35e98ab5c6de463cd1404e6b,
    0x32e7c439f2f967e55fd72b55df208385fadbf8ae7ae24796171840417cab7576,
    0x2eae5df8c3115969f461778abf6c91fa1403db6f50302040942645bd7d4464e0),
   (0x07bf368481067199db18b4aefe68d26d13f074fde9a18b29a1ca1516a4a1a6a0,
    0x2aec6906c63f3cf1018a918b9dac5dadbb1d65040c85c1bfe82425bc1b23a059,
    0x0952e0243aec2af01215944a64a246b276b2a7139db71b36e0541adf238e0781),
   (0x2fcbba6f9159a219723a63a0c09dab26aef9112e952fdbb52a418d8d73a7c908,
    0x1ec7372574f3851bb4ddd4b4d6452256c5e4960d7424cd3776efab42d4fba90b,
    0x0d0c2efd6472f12a3c26fa4b7d25b1e487a7435d30f8be81adc8933c6f3c72ee))

/-- Multiplication by a row of the inverse of the MDS matrix. Chip configured at `circuit.rs:306-313`. -/
def mdsInvRow (m : ℕ × ℕ × ℕ) (s : Fp × Fp × Fp) : Fp := m.1 * s.1 + m.2.1 * s.2.1 + m.2.2 * s.2.2

/-- "partial rounds": two rounds on one row; `mid` is the first element after the first S-box.
Chip configured at `circuit.rs:306-313`. -/
def partialRoundsGate (s : Fp × Fp × Fp) (mid : Fp) (rcA rcB next : Fp × Fp × Fp) : List Fp :=
  let t := Poseidon.mds (mid, s.2.1 + rcA.2.1, s.2.2 + rcA.2.2)
  [(s.1 + rcA.1) ^ 5 - mid,
    (t.1 + rcB.1) ^ 5 - mdsInvRow mdsInv.1 next,
    t.2.1 + rcB.2.1 - mdsInvRow mdsInv.2.1 next,
    t.2.2 + rcB.2.2 - mdsInvRow mdsInv.2.2 next]

/-- "pad-and-add": the rate elements are added to the initial state.
Chip configured at `circuit.rs:306-313`. -/
def padAndAddGate (initial input output : Fp × Fp × Fp) : List Fp :=
  [initial.1 + input.1 - output.1, initial.2.1 + input.2.1 - output.2.1, initial.2.2 - output.2.2]

/-! ### `sinsemilla` -/

/-- The cells of a row of `sinsemilla/chip.rs`. Chip configured at `circuit.rs:322-329`, `340-347`. -/
structure HashRow where
  xA : Fp
  xP : Fp
  bits : Fp
  lambda1 : Fp
  lambda2 : Fp

/-- `x_r = λ₁² - x_a - x_p`. Chips configured at `circuit.rs:321-351`. -/
def HashRow.xR (r : HashRow) : Fp := r.lambda1 ^ 2 - r.xA - r.xP

/-- `Y_A = (λ₁ + λ₂) (x_a - x_r)`, twice the `y` coordinate of the accumulator.
Chips configured at `circuit.rs:321-351`. -/
def HashRow.twiceYA (r : HashRow) : Fp := (r.lambda1 + r.lambda2) * (r.xA - r.xR)

/-- "Initial y_Q". Chips configured at `circuit.rs:321-351`. -/
def initialYQGate (fixedYQ : Fp) (r : HashRow) : List Fp := [fixedYQ * 2 - r.twiceYA]

/-- `q_s3 = q_s2 (q_s2 - 1)`. Chips configured at `circuit.rs:321-351`. -/
def qS3 (qS2 : Fp) : Fp := qS2 * (qS2 - 1)

/-- "Sinsemilla gate". Chips configured at `circuit.rs:321-351`. -/
def sinsemillaGate (qS2 : Fp) (r next : HashRow) : List Fp :=
  [r.lambda2 ^ 2 - (next.xA + r.xR + r.xA),
    r.lambda2 * 4 * (r.xA - next.xA) -
      (r.twiceYA * 2 + (2 - qS3 qS2) * next.twiceYA + qS3 qS2 * 2 * next.lambda1)]

/-- The word of a row: `z_i - 2^10 q_run z_{i+1}` with `q_run = q_s2 - q_s3`.
Chips configured at `circuit.rs:321-351`. -/
def sinsemillaWord (qS2 bits bitsNext : Fp) : Fp := bits - (qS2 - qS3 qS2) * bitsNext * 2 ^ 10

/-- The `y` coordinate of the generator of a row: `Y_A / 2 - λ₁ (x_a - x_p)`.
Chips configured at `circuit.rs:321-351`. -/
noncomputable def HashRow.yP (r : HashRow) : Fp := r.twiceYA * half - r.lambda1 * (r.xA - r.xP)

/-- `utilities/cond_swap.rs`, "a' = b ⋅ swap + a ⋅ (1-swap)". -/
def condSwapGate (a b aSwapped bSwapped swap : Fp) : List Fp :=
  [aSwapped - ternary swap b a, bSwapped - ternary swap a b, boolCheck swap]

/-- `sinsemilla/merkle/chip.rs`, "Decomposition check". Chip configured at `circuit.rs:330`, `348`. -/
def merkleDecomposeGate (a b c left right z1a z1b b1 b2 l : Fp) : List Fp :=
  [a - z1a * 2 ^ 10 - l,
    z1a + (b - z1b * 2 ^ 10 + b1 * 2 ^ 10) * 2 ^ 240 - left,
    b2 + c * 2 ^ 5 - right,
    z1b - (b1 + b2 * 2 ^ 5)]

end Orchard.Halo2
