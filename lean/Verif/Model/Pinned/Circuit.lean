import Verif.Model.Gadgets
import Verif.Model.LayoutCircuit
import Verif.Model.Pinned.Description

/-!
# The constraint system that `Circuit::configure` creates

`circuit.rs:197-382`: this crate's gates (`Verif/Model/Layout*.lean`) and the ones of the gadgets
(`Verif/Model/Gadgets.lean`), on their columns and in the order of creation.
-/

namespace Orchard.Pinned

open Halo2

/-- What replaces a selector: a fixed column shared by `size` selectors, of which this one has number
`index` (1 to `size`).  `halo2_proofs::plonk::circuit::compress_selectors` (dependency). -/
structure SelectorCode where
  column : ℕ
  index : ℕ
  size : ℕ
  deriving DecidableEq

/-- The value that the fixed column gives the selector: `q (1 - q) (2 - q) ...` without `index - q`. -/
def SelectorCode.eval (s : SelectorCode) (q : Fp) : Fp :=
  q * (((List.range' 1 s.size).filter (· ≠ s.index)).map fun j : ℕ => (j : Fp) - q).prod

namespace Row

variable (r : Row)

/-- A query at the current row. For instance `circuit.rs:219-227`. -/
def cur (i : ℕ) : Fp := r.advice i 0
/-- A query at the next row. For instance `circuit/commit_ivk.rs:78-87`. -/
def next (i : ℕ) : Fp := r.advice i 1
/-- A query at the previous row. Chip configured at `circuit.rs:299`. -/
def prev (i : ℕ) : Fp := r.advice i (-1)

/-- `lagrange_coeffs[i]` (`circuit.rs:280-289`): the fixed columns after the three of the lookup table. -/
def lagrange (i : ℕ) : Fp := r.fixed (3 + i) 0

/-- What this crate's gates query: the current and the next row. For instance `circuit.rs:219-227`. -/
def query : Layout.Query := fun c rot => r.advice c rot.rows

end Row

/-- `ecc/chip/mul.rs` `Config::configure`: columns of the first half (`hi_config`).
Chip configured at `circuit.rs:303-304`. -/
def mulHi (r : Row) (rot : ℤ) : MulRow :=
  ⟨r.advice 9 rot, r.advice 3 rot, r.advice 0 rot, r.advice 1 rot, r.advice 4 rot, r.advice 5 rot⟩

/-- `ecc/chip/mul.rs` `Config::configure`: columns of the second half (`lo_config`).
Chip configured at `circuit.rs:303-304`. -/
def mulLo (r : Row) (rot : ℤ) : MulRow :=
  ⟨r.advice 6 rot, r.advice 7 rot, r.advice 0 rot, r.advice 1 rot, r.advice 8 rot, r.advice 2 rot⟩

/-- Gates of `LookupRangeCheckConfig::configure` and `EccChip::configure` (`circuit.rs:299-304`). -/
noncomputable def eccGates (r : Row) : List (List Fp) :=
  [ bitshiftGate (r.prev 9) (r.cur 9) (r.next 9),
    witnessPointGate (r.cur 0, r.cur 1),
    witnessNonIdGate (r.cur 0, r.cur 1),
    addIncomplete (r.cur 0, r.cur 1) (r.cur 2, r.cur 3) (r.next 2, r.next 3),
    addComplete (r.cur 0, r.cur 1) (r.cur 2, r.cur 3) (r.next 2, r.next 3)
      (r.cur 4) (r.cur 5) (r.cur 6) (r.cur 7) (r.cur 8),
    mulInitGate (r.cur 4) (mulHi r 1),
    mulStepGate (r.prev 9) (mulHi r 0) (mulHi r 1),
    mulLastGate (r.prev 9) (mulHi r 0) (mulHi r 1),
    mulInitGate (r.cur 8) (mulLo r 1),
    mulStepGate (r.prev 6) (mulLo r 0) (mulLo r 1),
    mulLastGate (r.prev 6) (mulLo r 0) (mulLo r 1),
    mulCompleteGate (r.prev 9) (r.next 9) (r.cur 9) (r.prev 1),
    mulOverflowGate (r.prev 6) (r.cur 6) (r.next 6) (r.prev 7) (r.cur 7) (r.next 7) (r.cur 8),
    mulLsbGate (r.cur 9) (r.next 9) (r.cur 0, r.cur 1) (r.next 0, r.next 1),
    runningSumCoordsGate r.lagrange (r.fixed 11 0) (r.cur 4) (r.next 4) (r.cur 5) (r.cur 0, r.cur 1),
    fullWidthGate r.lagrange (r.fixed 11 0) (r.cur 4) (r.cur 5) (r.cur 0, r.cur 1),
    shortGate (r.cur 5) (r.cur 4) (r.cur 1) (r.cur 3),
    canonicityGate (r.prev 6) (r.prev 8) (r.cur 7) (r.cur 8) (r.next 8) (r.next 7) (r.cur 6)
      (r.next 6) ]

/-- The state columns of Poseidon, `advices[6..9]` (`circuit.rs:311`). -/
def poseidonState (r : Row) (rot : ℤ) : Fp × Fp × Fp := (r.advice 6 rot, r.advice 7 rot, r.advice 8 rot)

/-- Gates of `PoseidonChip::configure` (`circuit.rs:307-315`): partial S-box in `advices[5]`, round constants
in `lagrange_coeffs[2..5]` and `lagrange_coeffs[5..8]`. -/
def poseidonGates (r : Row) : List (List Fp) :=
  let rcA := (r.lagrange 2, r.lagrange 3, r.lagrange 4)
  let rcB := (r.lagrange 5, r.lagrange 6, r.lagrange 7)
  [ fullRoundGate (poseidonState r 0) rcA (poseidonState r 1),
    partialRoundsGate (poseidonState r 0) (r.cur 5) rcA rcB (poseidonState r 1),
    padAndAddGate (poseidonState r (-1)) (poseidonState r 0) (poseidonState r 1) ]

/-- The Sinsemilla columns from advice column `c` on. Chip configured at `circuit.rs:322-329`, `340-347`. -/
def hashRow (r : Row) (c : ℕ) (rot : ℤ) : HashRow :=
  ⟨r.advice c rot, r.advice (c + 1) rot, r.advice (c + 2) rot, r.advice (c + 3) rot, r.advice (c + 4) rot⟩

/-- Gates of `SinsemillaChip::configure` and `MerkleChip::configure` (`circuit.rs:321-333`, `339-351`) on
the advice columns from `c` on, with the fixed columns `yQ` and `qS2`. -/
def sinsemillaGates (r : Row) (c yQ qS2 : ℕ) : List (List Fp) :=
  [ initialYQGate (r.lagrange yQ) (hashRow r c 0),
    sinsemillaGate (r.fixed qS2 0) (hashRow r c 0) (hashRow r c 1),
    condSwapGate (r.cur c) (r.cur (c + 1)) (r.cur (c + 2)) (r.cur (c + 3)) (r.cur (c + 4)),
    merkleDecomposeGate (r.cur c) (r.cur (c + 1)) (r.cur (c + 2)) (r.cur (c + 3)) (r.cur (c + 4))
      (r.next c) (r.next (c + 1)) (r.next (c + 2)) (r.next (c + 3)) (r.next (c + 4)) ]

/-- This crate's gates, as created by `configure` (`circuit.rs:217-256`, `355-365`). -/
def crateGates (r : Row) : List (List Fp) := Layout.configured.2.gates.map fun g => g.2 r.query

/-- All gates in the order of creation. `circuit.rs:197-382`. -/
noncomputable def circuitGates (r : Row) : List (List Fp) :=
  (crateGates r).take 2 ++ eccGates r ++ poseidonGates r ++ sinsemillaGates r 0 0 12 ++
    sinsemillaGates r 5 1 13 ++ (crateGates r).drop 2

/-- The codes of this crate's selectors, in the order in which `Layout.configured` numbers them.
Read off `circuit_description:14-26923`. -/
def crateCodes : List SelectorCode :=
  [⟨18, 1, 6⟩, ⟨18, 2, 6⟩, ⟨25, 3, 6⟩,
    ⟨25, 4, 6⟩, ⟨25, 5, 6⟩, ⟨25, 6, 6⟩, ⟨26, 3, 7⟩, ⟨26, 4, 7⟩, ⟨26, 5, 7⟩, ⟨26, 6, 7⟩, ⟨26, 7, 7⟩,
    ⟨27, 1, 7⟩, ⟨27, 2, 7⟩, ⟨27, 3, 7⟩,
    ⟨27, 4, 7⟩, ⟨27, 5, 7⟩, ⟨27, 6, 7⟩, ⟨27, 7, 7⟩, ⟨28, 1, 7⟩, ⟨28, 2, 7⟩, ⟨28, 3, 7⟩, ⟨28, 4, 7⟩,
    ⟨28, 5, 7⟩, ⟨28, 6, 7⟩, ⟨28, 7, 7⟩]

/-- The codes of the selectors of `eccGates`. Read off `circuit_description:14-26923`. -/
def eccCodes : List SelectorCode :=
  [⟨18, 3, 6⟩, ⟨19, 1, 4⟩, ⟨19, 2, 4⟩, ⟨19, 3, 4⟩, ⟨19, 4, 4⟩,
    ⟨18, 4, 6⟩, ⟨18, 5, 6⟩, ⟨18, 6, 6⟩, ⟨20, 1, 5⟩, ⟨20, 2, 5⟩, ⟨20, 3, 5⟩, ⟨20, 4, 5⟩, ⟨20, 5, 5⟩,
    ⟨21, 1, 4⟩, ⟨22, 1, 1⟩, ⟨23, 1, 1⟩, ⟨21, 2, 4⟩, ⟨21, 3, 4⟩]

/-- The codes of the selectors of `poseidonGates`. Read off `circuit_description:14-26923`. -/
def poseidonCodes : List SelectorCode := [⟨21, 4, 4⟩, ⟨24, 1, 4⟩, ⟨24, 2, 4⟩]

/-- The codes of the selectors of the first `sinsemillaGates`; `q_s1` is the value of its column. -/
def hash1Codes : List SelectorCode := [⟨24, 3, 4⟩, ⟨16, 1, 1⟩, ⟨24, 4, 4⟩, ⟨25, 1, 6⟩]

/-- The codes of the selectors of the second `sinsemillaGates`. Read off `circuit_description:14-26923`. -/
def hash2Codes : List SelectorCode := [⟨25, 2, 6⟩, ⟨17, 1, 1⟩, ⟨26, 1, 7⟩, ⟨26, 2, 7⟩]

/-- The codes of the selectors of all gates, in the order of creation of the gates.
Read off `circuit_description:14-26923`. -/
def gateCodes : List SelectorCode :=
  crateCodes.take 2 ++ eccCodes ++ poseidonCodes ++ hash1Codes ++ hash2Codes ++ crateCodes.drop 2

/-- The polynomials of the circuit with their selectors. `circuit.rs:197-382`. -/
noncomputable def circuitPolys (r : Row) : List Fp :=
  (gateCodes.zip (circuitGates r)).flatMap fun g => g.2.map (g.1.eval (r.fixed g.1.column 0) * ·)

/-! ### Lookups -/

/-- `LookupRangeCheckConfig::configure` on `advices[9]`: selectors `q_lookup` and `q_running`. -/
def rangeLookup (r : Row) : List Fp :=
  let q := r.fixed 14 0
  let running := r.fixed 15 0
  [q * (running * (r.cur 9 - r.next 9 * 2 ^ 10) + (1 - running) * r.cur 9)]

/-- `sinsemilla/chip/generator_table.rs` `configure`: on rows without `q_s1` the first entry of the table is
looked up. -/
noncomputable def sinsemillaLookup (r : Row) (c qS1 qS2 : ℕ) : List Fp :=
  let q := r.fixed qS1 0
  let h := hashRow r c 0
  [q * sinsemillaWord (r.fixed qS2 0) h.bits (hashRow r c 1).bits,
    q * h.xP + (1 - q) * (0xdb5218be6881f0f1431d4ea7d4afc7b29a05bafbede62b55a91eb912044ea5f : ℕ),
    q * h.yP + (1 - q) * (0x2f0f40c2f152a01c9caf66298493d5d0944a041c2e65ba0117c24f76bf8e6483 : ℕ)]

/-- The lookup arguments: what is looked up, and the row of the table it may be on. `circuit.rs:299`, `322-349`. -/
noncomputable def circuitLookups (r : Row) : List (List Fp × List Fp) :=
  [ (rangeLookup r, [r.fixed 0 0]),
    (sinsemillaLookup r 0 16 12, [r.fixed 0 0, r.fixed 1 0, r.fixed 2 0]),
    (sinsemillaLookup r 5 17 13, [r.fixed 0 0, r.fixed 1 0, r.fixed 2 0]) ]

end Orchard.Pinned
