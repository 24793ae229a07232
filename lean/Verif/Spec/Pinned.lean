import Verif.Spec.Layout
import Verif.Model.Pinned.Circuit

/-!
# Notions for the properties of the pinned constraint system
-/

namespace Orchard.Spec

open Layout Pinned

/-- `k` of the circuit (`circuit.rs:62`, `circuit_description:5`): the table has `2^11` rows. -/
def numRows : ℕ := 2 ^ 11

/-- `ConstraintSystem::blinding_factors` (`halo2_proofs`): two more than the number of queries of the advice column
with the most of them, which is taken to be at least three. -/
def blindingFactors : ℕ :=
  max 3 (((List.range numAdviceColumns).map fun c => (adviceQueries.filter (·.1 = c)).length).foldr max 0) + 2

/-- The rows that synthesis may assign; on the other ones the prover puts random values. -/
def usableRows : ℕ := numRows - (blindingFactors + 1)

/-- The contents of the fixed columns, by column and row. -/
abbrev FixedTable := ℕ → ℕ → Fp

/-- What the gates see on a row; rotations go around. -/
def rowAt (T : Table) (F : FixedTable) (row : ℕ) : Row where
  advice c rot := T (c, ((row + rot) % numRows).toNat)
  fixed c rot := F c ((row + rot) % numRows).toNat

/-- All gates of the pinned constraint system hold on all rows. -/
def GatesHold (T : Table) (F : FixedTable) : Prop :=
  ∀ row < numRows, ∀ g ∈ Pinned.gates, g.eval (rowAt T F row) = 0

/-- All lookup arguments hold: on every usable row the looked up values are those of some usable row of the
table. -/
def LookupsHold (T : Table) (F : FixedTable) : Prop :=
  ∀ row < usableRows, ∀ l ∈ Pinned.lookups, ∃ row' < usableRows,
    l.1.map (Expr.eval (rowAt T F row)) = l.2.map (Expr.eval (rowAt T F row'))

/-- The gates and lookups of the pinned constraint system hold. -/
def Satisfied (T : Table) (F : FixedTable) : Prop := GatesHold T F ∧ LookupsHold T F

/-- `circuit.rs:391` `SinsemillaChip::load`: the rows of the lookup table are the words `0, ..., 2^10 - 1` with the
coordinates of their Sinsemilla generators (in some order, repeated to fill the columns). -/
def TableLoaded (P : Prims) (F : FixedTable) : Prop :=
  ∀ row < usableRows, ∃ j < 2 ^ 10, F 0 row = (j : ℕ) ∧ F 1 row = extractP (P.sinsemillaS j) ∧
    F 2 row = Halo2.cellY (P.sinsemillaS j)

/-- On rows without `q_s1` the Sinsemilla lookups ask for two constants (`circuit_description`, the constants of
`lookups`), with the word 0: they are the coordinates of the generator of the word 0, so that these rows are in the
table. -/
def FirstGenerator (P : Prims) : Prop :=
  extractP (P.sinsemillaS 0) = (0xdb5218be6881f0f1431d4ea7d4afc7b29a05bafbede62b55a91eb912044ea5f : ℕ) ∧
  Halo2.cellY (P.sinsemillaS 0) = (0x2f0f40c2f152a01c9caf66298493d5d0944a041c2e65ba0117c24f76bf8e6483 : ℕ)

/-- The selector is on on this row. -/
def On (F : FixedTable) (c : SelectorCode) (row : ℕ) : Prop := F c.column row = c.index

/-- On a row where synthesis enables a selector of this crate, the fixed column of the selector contains its
number. -/
def Selected (F : FixedTable) (l : List Event) : Prop :=
  ∀ s row, Event.enable s row ∈ l → row + 1 < numRows ∧ ∃ c, crateCodes[s]? = some c ∧ F c.column row = c.index

/-- The fixed columns of the selectors contain nothing else than the numbers of this crate's enabled selectors. -/
def OnlySelected (F : FixedTable) (l : List Event) : Prop :=
  ∀ c ∈ gateCodes, ∀ row < numRows, F c.column row = 0 ∨
    ∃ s c', Event.enable s row ∈ l ∧ crateCodes[s]? = some c' ∧ c'.column = c.column ∧
      F c.column row = c'.index

end Orchard.Spec
