import Verif.Model.Constants
import Verif.Model.Tables.SpendAuthG
import Verif.Model.Tables.NullifierK
import Verif.Model.Tables.ValueCommitR
import Verif.Model.Tables.NoteCommitR
import Verif.Model.Tables.CommitIvkR
import Verif.Model.Tables.ValueCommitV

/-!
# Tables for fixed-base multiplication (`constants/fixed_bases.rs`)

The two tables of a base are used by the fixed-base multiplication of `halo2_gadgets` in the Action
circuit.  `u` is given by the integers the 32-byte arrays encode, so decoding (`from_repr(..).unwrap()` in
`halo2_gadgets`) fails exactly for entries not below `p`.
-/

namespace Orchard

/-- What `impl FixedPoint` provides (`constants/fixed_bases.rs:100-161`). -/
structure FixedBase where
  generator : Point
  u : List (List ℕ)
  z : List ℕ

/-- `constants/fixed_bases.rs:37` `FIXED_BASE_WINDOW_SIZE`. -/
def fixedBaseWindowSize : ℕ := 3

/-- `constants/fixed_bases.rs:40` `H`. -/
def fixedBaseH : ℕ := 1 <<< fixedBaseWindowSize

/-- `constants/fixed_bases.rs:43-44` `NUM_WINDOWS`. -/
def numWindows : ℕ := (255 + fixedBaseWindowSize - 1) / fixedBaseWindowSize

/-- `constants/fixed_bases.rs:47-48` `NUM_WINDOWS_SHORT`. -/
def numWindowsShort : ℕ := (64 + fixedBaseWindowSize - 1) / fixedBaseWindowSize

/-- `constants/fixed_bases.rs:79-84` `OrchardFixedBasesFull`. -/
inductive FixedBasesFull where
  | commitIvkR | noteCommitR | valueCommitR | spendAuthG
  deriving DecidableEq

/-- `constants/fixed_bases.rs:100-129` `impl FixedPoint for OrchardFixedBasesFull`. -/
def FixedBasesFull.point : FixedBasesFull → FixedBase
  | commitIvkR => ⟨Constants.commitIvkR, Tables.CommitIvkR.u, Tables.CommitIvkR.z⟩
  | noteCommitR => ⟨Constants.noteCommitR, Tables.NoteCommitR.u, Tables.NoteCommitR.z⟩
  | valueCommitR => ⟨Constants.valueCommitR, Tables.ValueCommitR.u, Tables.ValueCommitR.z⟩
  | spendAuthG => ⟨Constants.spendAuthG, Tables.SpendAuthG.u, Tables.SpendAuthG.z⟩

/-- `constants/fixed_bases.rs:131-145` `impl FixedPoint for NullifierK`. -/
def nullifierKPoint : FixedBase := ⟨Constants.nullifierK, Tables.NullifierK.u, Tables.NullifierK.z⟩

/-- `constants/fixed_bases.rs:147-161` `impl FixedPoint for ValueCommitV`. -/
def valueCommitVPoint : FixedBase :=
  ⟨Constants.valueCommitV, Tables.ValueCommitV.u, Tables.ValueCommitV.z⟩

end Orchard
