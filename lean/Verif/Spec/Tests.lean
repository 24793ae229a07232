import Verif.Model.Tests
import Verif.Spec.Testing

/-!
# Specification of the randomised tests
-/

namespace Orchard.Spec

/-- No randomised validating key of a dummy spend is the identity. -/
def NoZeroDummyRk (P : Prims) (draws : BuildDraws) : Prop :=
  ∀ i j, ∀ b ∈ (draws.spendDummy j).skDraws,
    ak P b + (draws.action i).alpha • Constants.spendAuthG ≠ 0

/-- The random values of `round_trip` let every rejection loop end, and neither `ask` nor `rk` is zero
for a drawn key. -/
structure GoodCircuitDraws (P : Prims) (rng : Tests.CircuitDraws) : Prop where
  askOld : ∀ b ∈ rng.skOld, askScalar P b ≠ 0
  skOld : ∃ b ∈ rng.skOld, ValidSk P b
  seedsOld : ∀ (a : Address) (v : NoteValue) (rho : Fp),
    ∃ s ∈ rng.seedsOld, GoodSeed P a.d a.pkd v.inner.toNat rho s
  rk : ∀ b ∈ rng.skOld, ak P b + rng.alpha • Constants.spendAuthG ≠ 0
  askNew : ∀ b ∈ rng.skNew, askScalar P b ≠ 0
  skNew : ∃ b ∈ rng.skNew, ValidSk P b
  seedsNew : ∀ (a : Address) (v : NoteValue) (rho : Fp),
    ∃ s ∈ rng.seedsNew, GoodSeed P a.d a.pkd v.inner.toNat rho s

end Orchard.Spec
