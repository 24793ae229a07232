import Verif.Crypto.Zcash
import Verif.Lemmas.Generators
import Verif.Spec.Pinned

/-!
# Helper lemmas for C89: the Sinsemilla generator of the word 0
-/

namespace Orchard.Generators

open Compute

set_option maxRecDepth 100000 in
theorem eval_firstGenerator : hashToCurve' (ascii "z.cash:SinsemillaS") (leBytes 4 0) =
    some (some (0xdb5218be6881f0f1431d4ea7d4afc7b29a05bafbede62b55a91eb912044ea5f,
      0x2f0f40c2f152a01c9caf66298493d5d0944a041c2e65ba0117c24f76bf8e6483)) := by
  decide +kernel

theorem sinsemillaS_zcash (j : ℕ) : Prims.zcash.sinsemillaS j =
    HashToCurve.hashToCurve (ascii "z.cash:SinsemillaS") (leBytes 4 j) := by
  unfold Prims.zcash
  dsimp only

theorem first_of_rep {x y : ℕ} {A : Point} (h : Rep (some (x, y)) A) : extractP A = (x : Fp) ∧ Halo2.cellY A = (y : Fp) := by
  obtain ⟨h, rfl⟩ := rep_ofXY.1 h
  exact ⟨rfl, rfl⟩

theorem firstGenerator_zcash : Spec.FirstGenerator Prims.zcash := by
  have h := first_of_rep (rep_hashToCurve eval_firstGenerator)
  rw [← sinsemillaS_zcash] at h
  exact h

end Orchard.Generators
