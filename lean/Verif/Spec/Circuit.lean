import Verif.Spec.Note
import Verif.Spec.Tree
import Verif.Model.Bundle

/-!
# The Action statement (protocol specification § 4.18.4)

Written from the protocol specification.  `⊥` is `none`.  As in the specification, the statement is
void for inputs on which a Sinsemilla hash is `⊥` (finding such inputs means finding a
discrete-logarithm relation), and the encodings hashed on the Merkle path may be non-canonical.
-/

namespace Orchard.Spec

/-- The auxiliary input of the Action statement. -/
structure ActionWitness where
  path : List Fp
  pos : ℕ
  gdOld : Point
  pkdOld : Point
  vOld : ℕ
  rhoOld : Fp
  psiOld : Fp
  rcmOld : Fq
  cmOld : Point
  alpha : Fq
  ak : Point
  nk : Fp
  rivk : Fq
  gdNew : Point
  pkdNew : Point
  vNew : ℕ
  psiNew : Fp
  rcmNew : Fq
  rcv : Fq

/-- `(path, pos)` is a Merkle path of depth 32 from `leaf` to `anchor`: at level `l` the running node
is the left child iff bit `l` of the position is zero. -/
def MerklePathValid (P : Prims) (path : List Fp) (pos : ℕ) (leaf anchor : Fp) : Prop :=
  path.length = 32 ∧ pos < 2 ^ 32 ∧ ∃ nodes : ℕ → Fp, nodes 0 = leaf ∧ nodes 32 = anchor ∧
    ∀ l < 32, ∃ x y : ℕ, x < 2 ^ 255 ∧ y < 2 ^ 255 ∧
      (if pos / 2 ^ l % 2 = 0 then (x : Fp) = nodes l ∧ path[l]? = some (y : Fp)
        else path[l]? = some (x : Fp) ∧ (y : Fp) = nodes l) ∧
      (sinsemillaHashToPoint P Constants.qMerkleCrh
          (leBits 10 l ++ leBits 255 x ++ leBits 255 y) = none ∨
        ∃ h, sinsemillaHashToPoint P Constants.qMerkleCrh
          (leBits 10 l ++ leBits 255 x ++ leBits 255 y) = some h ∧ nodes (l + 1) = extractP h)

/-- The Action statement for the public inputs `i` and the auxiliary input `w`. -/
structure ActionStatement (P : Prims) (i : Instance) (w : ActionWitness) : Prop where
  /-- types of the auxiliary inputs -/
  gdOld : w.gdOld ≠ 0
  pkdOld : w.pkdOld ≠ 0
  gdNew : w.gdNew ≠ 0
  pkdNew : w.pkdNew ≠ 0
  ak : w.ak ≠ 0
  vOld : w.vOld < 2 ^ 64
  vNew : w.vNew < 2 ^ 64
  /-- old note commitment integrity -/
  cmOld : noteCommit P w.gdOld w.pkdOld w.vOld w.rhoOld w.psiOld w.rcmOld = some w.cmOld ∨
    noteCommit P w.gdOld w.pkdOld w.vOld w.rhoOld w.psiOld w.rcmOld = none
  /-- Merkle path validity -/
  merkle : w.vOld = 0 ∨ MerklePathValid P w.path w.pos (extractP w.cmOld) i.anchor
  /-- value commitment integrity -/
  cvNet : i.cvNet.inner = (((w.vOld : ℤ) - (w.vNew : ℤ) : ℤ) : Fq) • Constants.valueCommitV +
    w.rcv • Constants.valueCommitR
  /-- nullifier integrity -/
  nfOld : i.nfOld = deriveNullifier P w.nk w.rhoOld w.psiOld w.cmOld
  /-- spend authority -/
  rk : i.rk.point = w.alpha • Constants.spendAuthG + w.ak
  /-- diversified address integrity -/
  pkd : commitIvk P (extractP w.ak) w.nk w.rivk = none ∨
    ∃ ivk : Fp, commitIvk P (extractP w.ak) w.nk w.rivk = some ivk ∧
      w.pkdOld = ((ivk.val : ℕ) : Fq) • w.gdOld
  /-- new note commitment integrity, with `ρ^new = nf^old` -/
  cmx : (∃ cm, noteCommit P w.gdNew w.pkdNew w.vNew i.nfOld w.psiNew w.rcmNew = some cm ∧
      i.cmx = extractP cm) ∨
    noteCommit P w.gdNew w.pkdNew w.vNew i.nfOld w.psiNew w.rcmNew = none
  /-- enable spend flag -/
  enableSpend : w.vOld = 0 ∨ i.enableSpend = true
  /-- enable output flag -/
  enableOutput : w.vNew = 0 ∨ i.enableOutput = true

end Orchard.Spec
