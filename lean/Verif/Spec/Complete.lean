import Verif.Model.Regions
import Verif.Spec.Circuit
import Verif.Spec.Pinned

/-!
# Specification for C89: satisfying tables, and witnesses for which everything is defined
-/

namespace Orchard.Spec

open Halo2 Layout

/-- The table and the fixed columns satisfy the constraint system of `/repo/src/circuit_description` for the public
inputs `inst`: the gates and lookups, with what synthesis does for the witness `w` (`circuit.rs:373-729`): its
selectors, the regions of its gadget calls, its copy constraints, and its public inputs. -/
structure SatisfiesCircuit (P : Prims) (plan : Plan) (w : Circuit) (inst : List Fp) (T : Table) (F : FixedTable) :
    Prop where
  gates : Satisfied T F
  selected : Selected F (events P plan (fun row => inst.getD row 0) w)
  placed : ∀ g, Event.gadget g ∈ events P plan (fun row => inst.getD row 0) w → Regions.Placed P T F g
  equal : ∀ a b, Event.equal a b ∈ events P plan (fun row => inst.getD row 0) w → T a = T b
  inputs : ∀ a row, Event.instance a row ∈ events P plan (fun row => inst.getD row 0) w → inst[row]? = some (T a)

/-- The nodes of a Merkle path of depth 32 of which every hash exists (with canonical encodings of the nodes): at level
`l` the running node is the left child iff bit `l` of the position is zero. -/
def MerkleNodes (P : Prims) (path : List Fp) (pos : ℕ) (leaf : Fp) (nodes : ℕ → Fp) : Prop :=
  path.length = 32 ∧ pos < 2 ^ 32 ∧ nodes 0 = leaf ∧ ∀ l < 32, ∃ left right h,
    (if pos / 2 ^ l % 2 = 0 then left = nodes l ∧ path[l]? = some right
      else path[l]? = some left ∧ right = nodes l) ∧
    sinsemillaHashToPoint P Constants.qMerkleCrh (leBits 10 l ++ leBits 255 left.val ++ leBits 255 right.val) =
      some h ∧ nodes (l + 1) = extractP h

/-- The Action statement (`Spec.ActionStatement`) for a witness for which every hash exists: also that of the Merkle
path of a note of value 0. -/
structure DefinedStatement (P : Prims) (i : Instance) (w : ActionWitness) : Prop where
  gdOld : w.gdOld ≠ 0
  pkdOld : w.pkdOld ≠ 0
  gdNew : w.gdNew ≠ 0
  pkdNew : w.pkdNew ≠ 0
  ak : w.ak ≠ 0
  vOld : w.vOld < 2 ^ 64
  vNew : w.vNew < 2 ^ 64
  cmOld : noteCommit P w.gdOld w.pkdOld w.vOld w.rhoOld w.psiOld w.rcmOld = some w.cmOld
  merkle : ∃ nodes, MerkleNodes P w.path w.pos (extractP w.cmOld) nodes ∧ (w.vOld = 0 ∨ nodes 32 = i.anchor)
  cvNet : i.cvNet.inner = (((w.vOld : ℤ) - (w.vNew : ℤ) : ℤ) : Fq) • Constants.valueCommitV +
    w.rcv • Constants.valueCommitR
  nfOld : i.nfOld = deriveNullifier P w.nk w.rhoOld w.psiOld w.cmOld
  rk : i.rk.point = w.alpha • Constants.spendAuthG + w.ak
  pkd : ∃ ivk : Fp, commitIvk P (extractP w.ak) w.nk w.rivk = some ivk ∧ w.pkdOld = ((ivk.val : ℕ) : Fq) • w.gdOld
  cmx : ∃ cm, noteCommit P w.gdNew w.pkdNew w.vNew i.nfOld w.psiNew w.rcmNew = some cm ∧ i.cmx = extractP cm
  enableSpend : w.vOld = 0 ∨ i.enableSpend = true
  enableOutput : w.vNew = 0 ∨ i.enableOutput = true

end Orchard.Spec
