import Verif.Model.LayoutCircuit
import Verif.Spec.Circuit

/-!
# Notions for the properties of the circuit's table
-/

namespace Orchard.Spec

open Layout Halo2

/-- An event without the value that the prover writes. -/
def shape : Event → Event
  | .write c _ => .write c 0
  | e => e

/-- The cell that the prover writes. -/
def written : Event → Option Cell
  | .write c _ => some c
  | _ => none

/-- The table holds a value that the prover writes. -/
def Holds (T : Table) : Event → Prop
  | .write c v => T c = v
  | _ => True

/-- A floor plan is possible if gadgets use the ten advice columns and no cell is written twice. -/
structure PossiblePlan (P : Prims) (plan : Plan) : Prop where
  columns : ∀ n i, (plan.gadget n i).1 < 10
  disjoint : ∀ w inst, ((events P plan inst w).filterMap written).Nodup

/-- A pair of cells holds the coordinates of a point; `(0, 0)` stands for the identity. -/
def PointIn (T : Table) (c : Cell × Cell) : Point → Prop
  | .zero => T c.1 = 0 ∧ T c.2 = 0
  | .some x y _ => T c.1 = x ∧ T c.2 = y

/-- The cells of the private inputs contain this auxiliary input of the Action statement. -/
structure Contain (c : WitnessCells) (T : Table) (w : ActionWitness) : Prop where
  psiOld : T c.psiOld = w.psiOld
  rhoOld : T c.rhoOld = w.rhoOld
  cmOld : PointIn T c.cmOld w.cmOld
  gdOld : PointIn T c.gdOld w.gdOld
  ak : PointIn T c.ak w.ak
  nk : T c.nk = w.nk
  vOld : (T c.vOld).val = w.vOld
  vNew : (T c.vNew).val = w.vNew
  path : w.path = (List.range 32).map fun l => T (c.sibling l)
  /-- the cells of the position contain its 32 bits -/
  pos : w.pos < 2 ^ 32 ∧ ∀ l < 32, (T (c.bit l)).val = w.pos / 2 ^ l % 2
  pkdOld : PointIn T c.pkdOld w.pkdOld
  gdNew : PointIn T c.gdNew w.gdNew
  pkdNew : PointIn T c.pkdNew w.pkdNew
  psiNew : T c.psiNew = w.psiNew

end Orchard.Spec
