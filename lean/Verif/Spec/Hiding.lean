import Verif.Model.Builder

/-!
# Specification for the hiding properties: replacing the blinding values of a build
-/

namespace Orchard.Spec

/-- The draws of a build with the value commitment trapdoor and the spend authorisation randomiser of
the first `n` actions replaced: action `i` gets `(rcv, alpha) = z i`.  All other draws are kept. -/
def reblind {n : ℕ} (rng : BuildDraws) (z : Fin n → Fq × Fq) : BuildDraws :=
  { rng with
    rcv := fun i => if h : i < n then (z ⟨i, h⟩).1 else rng.rcv i
    action := fun i =>
      { rng.action i with alpha := if h : i < n then (z ⟨i, h⟩).2 else (rng.action i).alpha } }

/-- The published values of an action that depend on the blinding values: `cv_net` and `rk`. -/
def blinded {A : Type} (a : Action A) : Point × Point := (a.cvNet.inner, a.rk.point)

end Orchard.Spec
