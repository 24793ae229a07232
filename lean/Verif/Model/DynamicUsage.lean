import Verif.Model.Bundle
import Verif.Model.Wnaf

/-!
# Memory accounting

The implementations of `memuse::DynamicUsage` in `/repo/src`.  The crate `memuse` (its implementations
for `u8`, `i64`, `Vec` and `NonEmpty`) is not in `/repo`; they are written down here as that crate defines
them.  A `Vec` is modelled by a list; its capacity is not determined by its contents and is an argument.
Sizes are natural numbers (no wrap-around of `usize`).
-/

namespace Orchard

/-- `memuse::DynamicUsage`: heap bytes used by a value, and bounds that are cheap to compute.
Implemented at the places cited below, for instance `bundle.rs:459-483`. -/
structure DynamicUsage (X : Type) where
  usage : X → ℕ
  bounds : X → ℕ × Option ℕ

namespace DynamicUsage

/-- `memuse::impl_no_dynamic_usage!` (used at `note.rs:29` for `Rho`, `note/nullifier.rs:19` for
`Nullifier`; also `u8` and `i64`), and `action.rs:109-119` `impl DynamicUsage for Action`. -/
def none {X : Type} : DynamicUsage X := ⟨fun _ => 0, fun _ => (0, some 0)⟩

/-- Component-wise sum of two bounds (`zip` and `map` of the upper bounds).
For instance `bundle.rs:470-482`. -/
def addBounds (a b : ℕ × Option ℕ) : ℕ × Option ℕ :=
  (a.1 + b.1, a.2.bind fun x => b.2.map fun y => x + y)

/-- `impl DynamicUsage for Vec<T>` of `memuse`: elements of `size` bytes, room for `cap` of them.
Used at `circuit.rs:884-892`, `spec.rs:156-164`. -/
def vec {X : Type} (u : DynamicUsage X) (size cap : ℕ) : DynamicUsage (List X) where
  usage l := cap * size + (l.map u.usage).sum
  bounds l :=
    let b := l.foldl (fun acc x => addBounds acc (u.bounds x)) (0, some 0)
    (cap * size + b.1, b.2.map fun x => cap * size + x)

/-- `impl DynamicUsage for NonEmpty<T>` of `memuse`: the head is stored inline, the tail is a `Vec`.
Used at `bundle.rs:459-483`. -/
def nonEmpty {X : Type} (u : DynamicUsage X) (size cap : ℕ) : DynamicUsage (X × List X) where
  usage l := u.usage l.1 + (vec u size cap).usage l.2
  bounds l := addBounds (u.bounds l.1) ((vec u size cap).bounds l.2)

end DynamicUsage

/-- `circuit.rs:884-892` `impl DynamicUsage for Proof`: that of its `Vec<u8>`. -/
def proofUsage (cap : ℕ) : DynamicUsage (List UInt8) := DynamicUsage.vec .none 1 cap

/-- `spec.rs:156-164` `impl DynamicUsage for PreparedNonZeroScalar` and `keys.rs:684-692`
`impl DynamicUsage for PreparedIncomingViewingKey`: that of the `Vec<i64>` in `WnafScalar`. -/
def preparedUsage (cap : ℕ) : DynamicUsage Wnaf.PreparedScalar where
  usage s := (DynamicUsage.vec .none 8 cap).usage s.wnaf
  bounds s := (DynamicUsage.vec .none 8 cap).bounds s.wnaf

/-- `note_encryption.rs:87-95` `impl DynamicUsage for OrchardDomain`: that of its `rho`. -/
def domainUsage : DynamicUsage Fp := .none

/-- `NonEmpty` as head and tail. The field `bundle.rs:154`. -/
def Bundle.headTail {T A V : Type} (b : Bundle T A V) : Action A × List (Action A) :=
  (b.actions.head b.nonempty, b.actions.tail)

/-- `bundle.rs:459-483` `impl DynamicUsage for Bundle<Authorized, V>`; `size` is the size of an action,
`capTail` and `capProof` are the capacities of the two vectors. -/
def bundleUsage {V : Type} (u : DynamicUsage V) (size capTail capProof : ℕ) :
    DynamicUsage (AuthorizedBundle V) where
  usage b := (DynamicUsage.nonEmpty .none size capTail).usage b.headTail +
    u.usage b.valueBalance + (proofUsage capProof).usage b.authorization.proof
  bounds b :=
    let b0 := (DynamicUsage.nonEmpty .none size capTail).bounds b.headTail
    let b1 := u.bounds b.valueBalance
    let b2 := (proofUsage capProof).bounds b.authorization.proof
    (b0.1 + b1.1 + b2.1,
      (b0.2.bind fun a => b1.2.bind fun b => b2.2.map fun c => ((a, b), c)).map
        fun x => x.1.1 + x.1.2 + x.2)

end Orchard
