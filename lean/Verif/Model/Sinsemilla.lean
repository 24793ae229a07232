import Verif.Model.Prims

/-!
# Sinsemilla (crate `sinsemilla`, used by `spec.rs`, `note/commitment.rs`, `tree.rs`)

Not in `/repo`; modelled from the protocol specification § 5.4.1.9 and § 5.4.8.4, which the crate
implements.
-/

namespace Orchard

/-- Incomplete addition `⸭` on Pallas (protocol spec § 5.4.1.9): undefined when an operand is the
identity or the operands have equal `x`.
Of the hash used at `spec.rs:208`, `note/commitment.rs:48`, `tree.rs:227`. -/
noncomputable def incompleteAdd (A B : Point) : Option Point :=
  if A = 0 ∨ B = 0 ∨ A = B ∨ A = -B then none else some (A + B)

/-- Cut a bit string into `10`-bit chunks, zero-padding the last one
(`Pad` and `chunks(K)` in `HashDomain::hash_to_point_inner`). `fuel` bounds the recursion.
Of the hash used at `spec.rs:208`, `note/commitment.rs:48`, `tree.rs:227`. -/
def chunksAux : ℕ → List Bool → List ℕ
  | 0, _ => []
  | _ + 1, [] => []
  | fuel + 1, l => bitsNat (l.take 10) :: chunksAux fuel (l.drop 10)

/-- The `10`-bit words of a message.  (Zero padding does not change `bitsNat` of the last chunk.).
Of the hash used at `spec.rs:208`, `note/commitment.rs:48`, `tree.rs:227`. -/
def chunks (l : List Bool) : List ℕ := chunksAux l.length l

/-- One step `(Acc ⸭ S(m)) ⸭ Acc`.
Of the hash used at `spec.rs:208`, `note/commitment.rs:48`, `tree.rs:227`. -/
noncomputable def sinsemillaStep (P : Prims) (acc : Point) (m : ℕ) : Option Point :=
  (incompleteAdd acc (P.sinsemillaS m)).bind fun t => incompleteAdd t acc

/-- `HashDomain::hash_to_point`: `none` is `⊥`. Used at `tree.rs:227`. -/
noncomputable def sinsemillaHashToPoint (P : Prims) (Q : Point) (msg : List Bool) : Option Point :=
  (chunks msg).foldlM (sinsemillaStep P) Q

/-- Coordinate extractor, `spec.rs:266-272` `extract_p`. -/
def extractP : Point → Fp
  | .zero => 0
  | .some x _ _ => x

/-- `HashDomain::hash` = `extract_p_bottom(hash_to_point)` (`spec.rs:279-281`). -/
noncomputable def sinsemillaHash (P : Prims) (Q : Point) (msg : List Bool) : Option Fp :=
  (sinsemillaHashToPoint P Q msg).map extractP

/-- `CommitDomain::commit`: the blinding term is added with complete addition.
Called at `note/commitment.rs:48-60`. -/
noncomputable def sinsemillaCommit (P : Prims) (Q R : Point) (msg : List Bool) (r : Fq) :
    Option Point :=
  (sinsemillaHashToPoint P Q msg).map fun h => h + r • R

/-- `CommitDomain::short_commit`. Called at `spec.rs:208-214`. -/
noncomputable def sinsemillaShortCommit (P : Prims) (Q R : Point) (msg : List Bool) (r : Fq) :
    Option Fp :=
  (sinsemillaCommit P Q R msg r).map extractP

end Orchard
