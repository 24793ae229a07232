import Verif.Lemmas.Generators
import Verif.Model.Spec

/-!
# C73: the generators are those of the specification

`HashToCurve.hashToCurve` is `pallas::Point::hash_to_curve` written out from RFC 9380 and the protocol
specification, down to BLAKE2b.  The kernel evaluates it on the strings of the crate.
-/

namespace Orchard

open Constants

/-- **C73.** Every tabulated generator is `hash_to_curve` of the strings the crate's run-time code and the
crate `sinsemilla` use for it: `value.rs:311-313` (with `constants/fixed_bases.rs:22-28`),
`note/nullifier.rs:59`, `constants/fixed_bases.rs:18` with `"G"`, `CommitDomain::new` (suffixes `-M`, `-r`,
personalisations `constants/fixed_bases.rs:31-34`), and `HashDomain::new` for `tree.rs:227`. -/
theorem C73_generators :
    HashToCurve.hashToCurve (ascii "z.cash:Orchard") (ascii "G") = spendAuthG ∧
    HashToCurve.hashToCurve (ascii "z.cash:Orchard") (ascii "K") = nullifierK ∧
    HashToCurve.hashToCurve (ascii "z.cash:Orchard-cv") (ascii "v") = valueCommitV ∧
    HashToCurve.hashToCurve (ascii "z.cash:Orchard-cv") (ascii "r") = valueCommitR ∧
    HashToCurve.hashToCurve (ascii "z.cash:Orchard-NoteCommit-r") (ascii "") = noteCommitR ∧
    HashToCurve.hashToCurve (ascii "z.cash:Orchard-CommitIvk-r") (ascii "") = commitIvkR ∧
    HashToCurve.hashToCurve (ascii "z.cash:SinsemillaQ") (ascii "z.cash:Orchard-NoteCommit-M") =
      qNoteCommit ∧
    HashToCurve.hashToCurve (ascii "z.cash:SinsemillaQ") (ascii "z.cash:Orchard-CommitIvk-M") =
      qCommitIvk ∧
    HashToCurve.hashToCurve (ascii "z.cash:SinsemillaQ") (ascii "z.cash:Orchard-MerkleCRH") =
      qMerkleCrh :=
  ⟨Generators.hash_spendAuthG, Generators.hash_nullifierK, Generators.hash_valueCommitV,
    Generators.hash_valueCommitR, Generators.hash_noteCommitR, Generators.hash_commitIvkR,
    Generators.hash_qNoteCommit, Generators.hash_qCommitIvk, Generators.hash_qMerkleCrh⟩

/-- **C73.** The nine generators are pairwise different, and none is the negative of another. -/
theorem C73_distinct :
    [spendAuthG, nullifierK, valueCommitV, valueCommitR, noteCommitR, commitIvkR, qNoteCommit, qCommitIvk,
      qMerkleCrh].Pairwise fun A B => A ≠ B ∧ A ≠ -B := by
  have key : ∀ {x y x' y' : Fp} {h : y ^ 2 = x ^ 3 + 5} {h' : y' ^ 2 = x' ^ 3 + 5}, x ≠ x' →
      Point.ofXY x y h ≠ Point.ofXY x' y' h' ∧ Point.ofXY x y h ≠ -Point.ofXY x' y' h' := by
    intro x y x' y' h h' hx
    rw [Point.neg_ofXY, Ne, Ne, Point.ofXY_inj, Point.ofXY_inj]
    exact ⟨fun c => hx c.1, fun c => hx c.1⟩
  simp only [List.pairwise_cons, List.mem_cons, List.not_mem_nil, or_false, forall_eq_or_imp, forall_eq,
    IsEmpty.forall_iff, implies_true, List.Pairwise.nil, and_true]
  refine ⟨⟨?_, ?_, ?_, ?_, ?_, ?_, ?_, ?_⟩, ⟨?_, ?_, ?_, ?_, ?_, ?_, ?_⟩, ⟨?_, ?_, ?_, ?_, ?_, ?_⟩,
    ⟨?_, ?_, ?_, ?_, ?_⟩, ⟨?_, ?_, ?_, ?_⟩, ⟨?_, ?_, ?_⟩, ⟨?_, ?_⟩, ?_⟩ <;>
    exact key (by decide +kernel)

/-- **C73.** With this `hash_to_curve`, `diversify_hash` (`spec.rs:220-226`) is never the identity: if the
hash of the diversifier is the identity, the hash of the empty string takes its place and is not. -/
theorem C73_diversify_hash (P : Prims) (hP : P.hashToCurve = HashToCurve.hashToCurve) (d : Bytes 11) :
    diversifyHash P d ≠ 0 := by
  unfold diversifyHash
  rw [hP]
  dsimp only
  split
  · exact Generators.gd_ne_zero
  · assumption

end Orchard
