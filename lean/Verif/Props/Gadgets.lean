import Verif.Lemmas.RegionCalls
import Verif.Props.Pinned

/-!
# C82-C88: the gadgets, from the pinned gates and lookups

For any table and fixed columns that satisfy the gates and lookups of the pinned constraint system
(`/repo/src/circuit_description`, `Spec.Satisfied`) with the Sinsemilla table loaded (`Spec.TableLoaded`): what the
cells of a gadget contain, given only which selectors and constants are on its rows and which cells are copied
(`Verif/Model/Regions.lean`).  A table with all of these regions: `Examples.regions_P0`, and for whole circuits C89.
-/

namespace Orchard

open Halo2 Layout Regions

variable {P : Prims} {T : Table} {F : Spec.FixedTable}

/-! ### C82: range checks -/

/-- **C82.** A range check of `n` words: the element is the sum of a number below `2^(10 n)` and `2^(10 n)` times what
the last cell of the running sum contains. -/
theorem C82_range (hT : Spec.Satisfied T F) (hL : Spec.TableLoaded P F) {n s : ℕ} (h : RangeCheckRegion F n s) :
    ∃ k < 2 ^ (10 * n), T (9, s) = (k : ℕ) + 2 ^ (10 * n) * T (9, s + n) :=
  runningSum_value (rangeCheck_sound hT.2 hL h)

/-- **C82.** A strict range check of at most 25 words: the element is below `2^(10 n)`. -/
theorem C82_strict (hT : Spec.Satisfied T F) (hL : Spec.TableLoaded P F) {n s : ℕ} (hn : n ≤ 25)
    (h : RangeCheckRegion F n s) (h0 : T (9, s + n) = 0) : (T (9, s)).val < 2 ^ (10 * n) := by
  obtain ⟨k, hk, e⟩ := C82_range hT hL h
  rw [h0, mul_zero, add_zero] at e
  have hp : 2 ^ 250 < p := by decide +kernel
  have h250 : 2 ^ (10 * n) ≤ 2 ^ 250 := Nat.pow_le_pow_right (by norm_num) (by omega)
  rw [e, ZMod.val_natCast_of_lt (by omega)]
  exact hk

/-- **C82.** A short range check: the element has that many bits. -/
theorem C82_short (hT : Spec.Satisfied T F) (hL : Spec.TableLoaded P F) {bits s : ℕ} (hb : bits ≤ 10)
    (h : ShortCheckRegion T F bits s) : (T (9, s)).val < 2 ^ bits := by
  obtain ⟨k, hk, e⟩ := (shortCheck_iff hb _).1 (shortCheck_sound hT hL hb h)
  have hp : 2 ^ 250 < p := by decide +kernel
  have h250 : 2 ^ bits ≤ 2 ^ 250 := Nat.pow_le_pow_right (by norm_num) (by omega)
  rw [e, ZMod.val_natCast_of_lt (by omega)]
  exact hk

/-! ### C83: Sinsemilla -/

/-- **C83.** The Sinsemilla hash of a message of pieces of `ns` words (1 to 25 each), on either chip: the cells of the pieces contain
numbers of that many words, and the result is the hash of the bits of these numbers, if it exists. -/
theorem C83_sinsemilla (hT : Spec.Satisfied T F) (hL : Spec.TableLoaded P F) {chip : HashChip}
    (hc : chip = hashChip1 ∨ chip = hashChip2) {Q : Point} {ns : List ℕ} (h0 : ns ≠ []) (hn : ∀ n ∈ ns, 0 < n ∧ n ≤ 25)
    {s : ℕ} (h : HashRegion T F chip Q ns s) :
    ∃ N : ℕ → ℕ, (∀ j n, ns[j]? = some n → N j < 2 ^ (10 * n) ∧
        T (chip.col + 2, s + (ns.take j).sum) = (N j : ℕ)) ∧
      ∀ A, sinsemillaHashToPoint P Q ((List.range ns.length).flatMap fun j => leBits (10 * ns.getD j 0) (N j)) =
        some A → hashResult T chip ns s = cells A := by
  obtain ⟨hok, hret⟩ := hash_sound hT hL hc h0 (fun n m => (hn n m).1) h
  obtain ⟨N, h1, h2⟩ := pieces_values ns hn s hok
  refine ⟨N, h1, fun A hA => ?_⟩
  rw [sinsemillaHashToPoint, ← h2] at hA
  rw [hA] at hret
  rcases hret with ⟨B, e, hB⟩ | ⟨-, e⟩
  · rw [Option.some.inj e, hB]
  · cases e

/-! ### C84: Merkle paths -/

/-- **C84.** A Merkle path of at most `2^10` layers, each on either chip: the swap cells contain the bits of a
position, and the last node is the one that the layer hashes give for the leaf, the siblings and the position, with
encodings of the nodes of 255 bits that need not be canonical. -/
theorem C84_merkle (hT : Spec.Satisfied T F) (hL : Spec.TableLoaded P F) {rows : ℕ → LayerRows} {n : ℕ}
    (hn : n ≤ 2 ^ 10) {leaf : Fp} (h : MerkleRegion T F rows n leaf) :
    ∃ pos encs, pos < 2 ^ n ∧ (∀ l < n, T (rows l).bit = if pos.testBit l then 1 else 0) ∧
      MerkleRoot P false pos 0 ((List.range n).map fun l => T (rows l).sibling) encs leaf
        (merkleNode T rows leaf n) :=
  merkle_sound hT hL hn h

/-! ### C85: variable-base multiplication -/

/-- **C85.** Multiplication of a point other than the identity by a base field element: the result is the multiple of
the point by the canonical integer of the element, for every element. -/
theorem C85_mul (hT : Spec.Satisfied T F) (hL : Spec.TableLoaded P F) {s o t : ℕ} {B : Point} (hB : B ≠ 0)
    {alpha : Fp} (h : MulVarRegion T F s o t (cells B) alpha) :
    pointAt T 2 (s + 136) = cells ((alpha.val : Fq) • B) :=
  mulVar_sound hT hL hB h

/-! ### C86: Poseidon -/

/-- **C86.** The Poseidon gadget computes the hash of its two inputs. -/
theorem C86_poseidon (hT : Spec.Satisfied T F) {s0 s : ℕ} {x y : Fp} (h : PoseidonRegion T F s0 s x y) :
    T (6, s + 36) = Poseidon.hash x y :=
  poseidon_sound hT.1 h

/-! ### C87: points and fixed bases -/

/-- **C87.** A witnessed point is on the curve or the identity, and a witnessed non-identity point is a point other
than the identity. -/
theorem C87_witness (hT : Spec.Satisfied T F) {s : ℕ} :
    (WitnessPointRegion F s → ∃ A : Point, pointAt T 0 s = cells A) ∧
    (WitnessNonIdRegion F s → ∃ A : Point, A ≠ 0 ∧ pointAt T 0 s = cells A) :=
  ⟨witnessPoint_sound hT.1, witnessNonId_sound hT.1⟩

/-- **C87.** Complete addition: the result is the sum of any two points. -/
theorem C87_add (hT : Spec.Satisfied T F) {s : ℕ} {A B : Point} (h : AddRegion T F s (cells A) (cells B)) :
    pointAt T 2 (s + 1) = cells (A + B) :=
  add_sound hT.1 h

/-- **C87.** Fixed-base multiplication by a full-width scalar: the windows are three bits each, and the result is the
multiple of the base by the number that they spell. -/
theorem C87_mul_full (hT : Spec.Satisfied T F) (b : FixedBasesFull) {s e : ℕ} (h : MulFullRegion T F b.point s e) :
    (∀ w < 85, (T (4, s + w)).val < 8) ∧
      pointAt T 2 (e + 1) = cells ((∑ w ∈ Finset.range 85, ((T (4, s + w)).val : Fq) * 8 ^ w) • b.point.generator) := by
  obtain ⟨hw, A, h1, h2⟩ := (C75_full b _ _).1 ⟨_, full_gates hT.1 h⟩
  exact ⟨hw, h1.trans (congrArg cells h2)⟩

/-- **C87.** Multiplication of the value base by a short signed scalar: the magnitude is below `2^64`, the sign is `1`
or `-1`, and the result is that multiple of the base. -/
theorem C87_mul_short (hT : Spec.Satisfied T F) {s e : ℕ} {magnitude sign : Fp}
    (h : MulShortRegion T F valueCommitVPoint s e magnitude sign) :
    magnitude.val < 2 ^ 64 ∧
      (sign = 1 ∧ (T (2, e + 1), T (1, e + 1)) = cells ((magnitude.val : Fq) • Constants.valueCommitV) ∨
        sign = -1 ∧ (T (2, e + 1), T (1, e + 1)) = cells (-((magnitude.val : Fq) • Constants.valueCommitV))) := by
  obtain ⟨A, h1, h2, h3⟩ := (C75_short _ _ _).1 ⟨_, _, _, short_gates hT.1 h⟩
  refine ⟨h2, ?_⟩
  rcases h3 with ⟨hs, rfl⟩ | ⟨hs, rfl⟩
  · exact Or.inl ⟨hs, h1⟩
  · exact Or.inr ⟨hs, h1⟩

/-- **C87.** Multiplication of the nullifier base by a base field element: the result is the multiple of the base by
the canonical integer of the element. -/
theorem C87_mul_base (hT : Spec.Satisfied T F) (hL : Spec.TableLoaded P F) {s e k t : ℕ} {scalar : Fp}
    (h : MulBaseRegion T F nullifierKPoint s e k t scalar) :
    pointAt T 2 (e + 1) = cells ((scalar.val : Fq) • Constants.nullifierK) := by
  obtain ⟨A, h1, h2⟩ := (C75_base _ _).1 ⟨_, _, _, base_gates hT hL h⟩
  exact h1.trans (congrArg cells h2)

/-! ### C88: the whole circuit -/

/-- **C88.** Every gadget call whose regions are in the table satisfies its contract. -/
theorem C88_contracts (hP : ∀ x y, P.poseidon x y = Poseidon.hash x y) (hT : Spec.Satisfied T F)
    (hL : Spec.TableLoaded P F) (g : GadgetCall) (h : Placed P T F g) : g.Contract T :=
  contract_of_placed hP hT hL h

/-- **C88** (soundness down to the pinned gates and lookups). Take any table and fixed columns that satisfy the gates
and lookups of the pinned constraint system, with the Sinsemilla table loaded, the selectors of this crate's gates as
synthesis enables them, the regions of all gadget calls of synthesis somewhere in the table, the copy constraints of
synthesis, and the public inputs of an instance in the instance column.  Then the cells of the private inputs contain
a witness of the Action statement for that instance. -/
theorem C88_action_sound (hP : ∀ x y, P.poseidon x y = Poseidon.hash x y) (plan : Plan) (pub : ℕ → Fp) (w : Circuit)
    (i : Instance) (inst : List Fp) (hi : i.toHalo2 = .ret inst)
    (hT : Spec.Satisfied T F) (hL : Spec.TableLoaded P F)
    (hF : Spec.Selected F (events P plan pub w))
    (hG : ∀ g, Event.gadget g ∈ events P plan pub w → Placed P T F g)
    (hE : ∀ a b, Event.equal a b ∈ events P plan pub w → T a = T b)
    (hI : ∀ a row, Event.instance a row ∈ events P plan pub w → inst[row]? = some (T a)) :
    ∃ aw, Spec.ActionStatement P i aw ∧ Spec.Contain (witnessCells P plan pub w) T aw := by
  refine C81_layout_sound P plan pub w T F i inst hi hF hT.1 fun e he hne => ?_
  cases e with
  | enable s row => exact absurd rfl (hne s row)
  | equal a b => exact hE a b he
  | «instance» a row => exact hI a row he
  | gadget g => exact C88_contracts hP hT hL g (hG g he)
  | write c v => trivial

end Orchard
