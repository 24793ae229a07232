import Verif.Lemmas.PatchCircuit
import Verif.Props.Gadgets

/-!
# Non-vacuity of C82-C88: one table with all regions
-/

namespace Orchard.Examples

open Halo2 Layout Regions

theorem firstGenerator_P0 : Spec.FirstGenerator P0 := ⟨rfl, rfl⟩

/-- The example table: that of an action of `circuit_P0`. -/
theorem table_P0 : ∃ (c : Circuit) (inst : List Fp) (T : Table) (i : Instance), i.toHalo2 = .ret inst ∧
    c.vOld.inner = 5 ∧ Spec.Satisfied T (fixed1 P0) ∧ Spec.TableLoaded P0 (fixed1 P0) ∧
    ∀ g ∈ calls1 P0, Placed P0 T (fixed1 P0) g := by
  obtain ⟨b, h1, h1', ⟨c, hc, hv⟩, h3⟩ := circuit_P0
  obtain ⟨i, hi⟩ := List.mem_iff_getElem?.1 hc
  have hib : i < b.actions.length := by
    rw [h1, ← h1']
    exact (List.getElem?_eq_some_iff.1 hi).1
  obtain ⟨k, inst, hk, hins, hsyn, -⟩ := h3 i _ c (List.getElem?_eq_getElem hib) hi
  obtain ⟨T, t1, -, t3, -⟩ := circuit_table (P := P0) (fun _ _ => rfl) firstGenerator_P0 hins hk hsyn
  refine ⟨c, inst, T, _, hins, hv, t1, patchFixed_loaded P0 _, fun g hg => ?_⟩
  rw [← calls_eq P0 (fun row => inst.getD row 0) c, List.mem_filterMap] at hg
  obtain ⟨e, he, hg⟩ := hg
  cases e with
  | gadget g' =>
    simp only [callOf, Option.some.injEq] at hg
    exact t3 g (hg ▸ he)
  | _ => cases hg

/-! The kinds of gadget calls. -/

def isRange : GadgetCall → Bool
  | .rangeCheck n strict _ => strict && Nat.ble 1 n && Nat.ble n 25
  | _ => false

def isShort : GadgetCall → Bool
  | .shortCheck _ _ => true
  | _ => false

def isCommit : GadgetCall → Bool
  | .commit _ _ _ pieces _ => pieces.all fun m => Nat.ble m.1 25
  | _ => false

def isMerkle : GadgetCall → Bool
  | .merkleRoot .. => true
  | _ => false

def isPoseidon : GadgetCall → Bool
  | .poseidon .. => true
  | _ => false

def isPoint : GadgetCall → Bool
  | .witnessPoint _ => true
  | _ => false

def isBase : GadgetCall → Bool
  | .mulFixedBase .. => true
  | _ => false

def sameCells (a b : Cell × Cell) : Bool :=
  Nat.beq a.1.1 b.1.1 && Nat.beq a.1.2 b.1.2 && Nat.beq a.2.1 b.2.1 && Nat.beq a.2.2 b.2.2

theorem sameCells_sound {a b : Cell × Cell} (h : sameCells a b = true) : a = b := by
  obtain ⟨⟨a1, a2⟩, a3, a4⟩ := a
  obtain ⟨⟨b1, b2⟩, b3, b4⟩ := b
  simp only [sameCells, Bool.and_eq_true, Nat.beq_eq] at h
  obtain ⟨⟨⟨rfl, rfl⟩, rfl⟩, rfl⟩ := h
  rfl

def isMul (x : GadgetCall × GadgetCall) : Bool :=
  match x with
  | (.witnessNonIdentity c, .mulVar base _ _) => sameCells c base
  | _ => false

def isAdd (x : GadgetCall × GadgetCall × GadgetCall) : Bool :=
  match x with
  | (.mulFixedShort _ _ _ c, .mulFixed _ d, .add a b _) => sameCells c a && sameCells d b
  | _ => false

def pairs (l : List GadgetCall) : List (GadgetCall × GadgetCall) := l.flatMap fun g => l.map fun h => (g, h)

def isShortFull : GadgetCall → Bool
  | .mulFixedShort .. => true
  | .mulFixed .. => true
  | .add .. => true
  | _ => false

def triples (l : List GadgetCall) : List (GadgetCall × GadgetCall × GadgetCall) :=
  l.flatMap fun g => (pairs l).map fun h => (g, h)

theorem find_call {l : List GadgetCall} {f : GadgetCall → Bool} (h : l.any f = true) : ∃ g ∈ l, f g = true :=
  List.any_eq_true.1 h

theorem has_range (P : Prims) : (calls1 P).any isRange = true := by kernel_rfl
theorem has_short (P : Prims) : (calls1 P).any isShort = true := by kernel_rfl
theorem has_commit (P : Prims) : (calls1 P).any isCommit = true := by kernel_rfl
theorem has_merkle (P : Prims) : (calls1 P).any isMerkle = true := by kernel_rfl
theorem has_poseidon (P : Prims) : (calls1 P).any isPoseidon = true := by kernel_rfl
theorem has_point (P : Prims) : (calls1 P).any isPoint = true := by kernel_rfl
theorem has_base (P : Prims) : (calls1 P).any isBase = true := by kernel_rfl
theorem has_mul (P : Prims) : (pairs (calls1 P)).any isMul = true := by kernel_rfl
theorem has_add (P : Prims) : (triples ((calls1 P).filter isShortFull)).any isAdd = true := by kernel_rfl

/-- The regions of `C82`-`C87`: all of them are in the example table. -/
theorem regions_P0 : ∃ (T : Table) (F : Spec.FixedTable), Spec.Satisfied T F ∧ Spec.TableLoaded P0 F ∧
    (∃ n s, 0 < n ∧ n ≤ 25 ∧ RangeCheckRegion F n s ∧ T (9, s + n) = 0) ∧
    (∃ bits s, bits ≤ 10 ∧ ShortCheckRegion T F bits s) ∧
    (∃ chip Q ns s, (chip = hashChip1 ∨ chip = hashChip2) ∧ ns ≠ [] ∧ (∀ n ∈ ns, 0 < n ∧ n ≤ 25) ∧
      HashRegion T F chip Q ns s) ∧
    (∃ rows leaf, MerkleRegion T F rows 32 leaf) ∧
    (∃ s o t B alpha, B ≠ 0 ∧ MulVarRegion T F s o t (cells B) alpha) ∧
    (∃ s0 s x y, PoseidonRegion T F s0 s x y) ∧
    (∃ s, WitnessPointRegion F s) ∧ (∃ s, WitnessNonIdRegion F s) ∧
    (∃ s A B, AddRegion T F s (cells A) (cells B)) ∧
    (∃ (b : FixedBasesFull) (s e : ℕ), MulFullRegion T F b.point s e) ∧
    (∃ s e magnitude sign, MulShortRegion T F valueCommitVPoint s e magnitude sign) ∧
    (∃ s e k t scalar, MulBaseRegion T F nullifierKPoint s e k t scalar) := by
  obtain ⟨-, -, T, -, -, -, hT, hL, hpl⟩ := table_P0
  generalize fixed1 P0 = F at *
  have hco : ∀ g ∈ calls1 P0, g.Contract T := fun g hg =>
    C88_contracts (P := P0) (fun _ _ => rfl) hT hL g (hpl g hg)
  have hpair : ∀ {c : Cell × Cell} {A : Point}, HoldsPoint T c A → pairAt T c = cells A := fun h =>
    Prod.ext h.1 h.2
  obtain ⟨x, hx, hx'⟩ := List.any_eq_true.1 (has_mul P0)
  obtain ⟨g, hg, hx⟩ := List.mem_flatMap.1 hx
  obtain ⟨g', hg', rfl⟩ := List.mem_map.1 hx
  obtain ⟨y, hy, hy'⟩ := List.any_eq_true.1 (has_add P0)
  obtain ⟨k, hk, hy⟩ := List.mem_flatMap.1 hy
  obtain ⟨z, hz, rfl⟩ := List.mem_map.1 hy
  obtain ⟨k', hk', hz⟩ := List.mem_flatMap.1 hz
  obtain ⟨k'', hk'', rfl⟩ := List.mem_map.1 hz
  replace hk := (List.mem_filter.1 hk).1
  replace hk' := (List.mem_filter.1 hk').1
  replace hk'' := (List.mem_filter.1 hk'').1
  obtain ⟨c, base, alpha, out, rfl, rfl, e⟩ : ∃ c base alpha out, g = .witnessNonIdentity c ∧
      g' = .mulVar base alpha out ∧ c = base := by
    unfold isMul at hx'
    split at hx'
    · rename_i h
      cases h
      exact ⟨_, _, _, _, rfl, rfl, sameCells_sound hx'⟩
    · cases hx'
  obtain ⟨V, mag, sgn, c1, R, c2, a, b, c3, rfl, rfl, rfl, e1, e2⟩ : ∃ V mag sgn c1 R c2 a b c3,
      k = .mulFixedShort V mag sgn c1 ∧ k' = .mulFixed R c2 ∧ k'' = .add a b c3 ∧ c1 = a ∧ c2 = b := by
    unfold isAdd at hy'
    split at hy'
    · rename_i h
      cases h
      rw [Bool.and_eq_true] at hy'
      exact ⟨_, _, _, _, _, _, _, _, _, rfl, rfl, rfl, sameCells_sound hy'.1, sameCells_sound hy'.2⟩
    · cases hy'
  subst e e1 e2
  refine ⟨T, F, hT, hL, ?_, ?_, ?_, ?_, ?_, ?_, ?_, ?_, ?_, ?_, ?_, ?_⟩
  · obtain ⟨g, hg, h⟩ := find_call (has_range P0)
    cases g with
    | rangeCheck n strict z =>
      simp only [isRange, Bool.and_eq_true] at h
      obtain ⟨s, h1, h2, h3⟩ := hpl _ hg
      exact ⟨n, s, Nat.le_of_ble_eq_true h.1.2, Nat.le_of_ble_eq_true h.2, h1, (h2 n le_rfl).symm.trans (h3 h.1.1)⟩
    | _ => cases h
  · obtain ⟨g, hg, h⟩ := find_call (has_short P0)
    cases g with
    | shortCheck bits c =>
      obtain ⟨h1, s, h2, -⟩ := hpl _ hg
      exact ⟨bits, s, h1, h2⟩
    | _ => cases h
  · obtain ⟨g, hg, h⟩ := find_call (has_commit P0)
    cases g with
    | commit P' Q R pieces c =>
      obtain ⟨-, h1, h2, chip, s, h3, h4, -⟩ := hpl _ hg
      refine ⟨chip, Q, pieces.map Prod.fst, s, h3, fun h => h1 (List.map_eq_nil_iff.1 h), fun n hn => ?_, h4⟩
      obtain ⟨m, hm, rfl⟩ := List.mem_map.1 hn
      exact ⟨h2 m hm, Nat.le_of_ble_eq_true (List.all_eq_true.1 h m hm)⟩
    | _ => cases h
  · obtain ⟨g, hg, h⟩ := find_call (has_merkle P0)
    cases g with
    | merkleRoot P' leaf sibling bit root =>
      obtain ⟨-, rows, h1, -⟩ := hpl _ hg
      exact ⟨rows, _, h1⟩
    | _ => cases h
  · obtain ⟨s, o, t, h1, -⟩ := hpl _ hg'
    obtain ⟨B, hB, hB0⟩ := hco _ hg
    rw [hpair hB] at h1
    exact ⟨s, o, t, B, _, hB0, h1⟩
  · obtain ⟨g, hg, h⟩ := find_call (has_poseidon P0)
    cases g with
    | poseidon P' x y c =>
      obtain ⟨-, s0, s, h1, -⟩ := hpl _ hg
      exact ⟨s0, s, _, _, h1⟩
    | _ => cases h
  · obtain ⟨g, hg, h⟩ := find_call (has_point P0)
    cases g with
    | witnessPoint c =>
      obtain ⟨s, h1, -⟩ := hpl _ hg
      exact ⟨s, h1⟩
    | _ => cases h
  · obtain ⟨s, h1, -⟩ := hpl _ hg
    exact ⟨s, h1⟩
  · obtain ⟨A, hA, -⟩ := hco _ hk
    obtain ⟨r, B, hB, -⟩ := hco _ hk'
    obtain ⟨s, h1, -⟩ := hpl _ hk''
    rw [hpair hA, hpair hB] at h1
    exact ⟨s, A, B, h1⟩
  · obtain ⟨b, -, s, e, h1, -⟩ := hpl _ hk'
    exact ⟨b, s, e, h1⟩
  · obtain ⟨-, s, e, h1, -⟩ := hpl _ hk
    exact ⟨s, e, _, _, h1⟩
  · obtain ⟨g, hg, h⟩ := find_call (has_base P0)
    cases g with
    | mulFixedBase base scalar c =>
      obtain ⟨-, s, e, k, t, h1, -⟩ := hpl _ hg
      exact ⟨s, e, k, t, _, h1⟩
    | _ => cases h

end Orchard.Examples
