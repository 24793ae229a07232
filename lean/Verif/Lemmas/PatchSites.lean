import Verif.Lemmas.PatchMerkle
import Verif.Lemmas.PatchMulVar
import Verif.Lemmas.PatchMulFixed
import Verif.Lemmas.PatchPoseidon
import Verif.Lemmas.LayoutHonest
import Verif.Props.FixedBase

/-!
# Regions for the gadget calls of an honest prover
-/

namespace Orchard.Regions

open Halo2 Layout Pinned Spec

variable {P : Prims} {T T₀ : Table} {F : FixedTable}

/-! ### Patches with different advice in the same places -/

structure SameFoot (p q : Patch) : Prop where
  advice : p.advice.map Strip.place = q.advice.map Strip.place
  fixed : p.fixed = q.fixed
  gates : p.gates = q.gates
  lookups : p.lookups = q.lookups

theorem SameFoot.append {p q p' q' : Patch} (h : SameFoot p q) (h' : SameFoot p' q') : SameFoot (p ++ p') (q ++ q') where
  advice := by
    change (p.advice ++ p'.advice).map _ = (q.advice ++ q'.advice).map _
    rw [List.map_append, List.map_append, h.advice, h'.advice]
  fixed := by
    change p.fixed ++ p'.fixed = q.fixed ++ q'.fixed
    rw [h.fixed, h'.fixed]
  gates := by
    change p.gates ++ p'.gates = q.gates ++ q'.gates
    rw [h.gates, h'.gates]
  lookups := by
    change p.lookups ++ p'.lookups = q.lookups ++ q'.lookups
    rw [h.lookups, h'.lookups]

/-! ### Sites -/

/-- One of the two hash chips. -/
def chipOf (second : Bool) : HashChip := if second then hashChip2 else hashChip1

theorem chipOf_cases (b : Bool) : chipOf b = hashChip1 ∨ chipOf b = hashChip2 := by
  cases b
  · exact Or.inl rfl
  · exact Or.inr rfl

/-- Where the regions of a gadget call begin. -/
inductive Site
  | point (s : ℕ)
  | nonId (s : ℕ)
  | add (s : ℕ)
  | mulFull (s e : ℕ)
  | mulShort (s e : ℕ)
  | mulBase (s e k t : ℕ)
  | mulVar (s o t : ℕ)
  | poseidon (s0 s : ℕ)
  | short (bits s : ℕ)
  | range (n s : ℕ)
  | piece
  | commit (second : Bool) (ns : List ℕ) (s s' e a : ℕ)
  | merkle (rows : ℕ → Bool × ℕ × ℕ × ℕ × ℕ × ℕ)

/-- The rows of a layer. -/
def layerRows (k : Bool × ℕ × ℕ × ℕ × ℕ × ℕ) : LayerRows :=
  ⟨chipOf k.1, k.2.1, k.2.2.1, k.2.2.2.1, k.2.2.2.2.1, k.2.2.2.2.2⟩

def layerFits (k : Bool × ℕ × ℕ × ℕ × ℕ × ℕ) : Bool :=
  Nat.ble (k.2.1 + 1) 2042 && Nat.ble (k.2.2.1 + 53) 2042 && Nat.ble (k.2.2.2.1 + 2) 2042 &&
    Nat.ble (k.2.2.2.2.1 + 3) 2042 && Nat.ble (k.2.2.2.2.2 + 3) 2042

theorem layerFits_iff {k : Bool × ℕ × ℕ × ℕ × ℕ × ℕ} (h : layerFits k = true) : (layerRows k).Fits := by
  simp only [layerFits, Bool.and_eq_true, Nat.ble_eq] at h
  have := usableRows_eq
  exact ⟨chipOf_cases _, by simp only [layerRows]; omega, by simp only [layerRows]; omega,
    by simp only [layerRows]; omega, by simp only [layerRows]; omega, by simp only [layerRows]; omega⟩

/-- The site is one for the call, and inside the table. -/
def Site.fits : Site → GadgetCall → Bool
  | .point s, .witnessPoint _ => Nat.ble (s + 1) 2042
  | .nonId s, .witnessNonIdentity _ => Nat.ble (s + 1) 2042
  | .add s, .add _ _ _ => Nat.ble (s + 2) 2042
  | .mulFull s e, .mulFixed _ _ => Nat.ble (s + 86) 2042 && Nat.ble (e + 2) 2042
  | .mulShort s e, .mulFixedShort _ _ _ _ => Nat.ble (s + 23) 2042 && Nat.ble (e + 2) 2042
  | .mulBase s e k t, .mulFixedBase _ _ _ =>
    Nat.ble (s + 86) 2042 && Nat.ble (e + 2) 2042 && Nat.ble (k + 3) 2042 && Nat.ble (t + 14) 2042
  | .mulVar s o t, .mulVar _ _ _ => Nat.ble (s + 137) 2042 && Nat.ble (o + 3) 2042 && Nat.ble (t + 14) 2042
  | .poseidon s0 s, .poseidon _ _ _ _ => Nat.ble (s0 + 3) 2042 && Nat.ble (s + 37) 2042
  | .short bits s, .shortCheck bits' _ => Nat.beq bits bits' && Nat.ble bits 10 && Nat.ble (s + 3) 2042
  | .range n s, .rangeCheck n' _ _ => Nat.beq n n' && Nat.ble (s + n + 1) 2042
  | .piece, .messagePiece _ => true
  | .commit _ ns s s' e a, .commit _ _ _ pieces _ => decide (ns = pieces.map Prod.fst) &&
    ns.all (Nat.ble 1 ·) && Nat.ble 1 ns.length && Nat.ble (s + ns.sum + 1) 2042 && Nat.ble (s' + 86) 2042 &&
    Nat.ble (e + 2) 2042 && Nat.ble (a + 2) 2042
  | .merkle rows, .merkleRoot _ _ _ _ _ => (List.range 32).all fun l => layerFits (rows l)
  | _, _ => false

/-! ### The places of a site -/

def noAdd : AddCells := ⟨0, 0, 0, 0, 0⟩
def noWindows : WindowCells := ⟨fun _ => 0, fun _ => 0, fun _ => 0⟩
def noHash : ℕ → HashRow := fun _ => ⟨0, 0, 0, 0, 0⟩
def noMulRow : ℕ → MulRow := fun _ => ⟨0, 0, 0, 0, 0, 0⟩
def noBlock : MulBlock :=
  ⟨0, ⟨0, 0, noAdd⟩, 0, 0, 0, noMulRow, noMulRow, fun _ => ⟨0, 0, noAdd⟩, fun _ => 0⟩

def layers (rows : ℕ → Bool × ℕ × ℕ × ℕ × ℕ × ℕ) : ℕ → ℕ → Patch
  | _, 0 => Patch.empty
  | l, n + 1 => layerPatch (layerRows (rows l)) 0 0 false 0 0 0 0 noHash ++ layers rows (l + 1) n

/-- The tables of a base. -/
noncomputable def fullBase (R : Point) : FixedBase := by
  classical exact if h : ∃ b : FixedBasesFull, b.point.generator = R then h.choose.point else nullifierKPoint

theorem exists_fullBase {R : Point} (h : ∃ b : FixedBasesFull, b.point.generator = R) :
    ∃ b : FixedBasesFull, b.point = fullBase R ∧ b.point.generator = R := by
  refine ⟨h.choose, ?_, h.choose_spec⟩
  rw [fullBase, dif_pos h]

/-- The regions of a call, with zeros in the advice columns. -/
noncomputable def Site.shape : Site → GadgetCall → Patch
  | .point s, _ => pointPatch ⟨19, 1, 4⟩ s 0
  | .nonId s, _ => pointPatch ⟨19, 2, 4⟩ s 0
  | .add s, _ => addPatch s 0 0 0 noAdd
  | .mulFull s e, .mulFixed base _ => mulFullPatch (fullBase base) s e (fun _ => 0) noWindows 0 noAdd
  | .mulShort s e, _ => mulShortPatch valueCommitVPoint s e 0 (fun _ => 0) noWindows 0 0 noAdd
  | .mulBase s e k t, _ => mulBasePatch nullifierKPoint s e k t (fun _ => 0) ⟨0, 0, fun _ => 0⟩ noWindows 0 noAdd
  | .mulVar s o t, _ => mulVarPatch noBlock s o t 0 0 0 0 0 0
  | .poseidon s0 s, _ => poseidonPatch s0 s 0 0
  | .short bits s, _ => shortPatch bits s 0
  | .range n s, _ => rangePatch n s fun _ => 0
  | .commit second ns s s' e a, .commit _ Q R _ _ => hashPatch (chipOf second) Q ns s noHash ++
    (mulFullPatch (fullBase R) s' e (fun _ => 0) noWindows 0 noAdd ++ addPatch a 0 0 0 noAdd)
  | .merkle rows, _ => layers rows 0 32
  | _, _ => Patch.empty

/-- The cells that a call takes and returns. -/
def callCells : GadgetCall → List Cell
  | .witnessPoint c => [c.1, c.2]
  | .witnessNonIdentity c => [c.1, c.2]
  | .add a b c => [a.1, a.2, b.1, b.2, c.1, c.2]
  | .mulFixed _ c => [c.1, c.2]
  | .mulFixedShort _ magnitude sign c => [magnitude, sign, c.1, c.2]
  | .mulFixedBase _ scalar c => [scalar, c.1, c.2]
  | .mulVar base scalar c => [base.1, base.2, scalar, c.1, c.2]
  | .poseidon _ x y c => [x, y, c]
  | .shortCheck _ c => [c]
  | .rangeCheck n _ z => (List.range (n + 1)).map z
  | .messagePiece _ => []
  | .commit _ _ _ pieces c => c.1 :: c.2 :: pieces.flatMap fun m => (List.range m.1).map m.2
  | .merkleRoot _ leaf sibling bit root =>
    leaf :: root :: ((List.range 32).map sibling ++ (List.range 32).map bit)

/-! ### Merkle paths -/

theorem exists_layers {rows : ℕ → Bool × ℕ × ℕ × ℕ × ℕ × ℕ} {pos : ℕ} :
    ∀ (path : List Fp) (l : ℕ) (node : Fp) (encs : List (ℕ × ℕ)) (root : Fp),
      (∀ j < path.length, layerFits (rows (l + j)) = true) → l + path.length ≤ 2 ^ 10 →
      merkleRootOf P pos l path node = some (encs, root) →
      ∃ p : Patch, p.Ok P ∧ SameFoot p (layers rows l path.length) ∧ ∀ T F, Contains T F p →
        ∃ nodes : ℕ → Fp, nodes 0 = node ∧ nodes path.length = root ∧ ∀ j < path.length,
          LayerRegion T F (layerRows (rows (l + j))) (l + j) (nodes j) ∧
          T (layerRows (rows (l + j))).sibling = path.getD j 0 ∧
          T (layerRows (rows (l + j))).bit = (if pos.testBit (l + j) then 1 else 0) ∧
          (layerRows (rows (l + j))).next T = nodes (j + 1)
  | [], l, node, encs, root, _, _, h => by
    rw [merkleRootOf, Option.some.injEq, Prod.mk.injEq] at h
    exact ⟨Patch.empty, Patch.empty_ok P, ⟨rfl, rfl, rfl, rfl⟩, fun T F _ => ⟨fun _ => node, rfl, h.2,
      fun j hj => by simp at hj⟩⟩
  | x :: path, l, node, encs, root, hf, hl, h => by
    rw [merkleRootOf] at h
    simp only [sinsemillaHash, Option.bind_eq_some_iff, Option.map_eq_some_iff] at h
    obtain ⟨next, ⟨A, hA, rfl⟩, ⟨encs', root'⟩, hr, he⟩ := h
    obtain ⟨-, rfl⟩ := (Prod.mk.injEq .. ▸ he : _ ∧ _)
    rw [List.length_cons] at hf hl
    obtain ⟨p, hp1, hp2, hp3⟩ := exists_layers path (l + 1) (extractP A) encs' root'
      (fun j hj => by rw [show l + 1 + j = l + (j + 1) by omega]; exact hf _ (by omega)) (by omega) hr
    obtain ⟨u, v, b1, b2, r, h1, h2⟩ := exists_layerPatch (P := P) (layerFits_iff (hf 0 (by omega))) (l := l)
      (by omega) (bit := pos.testBit l) hA
    refine ⟨_, h1.append hp1, SameFoot.append ⟨rfl, rfl, rfl, rfl⟩ hp2, fun T F hc => ?_⟩
    rw [contains_append] at hc
    obtain ⟨k1, k2, k3, k4⟩ := h2 T F hc.1
    obtain ⟨nodes, n1, n2, n3⟩ := hp3 T F hc.2
    refine ⟨fun j => if j = 0 then node else nodes (j - 1), rfl, by simpa using n2, fun j hj => ?_⟩
    cases j with
    | zero => exact ⟨k1, k2, k3, by simpa [n1] using k4⟩
    | succ j =>
      rw [List.length_cons] at hj
      have := n3 j (by omega)
      rw [show l + 1 + j = l + (j + 1) by omega] at this
      simpa using this

/-! ### Calls -/

section

variable {B : FixedBase} {s e k t o : ℕ} {w w' : AddCells} {c c' : WindowCells} {z z' : ℕ → Fp} {out out' mid mid' : Fp × Fp}

theorem windowsPatch_foot {n m : ℕ} {code : SelectorCode} :
    SameFoot (windowsPatch B n s m z code c) (windowsPatch B n s m z' code c') where
  advice := by simp only [windowsPatch, List.map_cons, List.map_nil, Strip.place]
  fixed := by simp only [windowsPatch]
  gates := by simp only [windowsPatch]
  lookups := by simp only [windowsPatch]

theorem addPatch_foot {a a' b b' : Fp × Fp} : SameFoot (addPatch s a b out w) (addPatch s a' b' out' w') :=
  ⟨rfl, rfl, rfl, rfl⟩

theorem mulFullPatch_foot : SameFoot (mulFullPatch B s e z c out w) (mulFullPatch B s e z' c' out' w') := by
  unfold mulFullPatch
  exact windowsPatch_foot.append addPatch_foot

theorem mulShortPatch_foot {x x' : Fp} :
    SameFoot (mulShortPatch B s e x z c mid out w) (mulShortPatch B s e x' z' c' mid' out' w') := by
  unfold mulShortPatch
  exact (windowsPatch_foot.append addPatch_foot).append ⟨rfl, rfl, rfl, rfl⟩

theorem mulBasePatch_foot {cc cc' : CanonCells} :
    SameFoot (mulBasePatch B s e k t z cc c out w) (mulBasePatch B s e k t z' cc' c' out' w') := by
  unfold mulBasePatch
  refine SameFoot.append (SameFoot.append (windowsPatch_foot.append addPatch_foot) ?_) ?_ <;> exact ⟨rfl, rfl, rfl, rfl⟩

end

theorem pairAt_of {c : Cell × Cell} {A : Point} (h : HoldsPoint T₀ c A) (h1 : T c.1 = T₀ c.1) (h2 : T c.2 = T₀ c.2) :
    pairAt T c = cells A := by
  rw [pairAt, h1, h2, h.1, h.2]
  rfl

theorem exists_mulFull (b : FixedBasesFull) (r : Fq) {s e : ℕ} (hs : s + 85 < usableRows) (he : e + 1 < usableRows) :
    ∃ p : Patch, p.Ok P ∧ SameFoot p (mulFullPatch b.point s e (fun _ => 0) noWindows 0 noAdd) ∧
      ∀ T F, Contains T F p → MulFullRegion T F b.point s e ∧ pointAt T 2 (e + 1) = cells (r • b.point.generator) := by
  obtain ⟨window, h1, h2⟩ := C75_every_scalar r
  obtain ⟨c, hc⟩ := (C75_full b window (cells (r • b.point.generator))).2 ⟨h1, _, rfl, by rw [h2]; rfl⟩
  obtain ⟨w, hw⟩ := mulFullPatch_ok (P := P) hs he hc
  refine ⟨_, hw, mulFullPatch_foot, fun T F hT => ?_⟩
  have := mulFullPatch_region hs he hc.2.2.1 hT
  exact ⟨this.1, this.2.1⟩

theorem exists_add (A B : Point) {s : ℕ} (hs : s + 1 < usableRows) :
    ∃ p : Patch, p.Ok P ∧ SameFoot p (addPatch s 0 0 0 noAdd) ∧
      ∀ T F, Contains T F p → AddRegion T F s (cells A) (cells B) ∧ pointAt T 2 (s + 1) = cells (A + B) := by
  obtain ⟨w, hw⟩ := exists_addCells A B
  exact ⟨_, addPatch_ok hs hw, ⟨rfl, rfl, rfl, rfl⟩, fun T F h => ⟨addPatch_region hs h, (addPatch_cells h).2.2.1⟩⟩

theorem piecesAt_of {chip : HashChip} : ∀ (pieces : List (ℕ × (ℕ → Cell))) (s : ℕ),
    (∀ m ∈ pieces, ∀ i < m.1, T (m.2 i) = T₀ (m.2 i)) → PieceCells T chip (pieces.map (pieceAt T₀)) s →
    PiecesAt T chip pieces s
  | [], _, _, _ => trivial
  | m :: ms, s, h, hc => by
    refine ⟨fun i hi => ?_, piecesAt_of ms _ (fun m' hm => h m' (List.mem_cons_of_mem _ hm)) hc.2⟩
    rw [hc.1 i hi, h m (List.mem_cons_self ..) i hi]
    simp [pieceAt, hi]

theorem site_placed (hP : ∀ x y, P.poseidon x y = Poseidon.hash x y) {st : Site} {g : GadgetCall} (hs : st.fits g = true) (hf : g.Feasible P T₀) :
    ∃ p : Patch, p.Ok P ∧ SameFoot p (st.shape g) ∧
      ∀ T F, Satisfied T F → TableLoaded P F → Contains T F p → (∀ c ∈ callCells g, T c = T₀ c) → Placed P T F g := by
  have hu := usableRows_eq
  cases st with
  | point s =>
    cases g with
    | witnessPoint c =>
      simp only [Site.fits, Nat.ble_eq] at hs
      obtain ⟨A, hA⟩ := hf
      refine ⟨_, witnessPoint_ok (s := s) (by omega) A, ⟨rfl, rfl, rfl, rfl⟩, fun T F hsat hld h hc => ?_⟩
      simp only [callCells, List.mem_cons, List.not_mem_nil, or_false, forall_eq_or_imp, forall_eq] at hc
      exact ⟨s, ⟨by omega, pointPatch_on h⟩, (pairAt_of hA hc.1 hc.2).trans (pointPatch_cells h).symm⟩
    | _ => cases hs
  | nonId s =>
    cases g with
    | witnessNonIdentity c =>
      simp only [Site.fits, Nat.ble_eq] at hs
      obtain ⟨A, hA, h0⟩ := hf
      refine ⟨_, witnessNonId_ok (s := s) (by omega) h0, ⟨rfl, rfl, rfl, rfl⟩, fun T F hsat hld h hc => ?_⟩
      simp only [callCells, List.mem_cons, List.not_mem_nil, or_false, forall_eq_or_imp, forall_eq] at hc
      exact ⟨s, ⟨by omega, pointPatch_on h⟩, (pairAt_of hA hc.1 hc.2).trans (pointPatch_cells h).symm⟩
    | _ => cases hs
  | add s =>
    cases g with
    | add a b c =>
      simp only [Site.fits, Nat.ble_eq] at hs
      obtain ⟨A, B, hA, hB, hC⟩ := hf
      obtain ⟨p, h1, h2, h3⟩ := exists_add (P := P) A B (s := s) (by omega)
      refine ⟨p, h1, h2, fun T F hsat hld h hc => ?_⟩
      simp only [callCells, List.mem_cons, List.not_mem_nil, or_false, forall_eq_or_imp, forall_eq] at hc
      obtain ⟨c1, c2, c3, c4, c5, c6⟩ := hc
      refine ⟨s, ?_, (pairAt_of hC c5 c6).trans (h3 T F h).2.symm⟩
      rw [pairAt_of hA c1 c2, pairAt_of hB c3 c4]
      exact (h3 T F h).1
    | _ => cases hs
  | mulFull s e =>
    cases g with
    | mulFixed base c =>
      simp only [Site.fits, Nat.ble_eq, Bool.and_eq_true] at hs
      obtain ⟨hb, r, hr⟩ := hf
      obtain ⟨b, hb1, rfl⟩ := exists_fullBase hb
      obtain ⟨p, h1, h2, h3⟩ := exists_mulFull (P := P) b r (s := s) (e := e) (by omega) (by omega)
      refine ⟨p, h1, by rw [hb1] at h2; exact h2, fun T F hsat hld h hc => ?_⟩
      simp only [callCells, List.mem_cons, List.not_mem_nil, or_false, forall_eq_or_imp, forall_eq] at hc
      exact ⟨b, rfl, s, e, (h3 T F h).1, (pairAt_of hr hc.1 hc.2).trans (h3 T F h).2.symm⟩
    | _ => cases hs
  | mulShort s e =>
    cases g with
    | mulFixedShort base magnitude sign c =>
      simp only [Site.fits, Nat.ble_eq, Bool.and_eq_true] at hs
      obtain ⟨rfl, out, ho, hm⟩ := hf
      obtain ⟨z, c', mid, hg⟩ := (C75_short (T₀ magnitude) (T₀ sign) (cells out)).2 ⟨out, rfl, hm⟩
      obtain ⟨w, h1, h3⟩ := mulShortPatch_ok (P := P) (s := s) (e := e) (by omega) (by omega) hg
      refine ⟨_, h1, mulShortPatch_foot, fun T F hsat hld h hc => ?_⟩
      simp only [callCells, List.mem_cons, List.not_mem_nil, or_false, forall_eq_or_imp, forall_eq] at hc
      obtain ⟨c1, c2, c3, c4⟩ := hc
      refine ⟨rfl, s, e, ?_, (pairAt_of ho c3 c4).trans (h3 T F h).2.symm⟩
      rw [c1, c2]
      exact (h3 T F h).1
    | _ => cases hs
  | mulBase s e k t =>
    cases g with
    | mulFixedBase base scalar c =>
      simp only [Site.fits, Nat.ble_eq, Bool.and_eq_true] at hs
      obtain ⟨rfl, ho⟩ := hf
      obtain ⟨z, k', c', hg⟩ := (C75_base (T₀ scalar) _).2 ⟨_, rfl, rfl⟩
      obtain ⟨w, h1, h3⟩ := mulBasePatch_ok (P := P) (s := s) (e := e) (k := k) (t := t) (by omega) (by omega)
        (by omega) (by omega) hg
      refine ⟨_, h1, mulBasePatch_foot, fun T F hsat hld h hc => ?_⟩
      simp only [callCells, List.mem_cons, List.not_mem_nil, or_false, forall_eq_or_imp, forall_eq] at hc
      obtain ⟨c1, c2, c3⟩ := hc
      refine ⟨rfl, s, e, k, t, ?_, (pairAt_of ho c2 c3).trans (h3 T F h).2.symm⟩
      rw [c1]
      exact (h3 T F h).1
    | _ => cases hs
  | mulVar s o t =>
    cases g with
    | mulVar base scalar c =>
      simp only [Site.fits, Nat.ble_eq, Bool.and_eq_true] at hs
      obtain ⟨B, hB, h0, ho⟩ := hf
      obtain ⟨m, z0, z130, eta, k254, x, h1, h3⟩ := exists_mulVarPatch (P := P) h0 (T₀ scalar) (s := s) (o := o) (t := t)
        (by omega) (by omega) (by omega)
      refine ⟨_, h1, ⟨rfl, rfl, rfl, rfl⟩, fun T F hsat hld h hc => ?_⟩
      simp only [callCells, List.mem_cons, List.not_mem_nil, or_false, forall_eq_or_imp, forall_eq] at hc
      obtain ⟨c1, c2, c3, c4, c5⟩ := hc
      refine ⟨s, o, t, ?_, ?_⟩
      · rw [pairAt_of hB c1 c2, c3]
        exact h3 T F h
      · exact (pairAt_of ho c4 c5).trans (mulVar_sound hsat hld h0 (h3 T F h)).symm
    | _ => cases hs
  | poseidon s0 s =>
    cases g with
    | poseidon P' x y c =>
      simp only [Site.fits, Nat.ble_eq, Bool.and_eq_true] at hs
      obtain ⟨rfl, ho⟩ := hf
      refine ⟨_, poseidonPatch_ok (x := T₀ x) (y := T₀ y) (s0 := s0) (s := s) (by omega) (by omega),
        ⟨rfl, rfl, rfl, rfl⟩, fun T F hsat hld h hc => ?_⟩
      simp only [callCells, List.mem_cons, List.not_mem_nil, or_false, forall_eq_or_imp, forall_eq] at hc
      obtain ⟨c1, c2, c3⟩ := hc
      refine ⟨rfl, s0, s, ?_, ?_⟩
      · rw [c1, c2]
        exact poseidonPatch_region (by omega) (by omega) h
      · rw [c3, ho]
        exact (hP _ _).trans (poseidon_sound hsat.1 (poseidonPatch_region (by omega) (by omega) h)).symm
    | _ => cases hs
  | short bits s =>
    cases g with
    | shortCheck bits' c =>
      simp only [Site.fits, Nat.ble_eq, Nat.beq_eq, Bool.and_eq_true] at hs
      obtain ⟨⟨rfl, hb⟩, hs⟩ := hs
      refine ⟨_, shortPatch_ok (s := s) (by omega) hb hf, ⟨rfl, rfl, rfl, rfl⟩, fun T F hsat hld h hc => ?_⟩
      simp only [callCells, List.mem_cons, List.not_mem_nil, or_false, forall_eq] at hc
      exact ⟨hb, s, shortPatch_region (by omega) h, hc.trans (shortPatch_cells h).1.symm⟩
    | _ => cases hs
  | range n s =>
    cases g with
    | rangeCheck n' strict z =>
      simp only [Site.fits, Nat.ble_eq, Nat.beq_eq, Bool.and_eq_true] at hs
      obtain ⟨rfl, hs⟩ := hs
      refine ⟨rangePatch n s fun i => T₀ (z i), rangePatch_ok (by omega) hf.1, ⟨rfl, rfl, rfl, rfl⟩,
        fun T F hsat hld h hc => ?_⟩
      have hz : ∀ i ≤ n, T (z i) = T₀ (z i) := fun i hi =>
        hc _ (List.mem_map.2 ⟨i, List.mem_range.2 (by omega), rfl⟩)
      refine ⟨s, rangePatch_region (by omega) h, fun i hi => ?_, fun hb => ?_⟩
      · rw [hz i hi, rangePatch_cells h hi]
      · rw [hz n le_rfl]
        exact hf.2 hb
    | _ => cases hs
  | piece =>
    cases g with
    | messagePiece c => exact ⟨_, Patch.empty_ok P, ⟨rfl, rfl, rfl, rfl⟩, fun _ _ _ _ _ _ => trivial⟩
    | _ => cases hs
  | commit second ns s s' e a =>
    cases g with
    | commit P' Q R pieces c =>
      simp only [Site.fits, Nat.ble_eq, Bool.and_eq_true, decide_eq_true_eq, List.all_eq_true] at hs
      obtain ⟨⟨⟨⟨⟨⟨rfl, hpos⟩, hlen⟩, hs⟩, hs'⟩, he⟩, ha⟩ := hs
      obtain ⟨rfl, hb, r, hok, hret⟩ := hf
      obtain ⟨b, hb1, rfl⟩ := exists_fullBase hb
      obtain ⟨B, hB, hout⟩ := returns_true hret
      obtain ⟨A, hA, rfl⟩ := Option.map_eq_some_iff.1 hB
      have hw : (pieces.map (pieceAt T₀)).map Piece.words = pieces.map Prod.fst := by
        rw [List.map_map]; rfl
      have hpos' : ∀ m ∈ pieces, 0 < m.1 := fun m hm => hpos _ (List.mem_map_of_mem hm)
      have hne : pieces ≠ [] := by
        rintro rfl
        simp at hlen
      obtain ⟨x, x1, x2⟩ := exists_hashPatch (chipOf_cases second) (s := s) hok
        (fun m hm => by
          obtain ⟨m', hm', rfl⟩ := List.mem_map.1 hm
          exact hpos' m' hm') (by simpa using hne) (by rw [hw]; omega) hA
      rw [hw] at x1 x2
      obtain ⟨p2, y1, y2, y3⟩ := exists_mulFull (P := P') b r (s := s') (e := e) (by omega) (by omega)
      obtain ⟨p3, z1, z2, z3⟩ := exists_add (P := P') A (r • b.point.generator) (s := a) (by omega)
      refine ⟨_, x1.append (y1.append z1), SameFoot.append ⟨rfl, rfl, rfl, rfl⟩ (SameFoot.append (by rw [hb1] at y2; exact y2) z2), fun T F hsat hld h hc => ?_⟩
      simp only [contains_append] at h
      obtain ⟨g1, g2, g3⟩ := h
      obtain ⟨x3, x4, x5⟩ := x2 T F g1
      simp only [callCells, List.mem_cons, forall_eq_or_imp, List.mem_flatMap] at hc
      obtain ⟨c1, c2, c3⟩ := hc
      refine ⟨rfl, hne, hpos', chipOf second, s, chipOf_cases _, x3, piecesAt_of pieces s ?_ x4, b, rfl, s', e, a,
        (y3 T F g2).1, ?_, ?_⟩
      · intro m hm i hi
        exact c3 _ ⟨m, hm, List.mem_map.2 ⟨i, List.mem_range.2 hi, rfl⟩⟩
      · rw [x5, (y3 T F g2).2]
        exact (z3 T F g3).1
      · rw [(z3 T F g3).2, ← hout, pairAt, c1, c2]
    | _ => cases hs
  | merkle rows =>
    cases g with
    | merkleRoot P' leaf sibling bit root =>
      simp only [Site.fits, List.all_eq_true, List.mem_range] at hs
      obtain ⟨rfl, pos, encs, hbit, hroot⟩ := hf
      have hlen : ((List.range 32).map fun l => T₀ (sibling l)).length = 32 := by simp
      obtain ⟨p, p1, p2, p3⟩ := exists_layers (rows := rows) _ 0 _ _ _
        (fun j hj => by rw [Nat.zero_add]; exact hs j (by rwa [hlen] at hj)) (by rw [hlen]; norm_num) hroot
      rw [hlen] at p2 p3
      refine ⟨p, p1, p2, fun T F hsat hld h hc => ?_⟩
      obtain ⟨nodes, n1, n2, n3⟩ := p3 T F h
      simp only [callCells, List.mem_cons, forall_eq_or_imp, List.mem_append] at hc
      obtain ⟨c1, c2, c3⟩ := hc
      have hnode : ∀ l ≤ 32, merkleNode T (fun l => layerRows (rows l)) (T leaf) l = nodes l := by
        intro l hl
        cases l with
        | zero => rw [merkleNode, n1, c1]
        | succ l =>
          have := (n3 l (by omega)).2.2.2
          rw [Nat.zero_add] at this
          exact this
      refine ⟨rfl, fun l => layerRows (rows l), fun l hl => ?_, fun l hl => ?_, ?_⟩
      · rw [hnode l (by omega)]
        have := (n3 l hl).1
        rwa [Nat.zero_add] at this
      · obtain ⟨-, k1, k2, -⟩ := n3 l hl
        rw [Nat.zero_add] at k1 k2
        refine ⟨?_, ?_⟩
        · rw [k1, c3 _ (Or.inl (List.mem_map.2 ⟨l, List.mem_range.2 hl, rfl⟩))]
          simp [hl]
        · rw [k2, c3 _ (Or.inr (List.mem_map.2 ⟨l, List.mem_range.2 hl, rfl⟩)), hbit l hl]
      · rw [hnode 32 le_rfl, n2, c2]
    | _ => cases hs

/-! ### Lists of calls -/

def fitAll : List Site → List GadgetCall → Bool
  | [], [] => true
  | st :: sites, g :: calls => st.fits g && fitAll sites calls
  | _, _ => false

noncomputable def allShapes : List Site → List GadgetCall → Patch
  | st :: sites, g :: calls => st.shape g ++ allShapes sites calls
  | _, _ => Patch.empty

theorem sites_placed (hP : ∀ x y, P.poseidon x y = Poseidon.hash x y) : ∀ {sites : List Site} {calls : List GadgetCall}, fitAll sites calls = true →
    (∀ g ∈ calls, g.Feasible P T₀) → ∃ p : Patch, p.Ok P ∧ SameFoot p (allShapes sites calls) ∧
      ∀ T F, Satisfied T F → TableLoaded P F → Contains T F p → (∀ g ∈ calls, ∀ c ∈ callCells g, T c = T₀ c) → ∀ g ∈ calls, Placed P T F g
  | [], [], _, _ => ⟨Patch.empty, Patch.empty_ok P, ⟨rfl, rfl, rfl, rfl⟩, fun _ _ _ _ _ _ g hg => by cases hg⟩
  | st :: sites, g :: calls, h, hf => by
    rw [fitAll, Bool.and_eq_true] at h
    obtain ⟨p, p1, p2, p3⟩ := site_placed hP h.1 (hf g (List.mem_cons_self ..))
    obtain ⟨q, q1, q2, q3⟩ := sites_placed hP h.2 fun g hg => hf g (List.mem_cons_of_mem _ hg)
    refine ⟨p ++ q, p1.append q1, p2.append q2, fun T F hsat hld hc hT g' hg' => ?_⟩
    rw [contains_append] at hc
    rcases List.mem_cons.1 hg' with rfl | hg'
    · exact p3 T F hsat hld hc.1 (hT _ (List.mem_cons_self ..))
    · exact q3 T F hsat hld hc.2 (fun g hg => hT g (List.mem_cons_of_mem _ hg)) g' hg'
  | [], _ :: _, h, _ => by cases h
  | _ :: _, [], h, _ => by cases h

end Orchard.Regions
