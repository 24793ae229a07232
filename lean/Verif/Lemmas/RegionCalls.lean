import Verif.Lemmas.RegionMerkle
import Verif.Lemmas.RegionPoseidon
import Verif.Lemmas.RegionMulVar
import Verif.Props.FixedBase

/-!
# The contracts of the gadget calls, from the gates and lookups
-/

namespace Orchard.Regions

open Halo2 Layout Pinned Spec

variable {P : Prims} {T : Table} {F : FixedTable}

theorem holdsPoint_iff {c : Cell × Cell} {A : Point} : HoldsPoint T c A ↔ pairAt T c = cells A := by
  simp only [HoldsPoint, pairAt, cells, Prod.mk.injEq]

theorem mulFull_sound (hT : GatesHold T F) {b : FixedBasesFull} {s e : ℕ} (h : MulFullRegion T F b.point s e) :
    ∃ r out, pointAt T 2 (e + 1) = cells out ∧ MulFixed b.point.generator r out := by
  obtain ⟨-, A, h1, h2⟩ := (C75_full b _ _).1 ⟨_, full_gates hT h⟩
  exact ⟨_, A, h1, h2⟩

theorem pieces_at {chip : HashChip} : ∀ (ms : List (ℕ × (ℕ → Cell))) (s : ℕ), PiecesAt T chip ms s →
    ms.map (pieceAt T) = hashPieces T chip (ms.map Prod.fst) s
  | [], _, _ => rfl
  | m :: ms, s, h => by
    rw [List.map_cons, List.map_cons, hashPieces, pieces_at ms _ h.2, pieceAt]
    congr 2
    funext i
    by_cases hi : i < m.1
    · rw [if_pos hi, if_pos hi, h.1 i hi]
    · rw [if_neg hi, if_neg hi]

theorem contract_of_placed (hP : ∀ x y, P.poseidon x y = Poseidon.hash x y) (hT : Satisfied T F)
    (hL : TableLoaded P F) {g : GadgetCall} (h : Placed P T F g) : g.Contract T := by
  cases g with
  | witnessPoint c =>
    obtain ⟨s, hs, e⟩ := h
    obtain ⟨A, hA⟩ := witnessPoint_sound hT.1 hs
    exact ⟨A, holdsPoint_iff.2 (e.trans hA)⟩
  | witnessNonIdentity c =>
    obtain ⟨s, hs, e⟩ := h
    obtain ⟨A, h0, hA⟩ := witnessNonId_sound hT.1 hs
    exact ⟨A, holdsPoint_iff.2 (e.trans hA), h0⟩
  | add a b c =>
    intro A B hA hB
    obtain ⟨s, hs, e⟩ := h
    rw [holdsPoint_iff.1 hA, holdsPoint_iff.1 hB] at hs
    exact ⟨A + B, holdsPoint_iff.2 (e.trans (add_sound hT.1 hs)), rfl⟩
  | mulFixed base c =>
    obtain ⟨b, rfl, s, e, hs, he⟩ := h
    obtain ⟨r, out, h1, h2⟩ := mulFull_sound hT.1 hs
    exact ⟨r, out, holdsPoint_iff.2 (he.trans h1), h2⟩
  | mulFixedShort base m g c =>
    obtain ⟨rfl, s, e, hs, he⟩ := h
    obtain ⟨A, h1, h2⟩ := (C75_short _ _ _).1 ⟨_, _, _, short_gates hT.1 hs⟩
    exact ⟨A, holdsPoint_iff.2 (he.trans h1), h2⟩
  | mulFixedBase base x c =>
    obtain ⟨rfl, s, e, k, t, hs, he⟩ := h
    obtain ⟨A, h1, h2⟩ := (C75_base _ _).1 ⟨_, _, _, base_gates hT hL hs⟩
    exact ⟨A, holdsPoint_iff.2 (he.trans h1), h2⟩
  | mulVar base x c =>
    intro B hB h0
    obtain ⟨s, o, t, hs, he⟩ := h
    rw [holdsPoint_iff.1 hB] at hs
    exact ⟨_, holdsPoint_iff.2 (he.trans (mulVar_sound hT hL h0 hs)), rfl⟩
  | poseidon P' x y c =>
    obtain ⟨rfl, s0, s, hs, he⟩ := h
    exact he.trans ((poseidon_sound hT.1 hs).trans (hP _ _).symm)
  | shortCheck bits c =>
    obtain ⟨hb, s, hs, he⟩ := h
    have := shortCheck_sound hT hL hb hs
    rw [← he] at this
    exact this
  | rangeCheck n strict z =>
    obtain ⟨s, hs, he, h0⟩ := h
    refine ⟨fun i hi => ?_, h0⟩
    have := rangeCheck_sound hT.2 hL hs i hi
    dsimp only
    rw [he i (by omega), he (i + 1) (by omega)]
    exact this
  | messagePiece c => trivial
  | commit P' Q R pieces c =>
    obtain ⟨rfl, hne, hpos, chip, s, hc, hs, hp, b, rfl, s', e, a, hf, ha, he⟩ := h
    have hns : ∀ n ∈ pieces.map Prod.fst, 0 < n := by
      intro n hn
      obtain ⟨m, hm, rfl⟩ := List.mem_map.1 hn
      exact hpos m hm
    obtain ⟨hok, hret⟩ := hash_sound hT hL hc (by simpa using hne) hns hs
    obtain ⟨r, B, hB, hm⟩ := mulFull_sound hT.1 hf
    refine ⟨r, ?_⟩
    rw [SinsemillaCommit, pieces_at pieces s hp]
    refine ⟨hok, ?_⟩
    generalize (messageWords _).foldlM (sinsemillaStep P') Q = o at hret ⊢
    rcases hret with ⟨A, rfl, hA⟩ | ⟨hf, rfl⟩
    · left
      rw [hA, hB] at ha
      refine ⟨A + r • b.point.generator, rfl, ?_⟩
      have hm' : B = r • b.point.generator := hm
      rw [← hm']
      exact he.trans (add_sound hT.1 ha)
    · exact Or.inr ⟨hf, rfl⟩
  | merkleRoot P' leaf sibling bit root =>
    obtain ⟨rfl, rows, hm, hsb, hr⟩ := h
    obtain ⟨pos, encs, h1, h2, h3⟩ := merkle_sound hT hL (by norm_num) hm
    refine ⟨pos, encs, h1, fun l hl => (hsb l hl).2.trans (h2 l hl), ?_⟩
    rw [hr]
    have : ((List.range 32).map fun l => T (sibling l)) = (List.range 32).map fun l => T (rows l).sibling :=
      List.map_congr_left fun l hl => (hsb l (List.mem_range.1 hl)).1
    rw [this]
    exact h3

end Orchard.Regions
