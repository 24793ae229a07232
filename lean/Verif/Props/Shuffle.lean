import Verif.Props.Build
import Verif.Lemmas.Shuffle

/-!
# Property C76: the order of the actions is fair
-/

namespace Orchard

open Spec

variable {V : Type}

/-- **C76.** Every ordering of distinct elements comes from exactly one table of choices. -/
theorem C76_every_order_once {α : Type} (l l' : List α) (hl : l.Nodup) (h : l'.Perm l) :
    ∃! c : Choices l.length, shuffle c.at l = l' :=
  shuffle_existsUnique l l' hl h

/-- Case for C76: reversing four elements. -/
example : ∃! c : Choices 4, shuffle c.at [10, 20, 30, 40] = [40, 30, 20, 10] :=
  C76_every_order_once [10, 20, 30, 40] _ (by decide) (by decide)

/-- **C76.** Whatever numbers are drawn, the shuffle only depends on the draw for `i` modulo `i + 1`, for
the positions `i` of the list: on a table of choices. -/
theorem C76_draws {α : Type} (g : ℕ → ℕ) (l : List α) :
    ∃ c : Choices l.length, (∀ i, (c i).val = g i % (i + 1)) ∧ shuffle g l = shuffle c.at l := by
  refine ⟨fun i => ⟨g i % (i + 1), Nat.mod_lt _ (by omega)⟩, fun i => rfl, shuffle_congr _ _ _ ?_⟩
  intro i hi
  simp [Choices.at, hi]

theorem position_iff {α : Type} (g : ℕ → ℕ) (req ds : List α) (vec : List ℕ)
    (hr : Recorded req.length ((shuffle g (req ++ ds).zipIdx).map Prod.snd) 0
      (List.replicate req.length 0) vec) (j i : ℕ) (hj : j < req.length) :
    vec[j]? = some i ↔ (shuffle g (List.range (req.length + ds.length)))[i]? = some j := by
  have e : (shuffle g (req ++ ds).zipIdx).map Prod.snd =
      shuffle g (List.range (req.length + ds.length)) := by
    rw [shuffle_map, List.zipIdx_map_snd, List.length_append, List.range_eq_range']
  obtain ⟨k, e1, -, e3⟩ := recorded_position g req ds vec hr j hj
  rw [e] at e3
  rw [e1, Option.some.injEq]
  constructor
  · rintro rfl; exact e3
  · intro h
    have hn : (shuffle g (List.range (req.length + ds.length))).Nodup :=
      ((shuffle_perm _ _).nodup_iff).2 List.nodup_range
    obtain ⟨b1, c1⟩ := List.getElem?_eq_some_iff.1 e3
    obtain ⟨b2, c2⟩ := List.getElem?_eq_some_iff.1 h
    exact (List.Nodup.getElem_inj_iff hn).1 (c1.trans c2.symm)

variable {P : Prims} {tryFrom : I64 → Option V} {rng : BuildDraws} {anchor : Fp}
  {ty : BundleType} {spends : List SpendInfo} {outputs : List OutputInfo}
  {b : UnauthorizedBundle V} {m : BundleMetadata}

/-- **C76.** Where the builder puts the requested spends is decided by the first shuffle alone, and where it
puts the requested outputs by the second one alone: the action of spend `j` is the place of `j` after
shuffling the numbers of the actions. -/
theorem C76_positions (h : bundle P tryFrom rng anchor ty spends outputs = .ok (some (b, m))) :
    (∀ j < spends.length, ∀ i, m.spendActionIndex j = some i ↔
      (shuffle rng.spendShuffle (List.range b.actions.length))[i]? = some j) ∧
    ∀ j < outputs.length, ∀ i, m.outputActionIndex j = some i ↔
      (shuffle rng.outputShuffle (List.range b.actions.length))[i]? = some j := by
  have hlen := C05_built _ _ _ _ _ _ _ _ _ h
  obtain ⟨n, dS, dO, pre, rows, hc, hp, -, -, -, -, he, hs, ho, hr, ha⟩ := bundle_some_inv h
  obtain ⟨g1, g2⟩ := numActions_ge hc.num
  rw [hc.num, Option.some.injEq] at hlen
  have hlS := hp.length_S g1
  have hlO := hp.length_O g2
  have mS : ((shuffle rng.spendShuffle (spends ++ dS).zipIdx).zip
      (shuffle rng.outputShuffle (outputs ++ dO).zipIdx)).map (fun x => x.1.2) =
      (shuffle rng.spendShuffle (spends ++ dS).zipIdx).map Prod.snd := by
    have : (fun x : (SpendInfo × ℕ) × (OutputInfo × ℕ) => x.1.2) = Prod.snd ∘ Prod.fst := rfl
    rw [this, ← List.map_map, List.map_fst_zip (by rw [hlS, hlO])]
  have mO : ((shuffle rng.spendShuffle (spends ++ dS).zipIdx).zip
      (shuffle rng.outputShuffle (outputs ++ dO).zipIdx)).map (fun x => x.2.2) =
      (shuffle rng.outputShuffle (outputs ++ dO).zipIdx).map Prod.snd := by
    have : (fun x : (SpendInfo × ℕ) × (OutputInfo × ℕ) => x.2.2) = Prod.snd ∘ Prod.snd := rfl
    rw [this, ← List.map_map, List.map_snd_zip (by rw [hlS, hlO])]
  have rS := hp.recS
  rw [mS] at rS
  have rO := hp.recO
  rw [mO] at rO
  have lS : spends.length + dS.length = b.actions.length := by rw [hp.length_dS]; omega
  have lO : outputs.length + dO.length = b.actions.length := by rw [hp.length_dO]; omega
  refine ⟨fun j hj i => ?_, fun j hj i => ?_⟩
  · rw [← lS]; exact position_iff rng.spendShuffle spends dS _ rS j i hj
  · rw [← lO]; exact position_iff rng.outputShuffle outputs dO _ rO j i hj

/-- **C76.** Of the `n!` tables of choices, exactly `(n - s)!` put `s` given elements at given places,
whatever the places. -/
theorem C76_count {n s : ℕ} (hs : s ≤ n) (place : Fin s → Fin n) (hp : Function.Injective place) :
    Nat.card {c : Choices n // ∀ k : Fin s,
      (shuffle c.at (List.range n))[(place k).val]? = some k.val} = (n - s).factorial := by
  rw [← card_perm_extending hs place hp, ← Nat.card_eq_fintype_card]
  refine Nat.card_congr ((Equiv.ofBijective _ (shufflePerm_bijective n)).subtypeEquiv fun c => ?_)
  refine forall_congr' fun k => ?_
  exact shuffle_range_getElem? c (place k) (Fin.castLE hs k)

/-- Case for C76: one element at place 2 of three. -/
example : Nat.card {c : Choices 3 // ∀ k : Fin 1,
    (shuffle c.at (List.range 3))[2]? = some k.val} = 2 := by
  exact C76_count (n := 3) (s := 1) (by norm_num) (fun _ => 2) (Function.injective_of_subsingleton _)

/-- **C76.** Whatever places are prescribed for the requested spends and for the requested outputs, the
number of pairs of tables of choices with which the builder puts them there is the same, `(n - s)! (n - o)!`
for `s` spends and `o` outputs in `n` actions: the places of the actions that contain them are uniformly
distributed, spends independently of outputs, and do not depend on the order of the requests.  (The hypothesis
`hb` excludes that building fails because of an overflow that depends on the order.) -/
theorem C76_uniform {n : ℕ} (hn : ty.numActions spends.length outputs.length = some n)
    (hb : ∀ c : Choices n × Choices n, ∃ b m, bundle P tryFrom
      { rng with spendShuffle := c.1.at, outputShuffle := c.2.at } anchor ty spends outputs =
        .ok (some (b, m)))
    (spendPlace : Fin spends.length → Fin n) (hs : Function.Injective spendPlace)
    (outputPlace : Fin outputs.length → Fin n) (ho : Function.Injective outputPlace) :
    Nat.card {c : Choices n × Choices n // ∃ b m, bundle P tryFrom
      { rng with spendShuffle := c.1.at, outputShuffle := c.2.at } anchor ty spends outputs =
        .ok (some (b, m)) ∧
      (∀ k, m.spendActionIndex k.val = some (spendPlace k).val) ∧
      ∀ k, m.outputActionIndex k.val = some (outputPlace k).val} =
    (n - spends.length).factorial * (n - outputs.length).factorial := by
  obtain ⟨g1, g2⟩ := numActions_ge hn
  rw [← C76_count g1 spendPlace hs, ← C76_count g2 outputPlace ho, ← Nat.card_prod]
  refine Nat.card_congr ?_
  refine (Equiv.subtypeEquivRight fun c => ?_).trans (Equiv.subtypeProdEquivProd
    (p := fun c : Choices n => ∀ k : Fin spends.length,
      (shuffle c.at (List.range n))[(spendPlace k).val]? = some k.val)
    (q := fun c : Choices n => ∀ k : Fin outputs.length,
      (shuffle c.at (List.range n))[(outputPlace k).val]? = some k.val))
  have key : ∀ b m, bundle P tryFrom
      { rng with spendShuffle := c.1.at, outputShuffle := c.2.at } anchor ty spends outputs =
        .ok (some (b, m)) →
      (((∀ k : Fin spends.length, m.spendActionIndex k.val = some (spendPlace k).val) ∧
        ∀ k : Fin outputs.length, m.outputActionIndex k.val = some (outputPlace k).val) ↔
      ((∀ k : Fin spends.length,
        (shuffle c.1.at (List.range n))[(spendPlace k).val]? = some k.val) ∧
      ∀ k : Fin outputs.length,
        (shuffle c.2.at (List.range n))[(outputPlace k).val]? = some k.val)) := by
    intro b m h
    have hlen := C05_built _ _ _ _ _ _ _ _ _ h
    rw [hn, Option.some.injEq] at hlen
    obtain ⟨p1, p2⟩ := C76_positions h
    rw [← hlen] at p1 p2
    exact and_congr (forall_congr' fun k => p1 k k.2 _) (forall_congr' fun k => p2 k k.2 _)
  constructor
  · rintro ⟨b, m, h, hp⟩
    exact (key b m h).1 hp
  · intro hp
    obtain ⟨b, m, h⟩ := hb c
    exact ⟨b, m, h, (key b m h).2 hp⟩

/-- Case for C76: one spend and two outputs are built into two actions, whatever the shuffles; the spend is
put into the second action and the outputs are swapped by one pair of tables. -/
example : ∃ (s : SpendInfo) (anchor : Fp),
    Nat.card {c : Choices 2 × Choices 2 // ∃ b m, bundle Examples.P0 some
      { Examples.rng0 Examples.path0 with spendShuffle := c.1.at, outputShuffle := c.2.at } anchor
        .DEFAULT [s] [Examples.output0 1, Examples.output0 2] = .ok (some (b, m)) ∧
      (∀ k : Fin 1, m.spendActionIndex k.val = some 1) ∧
      ∀ k : Fin 2, m.outputActionIndex k.val = some (1 - k).val} = 1 := by
  obtain ⟨s, anchor, -, -, hs⟩ := Examples.built_P0_all
  refine ⟨s, anchor, ?_⟩
  exact C76_uniform (n := 2) (spends := [s])
    (outputs := [Examples.output0 1, Examples.output0 2])
    (by simp [BundleType.numActions, BundleType.DEFAULT, Flags.ENABLED, MIN_ACTIONS])
    (fun c => by obtain ⟨b, m, h, -⟩ := hs c.1.at c.2.at; exact ⟨b, m, h⟩) (fun _ => (1 : Fin 2))
    (fun (a b : Fin 1) _ => Subsingleton.elim a b) (fun k => (1 - k : Fin 2)) (by decide)

end Orchard
