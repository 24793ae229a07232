import Verif.Props.Ledger
import Verif.Props.EndToEnd

/-!
# C92: an honestly built bundle may follow the chain
-/

namespace Orchard

open Spec Halo2

theorem Halo2.Returns.relax {strict : Bool} {h : Option Point} {out : Fp × Fp} (hr : Returns strict h out) :
    Returns false h out := hr.imp_right fun h => ⟨rfl, h.2⟩

theorem Halo2.MerkleLayer.relax {P : Prims} {strict : Bool} {l : ℕ} {enc : ℕ × ℕ} {left right out : Fp}
    (h : MerkleLayer P strict l enc left right out) : MerkleLayer P false l enc left right out :=
  ⟨h.1, h.2.1, h.2.2.1, h.2.2.2.1, h.2.2.2.2.imp fun _ => Returns.relax⟩

theorem Halo2.MerkleRoot.relax {P : Prims} {strict : Bool} {pos l : ℕ} {path : List Fp}
    {encs : List (ℕ × ℕ)} {node root : Fp} (h : MerkleRoot P strict pos l path encs node root) :
    MerkleRoot P false pos l path encs node root := by
  induction path generalizing l encs node with
  | nil => cases encs with
    | nil => exact h
    | cons => exact h
  | cons s path ih => cases encs with
    | nil => exact h
    | cons e encs =>
      obtain ⟨next, h1, h2⟩ := h
      refine ⟨next, ?_, ih h2⟩
      split_ifs at h1 ⊢ <;> exact h1.relax

theorem ActionCircuit.Synthesize.relax {P : Prims} {strict : Bool} {k : ActionCircuit.Cells} {inst : List Fp}
    (h : ActionCircuit.Synthesize P strict k inst) : ActionCircuit.Synthesize P false k inst := by
  unfold ActionCircuit.Synthesize CommitIvk.gadget NoteCommit.gadget SinsemillaCommit at h ⊢
  obtain ⟨h1, h2, h3, h4, h5, h6, h7, h8, h9, h10, h11, h12, h13,
    ⟨i1, i2, i3, ⟨out, ⟨i4, i5⟩, i6⟩, i7⟩, h15,
    ⟨d, ⟨o1, o2, o3, o4, o5, o6, o7, o8, o9, ⟨o10, o11⟩, o12⟩, od⟩, h17, h18,
    ⟨n1, n2, n3, n4, n5, n6, n7, n8, n9, ⟨n10, n11⟩, n12⟩, h20⟩ := h
  exact ⟨h1, h2, h3, h4, h5.relax, h6, h7, h8, h9, h10, h11, h12, h13,
    ⟨i1, i2, i3, ⟨out, ⟨i4, i5.relax⟩, i6⟩, i7⟩, h15,
    ⟨d, ⟨o1, o2, o3, o4, o5, o6, o7, o8, o9, ⟨o10, o11.relax⟩, o12⟩, od⟩, h17, h18,
    ⟨n1, n2, n3, n4, n5, n6, n7, n8, n9, ⟨n10, n11.relax⟩, n12⟩, h20⟩

theorem effects_get {A B : Type} {as : List (Action A)} {bs : List (Action B)}
    (h : as.map actionEffects = bs.map actionEffects) {i : ℕ} {a : Action A} (ha : as[i]? = some a) :
    ∃ b, bs[i]? = some b ∧ actionEffects a = actionEffects b := by
  have := congrArg (·[i]?) h
  simp only [List.getElem?_map, ha, Option.map_some] at this
  obtain ⟨b, h1, h2⟩ := Option.map_eq_some_iff.1 this.symm
  exact ⟨b, h1, h2.symm⟩

theorem toInstance_effects {A B : Type} {a : Action A} {b : Action B}
    (h : actionEffects a = actionEffects b) (f : Flags) (anchor : Fp) :
    a.toInstance f anchor = b.toInstance f anchor := by
  simp only [actionEffects, ActionEffects.mk.injEq] at h
  obtain ⟨h1, h2, -, -, -, h3, h4⟩ := h
  have e3 : a.cvNet = b.cvNet := by cases ha : a.cvNet; cases hb : b.cvNet; simp_all
  have e4 : a.rk = b.rk := by cases ha : a.rk; cases hb : b.rk; simp_all
  unfold Action.toInstance
  rw [h1, h2, e3, e4]

/-- **C92** (the chain can always be continued honestly). Take a bundle `b` built from requestable spends
and from outputs to addresses with `pk_d ≠ 0`, none of whose `rk` is the identity, and let `b'` be any
bundle with the same effecting data (the bundle after any history of proving and signing, C21).  If it was built for the root of the tree
after some earlier bundle of the chain, reveals only fresh nullifiers and fits into the tree, then it may
follow the chain: the secrets are the values the honest prover puts into the circuit, and the binding key
is the builder's.  The only exception is a Merkle path with a Sinsemilla exception. -/
theorem C92_honest {T A V : Type} {P : Prims} {tryFrom : I64 → Option V} {rng : BuildDraws} {anchor : Fp}
    {ty : BundleType} {spends : List SpendInfo} {outputs : List OutputInfo}
    {b : UnauthorizedBundle V} {m : BundleMetadata}
    (hP : P.hashToCurve keyDiversificationPersonalization [] ≠ 0) (into : V → I64)
    (hconv : ∀ i v, tryFrom i = some v → into v = i)
    (h : bundle P tryFrom rng anchor ty spends outputs = .ok (some (b, m)))
    (hs : ∀ s ∈ spends, Spec.Requestable P s) (ho : ∀ o ∈ outputs, o.recipient.pkd ≠ 0)
    (hrk : ∀ a ∈ b.actions, a.rk.point ≠ 0) (b' : Bundle T A V)
    (hb' : effects into b' = effects into b)
    (bs : List (OpenedBundle T A V))
    (hanchor : ∃ k ≤ bs.length, anchor = node P (leafAt (bs.take k)) 32 0)
    (hnf : (nullifiersOf bs ++ b.actions.map (·.nf)).Nodup)
    (hcap : (cmxsOf bs).length + b.actions.length ≤ 2 ^ 32) :
    (∃ secrets, Accepted P into bs ⟨b', secrets, b.authorization.sigs.bsk.s⟩ ∧
      List.Forall₂ (fun c s => ∃ k, ActionCircuit.assign P c = some k ∧ s.1 = k.witness)
        b.authorization.proof.circuits secrets) ∨
    ∃ c ∈ b.authorization.proof.circuits,
      ∃ x ∈ pathInputs P c.pos.toNat 0 c.path (extractP c.cmOld),
        sinsemillaHashToPoint P Constants.qMerkleCrh (merkleBits x.1 x.2.1 x.2.2) = none ∧
        ∃ L ∈ botCandidates (chunks (merkleBits x.1 x.2.1 x.2.2)),
          L.IsRelation P Constants.qMerkleCrh 0 := by
  refine or_iff_not_imp_right.2 fun hbot => ?_
  obtain ⟨rows, hplan⟩ := C08_each_once h
  have hlen : b.actions.length = b.authorization.proof.circuits.length := by
    rw [← hplan.explains.1.length_eq, hplan.explains.2.1.length_eq]
  obtain ⟨-, ea, -⟩ := C14_flags_anchor h
  simp only [effects, BundleEffects.mk.injEq] at hb'
  obtain ⟨e1, e21, e22, e3, e4⟩ := hb'
  have e2 : b'.flags = b.flags := by
    cases hf : b'.flags; cases hf' : b.flags; simp_all
  have hl' : b'.actions.length = b.actions.length := by
    simpa using congrArg List.length e1
  obtain ⟨ks, hk1, hk2⟩ := exists_common
    (R := fun (a : Action A) k => ∃ inst, (a.toInstance b'.flags b'.anchor).toHalo2 = .ret inst ∧
      ActionCircuit.Synthesize P false k inst)
    (S := fun c k => ActionCircuit.assign P c = some k)
    (as := b'.actions) (hl'.trans hlen) (by
      intro i a c ha hc
      obtain ⟨a0, ha0, h0⟩ := effects_get e1 ha
      rcases C55_complete hP h hs ho i a0 c ha0 hc (hrk a0 (List.mem_of_getElem? ha0)) with
        ⟨k, inst, h1, h2, h3⟩ | hx
      · refine ⟨k, ⟨inst, ?_, ActionCircuit.Synthesize.relax h3⟩, h1⟩
        rw [toInstance_effects h0, e2, e4]; exact h2
      · exact absurd ⟨c, List.mem_of_getElem? hc, hx⟩ hbot)
  obtain ⟨ss, hs1, hs2⟩ := C92_circuit P b' ks hk1
  have enf : b'.actions.map (·.nf) = b.actions.map (·.nf) := by
    have := congrArg (List.map ActionEffects.nf) e1
    rwa [List.map_map, List.map_map] at this
  have ecv : (b'.actions.map fun a => a.cvNet.inner) = b.actions.map fun a => a.cvNet.inner := by
    have := congrArg (List.map ActionEffects.cv) e1
    rwa [List.map_map, List.map_map] at this
  refine ⟨ss, ⟨hs2, ?_, ?_, ?_, ?_⟩, ?_⟩
  · obtain ⟨i, -, h1, h2⟩ := C12_binding_key h
    show bindingKey into b' = _
    unfold bindingKey
    rw [h2, ecv, e3, hconv _ _ h1]
  · obtain ⟨k, hk, h1⟩ := hanchor
    exact ⟨k, hk, (e4.trans ea).trans h1⟩
  · unfold nullifiersOf at hnf ⊢
    rw [List.flatMap_append, List.flatMap_singleton]
    show (_ ++ b'.actions.map (·.nf)).Nodup
    rw [enf]; exact hnf
  · unfold cmxsOf at hcap ⊢
    rw [List.flatMap_append, List.flatMap_singleton, List.length_append, List.length_map, hl']
    exact hcap
  · have : List.Forall₂ (fun c w => ∃ k, ActionCircuit.assign P c = some k ∧ w = k.witness)
        b.authorization.proof.circuits (ss.map (·.1)) := by
      rw [hs1, List.forall₂_map_right_iff]
      exact hk2.imp fun _ k hk => ⟨k, hk, rfl⟩
    rwa [List.forall₂_map_right_iff] at this

/-- Under `P0`: a coinbase bundle with one output of value 3, built for the root of the empty tree, may
start a chain; 3 is then in the pool. -/
example : ∃ (b : UnauthorizedBundle I64) (secrets : List (ActionWitness × MerkleTrace)),
    b.actions.length = 1 ∧
    Chain Examples.P0 id [⟨b, secrets, b.authorization.sigs.bsk.s⟩] ∧
    poolBalance id [⟨b, secrets, b.authorization.sigs.bsk.s⟩] = 3 := by
  obtain ⟨hk, he⟩ := Examples.rng_ok (rng := Examples.rng0 Examples.path0)
    (fun _ => rfl) (fun _ => rfl) (fun _ => rfl) (fun _ => rfl)
  have ho : Spec.totalOutputs [Examples.output0 3] = 3 := by decide
  have key := (C13_outcome (tryFrom := some) (anchor := node Examples.P0 (fun _ => 2) 32 0)
    (ty := .coinbase) (spends := []) (outputs := [Examples.output0 3]) (by simp) hk he).2.2.2.2.2.2
    ⟨by simp, by simp, by simp [BundleType.flags, Flags.SPENDS_DISABLED], by
      rintro ⟨n, hn, h | h⟩
      · obtain ⟨g1, g2⟩ := numActions_ge hn
        exact h (plannedNets_ok g1 g2 (by simp [Spec.totalSpends]) (by rw [ho]; norm_num))
      · have := h ⟨-3, by decide⟩ (by rw [ho]; rfl)
        simp at this, by simp [BundleType.numActions]⟩
  obtain ⟨⟨b, m⟩, hb⟩ := key
  have hlen : b.actions.length = 1 := by
    have := C05_built _ _ _ _ _ _ _ _ _ hb
    simpa [BundleType.numActions] using this.symm
  obtain ⟨i, hi1, hi2, -⟩ := C12_binding_key hb
  rcases C92_honest (P := Examples.P0) (by exact genG_ne_zero) id (by
      intro i v h; cases h; rfl) hb (by simp)
    (by
      intro o ho
      rw [List.mem_singleton.1 ho]
      exact Constants.spendAuthG_ne_zero)
    (Examples.rk_of_alpha hb (by simp) (fun _ => rfl)) b rfl []
    ⟨0, le_rfl, rfl⟩
    (by
      obtain ⟨a, ha⟩ := List.length_eq_one_iff.1 hlen
      rw [ha]; simp [nullifiersOf])
    (by rw [hlen]; simp [cmxsOf]) with ⟨secrets, h, -⟩ | ⟨c, -, x, -, hn, -⟩
  · refine ⟨b, secrets, hlen, .accept .empty h, ?_⟩
    have : b.valueBalance = i := by simpa using hi2.symm
    simp only [poolBalance, List.map_cons, List.map_nil, List.sum_cons, List.sum_nil, this]
    rw [ho] at hi1
    show -(i.val + 0) = 3
    rw [hi1]; rfl
  · obtain ⟨A, hA, -⟩ := Examples.hash_P0 (Q := Constants.qMerkleCrh)
      (msg := merkleBits x.1 x.2.1 x.2.2) (by simp [Examples.domainPoints]) (by simp)
    rw [hn] at hA; simp at hA

end Orchard
