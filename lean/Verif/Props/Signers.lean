import Verif.Lemmas.Signers
import Verif.Props.Hiding
import Mathlib.GroupTheory.GroupAction.MultipleTransitivity

/-!
# Property C96: signatures do not tell who signs

The signatures of a bundle are made with the discrete logarithms of `rk` and of the binding validating key,
and with blocks of the generator.  So two bundles with the same `rk`, `cv_net` and balance get the same
signatures for the same message, up to the order in which the blocks are used, whatever is spent and paid in
them and by whom.  With C78 this holds for any two requests: the distribution of the published `cv_net`, `rk`
and signatures only depends on the number of actions and the balance.
-/

namespace Orchard

open RedPallas

variable {V V' : Type}

/-- Finitely many different numbers can be moved to any other different numbers. -/
theorem exists_perm {n : ℕ} (f g : Option (Fin n) → ℕ) (hf : Function.Injective f)
    (hg : Function.Injective g) : ∃ π : Equiv.Perm ℕ, ∀ x, π (g x) = f x := by
  have := Equiv.Perm.isMultiplyPretransitive ℕ (n + 1)
  obtain ⟨π, hπ⟩ := MulAction.exists_smul_eq (Equiv.Perm ℕ)
    (⟨g ∘ (finSuccEquiv n), hg.comp (finSuccEquiv n).injective⟩ : Fin (n + 1) ↪ ℕ)
    (⟨f ∘ (finSuccEquiv n), hf.comp (finSuccEquiv n).injective⟩ : Fin (n + 1) ↪ ℕ)
  refine ⟨π, fun x => ?_⟩
  have := DFunLike.congr_fun hπ ((finSuccEquiv n).symm x)
  simpa using this

theorem smul_left_inj {B : Point} (hB : B ≠ 0) {s t : Fq} (h : s • B = t • B) : s = t := by
  rcases smul_eq_zero_iff'.1 (show (s - t) • B = 0 by rw [sub_smul, h, sub_self]) with e | e
  · exact sub_eq_zero.1 e
  · exact absurd e hB

/-- The signatures that `apply_signatures` makes, with blocks that do not depend on generator and message. -/
theorem applySignatures_uniform (P : Prims) (into : V → I64)
    {b : Bundle (InProgress (List UInt8) Unauthorized) SigningMetadata V} (hb : Spec.Signable into b)
    (keys : List SpendAuthorizingKey)
    (hk : ∀ a ∈ b.actions, a.authorization.dummyAsk = none →
      ∃ ask ∈ keys, a.authorization.parts.ak.point = ask.s • Constants.spendAuthG) :
    ∃ nonce : Option (Fin b.actions.length) → ℕ, Function.Injective nonce ∧ ∀ rng sighash, ∃ b',
      b.applySignatures P rng sighash keys = .ret (.ok b') ∧ b'.actions.length = b.actions.length ∧
      (∃ sk : SigningKey .binding, sk.s • Constants.valueCommitR = Spec.bindingKey into b ∧
        b'.authorization.bindingSignature = sk.sign P (rng.block (nonce none)) sighash.toList) ∧
      ∀ (i : Fin b.actions.length) (a' : Action (Signature .spendAuth)), b'.actions[i.val]? = some a' →
        ∃ sk : SigningKey .spendAuth, sk.s • Constants.spendAuthG = b.actions[i].rk.point ∧
          a'.authorization = sk.sign P (rng.block (nonce (some i))) sighash.toList := by
  obtain ⟨nonce, N, h⟩ := nonceState_uniform P b keys
  have key : ∀ rng sighash, ∃ b', b.applySignatures P rng sighash keys = .ret (.ok b') := fun rng sighash =>
    (C20_apply_signatures P b rng sighash keys).1.2 hk
  have main : ∀ rng sighash b', b.applySignatures P rng sighash keys = .ret (.ok b') →
      b'.actions.length = b.actions.length ∧ b'.authorization.bindingSignature =
        b.authorization.sigs.bsk.sign P (rng.block (nonce none)) sighash.toList ∧
      (∀ (i : ℕ) a', b'.actions[i]? = some a' →
        (Spec.slots (signAll P (b.prepare P rng sighash) keys).1)[i]? = some (.signature a'.authorization)) := by
    intro rng sighash b' hb'
    have h1 := h rng sighash
    have hb0 := hb'
    have e : b.applySignatures P rng sighash keys =
      (signAll P (b.prepare P rng sighash) keys).1.finalize := rfl
    rw [e] at hb'
    obtain ⟨sigs, hs, hr⟩ := ((C16_finalize _).1 b').1 hb'
    have hlen : b'.actions.length = b.actions.length := by
      have hE := C21_effects P into (Rnd := Unit) (fun _ _ _ => .ok []) sighash (.proven b) (.authorized b')
        (.single (.apply rng keys hb0))
      simpa [phaseEffects, Spec.effects] using congrArg (fun e => e.actions.length) hE
    refine ⟨hlen, ?_, ?_⟩
    · rw [hr.2.2.2.2.2]
      exact h1.binding
    · intro i a' ha'
      obtain ⟨a0, -, -, g⟩ := Reauth.get hr ha'
      rw [hs, List.getElem?_map, g]; rfl
  have hsl : ∀ i : Fin b.actions.length, ∃ m,
      (Spec.slots (signAll P (b.prepare P ⟨fun _ => default⟩ default) keys).1)[i.val]? = some m ∧
        Spec.IsSigned m := by
    intro i
    obtain ⟨b', hb'⟩ := key ⟨fun _ => default⟩ default
    obtain ⟨l, -, g⟩ := main _ _ _ hb'
    have hi : i.val < b'.actions.length := by rw [l]; exact i.isLt
    exact ⟨_, g i.val _ (List.getElem?_eq_getElem hi), _, rfl⟩
  have h1 := h ⟨fun _ => default⟩ default
  refine ⟨fun x => nonce (x.map Fin.val), ?_, ?_⟩
  · have hne : ∀ i : Fin b.actions.length, nonce (some i.val) ≠ nonce none := by
      intro i
      obtain ⟨m, hm, sig, hs⟩ := hsl i
      obtain ⟨a, -, ⟨-, e⟩ | ⟨_, -, -, -, h3⟩⟩ := h1.slot i m hm
      · rw [hs] at e; cases e
      · exact h3
    rintro (_ | i) (_ | j) he
    · rfl
    · exact absurd he.symm (hne j)
    · exact absurd he (hne i)
    · obtain ⟨m, hm, hs⟩ := hsl i
      obtain ⟨m', hm', hs'⟩ := hsl j
      exact congrArg some (Fin.ext (h1.inj i j _ _ hm hm' hs hs' he))
  · intro rng sighash
    obtain ⟨b', hb'⟩ := key rng sighash
    obtain ⟨l, g1, g2⟩ := main _ _ _ hb'
    refine ⟨b', hb', l, ⟨_, hb.bsk, g1⟩, fun i a' ha' => ?_⟩
    obtain ⟨a, ha, ⟨-, e⟩ | ⟨ask, k1, k2, -⟩⟩ := (h rng sighash).slot i _ (g2 i a' ha')
    · cases e
    rw [MaybeSigned.signature.injEq] at k2
    refine ⟨_, ?_, k2⟩
    obtain ⟨l1, rfl⟩ := List.getElem?_eq_some_iff.1 ha
    have hm := List.getElem_mem l1
    have hak : (b.actions[i.val]).authorization.parts.ak.point = ask.s • Constants.spendAuthG := by
      rcases k1 with k1 | ⟨-, -, k1⟩
      · exact hb.dummy _ hm ask k1
      · exact k1
    have := hb.rk _ hm
    rw [hak, ← add_smul] at this
    exact this.symm

/-- **C96** (signatures). Let two bundles that are ready for signing have actions with the same `cv_net` and
`rk`, and the same balance.  If both can be signed, with whatever keys, there is an order of the blocks of the
generator, the same for all generators and messages, with which both get the same signatures. -/
theorem C96_signatures (P : Prims) (into : V → I64) (into' : V' → I64)
    {b : Bundle (InProgress (List UInt8) Unauthorized) SigningMetadata V} (hb : Spec.Signable into b)
    {c : Bundle (InProgress (List UInt8) Unauthorized) SigningMetadata V'} (hc : Spec.Signable into' c)
    (hbl : c.actions.map Spec.blinded = b.actions.map Spec.blinded)
    (hbal : into' c.valueBalance = into b.valueBalance) (keys keys' : List SpendAuthorizingKey)
    (hk : ∀ a ∈ b.actions, a.authorization.dummyAsk = none →
      ∃ ask ∈ keys, a.authorization.parts.ak.point = ask.s • Constants.spendAuthG)
    (hk' : ∀ a ∈ c.actions, a.authorization.dummyAsk = none →
      ∃ ask ∈ keys', a.authorization.parts.ak.point = ask.s • Constants.spendAuthG) :
    ∃ π : Equiv.Perm ℕ, ∀ (rng : SignRng) (sighash : Bytes 32), ∃ b' c',
      b.applySignatures P rng sighash keys = .ret (.ok b') ∧
      c.applySignatures P ⟨fun n => rng.block (π n)⟩ sighash keys' = .ret (.ok c') ∧
      c'.actions.map Action.authorization = b'.actions.map Action.authorization ∧
      c'.authorization.bindingSignature = b'.authorization.bindingSignature := by
  obtain ⟨f, hf, f1⟩ := applySignatures_uniform P into hb keys hk
  obtain ⟨g, hg, g1⟩ := applySignatures_uniform P into' hc keys' hk'
  have hlen : c.actions.length = b.actions.length := by
    simpa using congrArg List.length hbl
  have hrk : ∀ (i : ℕ) (h1 : i < b.actions.length) (h2 : i < c.actions.length),
      b.actions[i].rk.point = c.actions[i].rk.point := by
    intro i h1 h2
    have := congrArg (fun l => l[i]?) hbl
    simp only [List.getElem?_map, List.getElem?_eq_getElem h1, List.getElem?_eq_getElem h2,
      Option.map_some, Option.some.injEq] at this
    exact (congrArg Prod.snd this).symm
  have hbv : Spec.bindingKey into b = Spec.bindingKey into' c := by
    unfold Spec.bindingKey
    have := congrArg (List.map Prod.fst) hbl
    rw [List.map_map, List.map_map] at this
    have e : ∀ {A : Type} (l : List (Action A)), l.map (Prod.fst ∘ Spec.blinded) =
        l.map fun a => a.cvNet.inner := fun l => rfl
    rw [e, e] at this
    rw [this, hbal]
  obtain ⟨π, hπ⟩ := exists_perm f (g ∘ Option.map (Fin.cast hlen.symm)) hf
    (hg.comp (Option.map_injective (Fin.cast_injective _)))
  refine ⟨π, fun rng sighash => ?_⟩
  obtain ⟨b', e1, e2, ⟨sk, e3, e4⟩, e5⟩ := f1 rng sighash
  obtain ⟨c', d1, d2, ⟨sk', d3, d4⟩, d5⟩ := g1 ⟨fun n => rng.block (π n)⟩ sighash
  refine ⟨b', c', e1, d1, ?_, ?_⟩
  · apply List.ext_getElem?
    intro i
    rw [List.getElem?_map, List.getElem?_map]
    by_cases hi : i < b.actions.length
    · have hi1 : i < b'.actions.length := by omega
      have hi2 : i < c'.actions.length := by omega
      have hi3 : i < c.actions.length := by omega
      obtain ⟨s1, q1, q2⟩ := e5 ⟨i, hi⟩ _ (List.getElem?_eq_getElem hi1)
      obtain ⟨s2, q3, q4⟩ := d5 ⟨i, hi3⟩ _ (List.getElem?_eq_getElem hi2)
      rw [List.getElem?_eq_getElem hi1, List.getElem?_eq_getElem hi2, Option.map_some, Option.map_some,
        q2, q4]
      have hs : s2 = s1 := by
        have : s2.s = s1.s := smul_left_inj Constants.spendAuthG_ne_zero
          (q3.trans ((hrk i hi hi3).symm.trans q1.symm))
        cases s1; cases s2; cases this; rfl
      have hn := hπ (some ⟨i, hi⟩)
      simp only [Function.comp, Option.map_some, Fin.cast_mk] at hn
      rw [hs]
      simp only [hn]
    · rw [List.getElem?_eq_none (by omega), List.getElem?_eq_none (by omega)]
  · have hs : sk' = sk := by
      have : sk'.s = sk.s := smul_left_inj Constants.valueCommitR_ne_zero
        (d3.trans (hbv.symm.trans e3.symm))
      cases sk; cases sk'; cases this; rfl
    have hn := hπ none
    simp only [Function.comp, Option.map_none] at hn
    rw [d4, e4, hs]
    simp only [hn]

/-- A proven bundle of the builder is ready for signing. -/
theorem proven_signable {P : Prims} {tryFrom : I64 → Option V} (into : V → I64)
    (hconv : ∀ i v, tryFrom i = some v → into v = i) {rng : BuildDraws} {anchor : Fp} {ty : BundleType}
    {spends : List SpendInfo} {outputs : List OutputInfo} {b : UnauthorizedBundle V} {m : BundleMetadata}
    (hs : ∀ s ∈ spends, s.dummySk = none)
    (h : bundle P tryFrom rng anchor ty spends outputs = .ok (some (b, m)))
    {prover : List Circuit → List (List Fp) → Except ProofError (List UInt8)}
    {b1 : Bundle (InProgress (List UInt8) Unauthorized) SigningMetadata V}
    (h1 : b.createProof prover = .ok b1) {keys : List SpendAuthorizingKey}
    (hk : ∀ s ∈ spends, ∃ ask ∈ keys, s.fvk.ak.point = ask.s • Constants.spendAuthG) :
    Spec.Signable into b1 ∧ b1.actions = b.actions ∧ b1.valueBalance = b.valueBalance ∧
    ∀ a ∈ b1.actions, a.authorization.dummyAsk = none →
      ∃ ask ∈ keys, a.authorization.parts.ak.point = ask.s • Constants.spendAuthG := by
  obtain ⟨_, _, -, -, h3⟩ := ((C21_create_proof _ _).2.2.1 _).1 h1
  refine ⟨Signable.of_reauth h3 rfl (C17_built_signable P tryFrom into hconv rng anchor ty spends hs outputs
    b m h), ?_, h3.2.2.2.1, ?_⟩
  · apply List.ext_getElem (Reauth.length h3)
    intro i h1 h2
    obtain ⟨a, g1, g2, g3⟩ := Reauth.get h3 (List.getElem?_eq_getElem h1)
    rw [Spec.slots, List.getElem?_map, g1, Option.map_some, Option.some.injEq] at g3
    obtain ⟨_, rfl⟩ := List.getElem?_eq_some_iff.1 g1
    exact Action.ext_effects g2 g3.symm
  · exact (C20_apply_signatures P b1 ⟨fun _ => default⟩ default keys).1.1
      (C20_builder P tryFrom rng anchor ty spends outputs b m h prover b1 h1 _ _ keys hk)

/-- **C96** (requests). Take any two requests that give bundles with the same number of actions and the same
balance.  For every choice of trapdoors and randomisers in the first there is exactly one in the second with
which the second bundle has the `cv_net` and `rk` of the first (with its own nullifiers); and then, with
whatever proofs, both get the same signatures for every message, up to an order of the generator's blocks
that is the same for all generators and messages. -/
theorem C96_requests {P : Prims} {tryFrom : I64 → Option V} (into : V → I64)
    (hconv : ∀ i v, tryFrom i = some v → into v = i)
    {rng rng' : BuildDraws} {anchor anchor' : Fp} {ty ty' : BundleType} {spends spends' : List SpendInfo}
    {outputs outputs' : List OutputInfo} {b c : UnauthorizedBundle V} {m m' : BundleMetadata}
    (h : bundle P tryFrom rng anchor ty spends outputs = .ok (some (b, m)))
    (h' : bundle P tryFrom rng' anchor' ty' spends' outputs' = .ok (some (c, m')))
    (hr : ∀ s ∈ spends, Spec.Requestable P s) (hr' : ∀ s ∈ spends', Spec.Requestable P s)
    (hz : Spec.NoZeroKeys P rng') (he : Spec.EnoughDraws P rng')
    (hlen : c.actions.length = b.actions.length) (hbal : c.valueBalance = b.valueBalance)
    (keys keys' : List SpendAuthorizingKey)
    (hk : ∀ s ∈ spends, ∃ ask ∈ keys, s.fvk.ak.point = ask.s • Constants.spendAuthG)
    (hk' : ∀ s ∈ spends', ∃ ask ∈ keys', s.fvk.ak.point = ask.s • Constants.spendAuthG)
    (prover prover' : List Circuit → List (List Fp) → Except ProofError (List UInt8)) :
    ∃! z : Fin c.actions.length → Fq × Fq, ∃ d n,
      bundle P tryFrom (Spec.reblind rng' z) anchor' ty' spends' outputs' = .ok (some (d, n)) ∧
      d.actions.map Action.nf = c.actions.map Action.nf ∧
      d.actions.map Spec.blinded = b.actions.map Spec.blinded ∧
      ∀ b1 d1, b.createProof prover = .ok b1 → d.createProof prover' = .ok d1 →
        ∃ π : Equiv.Perm ℕ, ∀ (srng : SignRng) (sighash : Bytes 32), ∃ b2 d2,
          b1.applySignatures P srng sighash keys = .ret (.ok b2) ∧
          d1.applySignatures P ⟨fun n => srng.block (π n)⟩ sighash keys' = .ret (.ok d2) ∧
          d2.actions.map Action.authorization = b2.actions.map Action.authorization ∧
          d2.authorization.bindingSignature = b2.authorization.bindingSignature := by
  obtain ⟨z, ⟨d, n, e1, e2, e3⟩, hu⟩ := C78_build hr' hz he h' (b.actions.map Spec.blinded)
    (by rw [List.length_map, hlen])
  refine ⟨z, ⟨d, n, e1, e2, e3, fun b1 d1 hb1 hd1 => ?_⟩, fun y ⟨d', n', y1, y2, y3, _⟩ =>
    hu y ⟨d', n', y1, y2, y3⟩⟩
  obtain ⟨p1, p2, p3, p4⟩ := proven_signable into hconv (fun s hs => (hr s hs).1) h hb1 hk
  obtain ⟨q1, q2, q3, q4⟩ := proven_signable into hconv (fun s hs => (hr' s hs).1) e1 hd1 hk'
  have hvb : d.valueBalance = c.valueBalance := by
    obtain ⟨i, i1, i2, -⟩ := C10_value_balance e1
    obtain ⟨j, j1, j2, -⟩ := C10_value_balance h'
    have : i = j := by
      cases i; cases j; simp only at i1 j1; subst i1; subst j1; rfl
    rw [this, j2, Option.some.injEq] at i2
    exact i2.symm
  exact C96_signatures P into into p1 q1 (by rw [q2, p2, e3]) (by rw [q3, p3, hvb, hbal]) keys keys' p4 q4

/-- C96: a request that spends 5 and pays 1 and 2, and a request that spends 2 and pays nothing. -/
example : ∃ s s' anchor anchor' b m c m' ask ask', s.note.value.inner = 5 ∧ s'.note.value.inner = 2 ∧
    bundle Examples.P0 some (Examples.rng0 Examples.path0) anchor .DEFAULT [s]
      [Examples.output0 1, Examples.output0 2] = .ok (some (b, m)) ∧
    bundle Examples.P0 some (Examples.rng0 Examples.path0) anchor' .DEFAULT [s'] [] =
      .ok (some (c, m')) ∧
    Spec.Requestable Examples.P0 s ∧ Spec.Requestable Examples.P0 s' ∧
    Spec.NoZeroKeys Examples.P0 (Examples.rng0 Examples.path0) ∧
    Spec.EnoughDraws Examples.P0 (Examples.rng0 Examples.path0) ∧
    c.actions.length = b.actions.length ∧ c.valueBalance = b.valueBalance ∧
    s.fvk.ak.point = (ask : SpendAuthorizingKey).s • Constants.spendAuthG ∧
    s'.fvk.ak.point = (ask' : SpendAuthorizingKey).s • Constants.spendAuthG := by
  obtain ⟨s, anchor, b, m, h1, h2, h3, h4⟩ := Examples.built_P0 id id
  obtain ⟨hk, he⟩ := Examples.rng_ok (rng := Examples.rng0 Examples.path0)
    (fun _ => rfl) (fun _ => rfl) (fun _ => rfl) (fun _ => rfl)
  obtain ⟨s', anchor', g1, g2, g3⟩ := Examples.spend_P0 2
  have hv' : Spec.totalSpends [s'] = 2 := by
    simp only [Spec.totalSpends, List.map_cons, List.map_nil, g1]; decide
  have hv : Spec.totalSpends [s] = 5 := by
    simp only [Spec.totalSpends, List.map_cons, List.map_nil, List.sum_cons, List.sum_nil]
    rw [show s.note.value = ⟨5⟩ by cases hx : s.note.value; rw [hx] at h1; cases h1; rfl]
    decide
  have ho : Spec.totalOutputs [Examples.output0 1, Examples.output0 2] = 3 := by decide
  obtain ⟨⟨c, m'⟩, hc⟩ := (C13_outcome (tryFrom := some) (anchor := anchor') (ty := .DEFAULT) (spends := [s'])
    (outputs := []) (by intro x hx; rw [List.mem_singleton.1 hx]; exact g2) hk he).2.2.2.2.2.2
    ⟨by simp [BundleType.DEFAULT, BundleType.flags, Flags.ENABLED], by
      rintro ⟨x, hx, hn⟩
      rw [List.mem_singleton.1 hx] at hn
      exact hn (Or.inr g3),
      by simp, by
      rintro ⟨n, hn, h | h⟩
      · obtain ⟨q1, q2⟩ := numActions_ge hn
        exact h (plannedNets_ok q1 q2 (by rw [hv']; norm_num) (by simp [Spec.totalOutputs]))
      · have := h ⟨2, by decide⟩ (by rw [hv']; simp [Spec.totalOutputs])
        simp at this, by simp [BundleType.numActions, BundleType.DEFAULT, Flags.ENABLED, MIN_ACTIONS]⟩
  obtain ⟨k, hk1⟩ := exists_smul_of_ne_zero Constants.spendAuthG_ne_zero s.fvk.ak.point
  obtain ⟨k', hk1'⟩ := exists_smul_of_ne_zero Constants.spendAuthG_ne_zero s'.fvk.ak.point
  refine ⟨s, s', anchor, anchor', b, m, c, m', ⟨k⟩, ⟨k'⟩, h1, by rw [g1], h3, hc, h2, g2, hk, he, ?_, ?_, hk1,
    hk1'⟩
  · rw [h4]
    have := C05_built _ _ _ _ _ _ _ _ _ hc
    simpa [BundleType.numActions, BundleType.DEFAULT, Flags.ENABLED, MIN_ACTIONS] using this.symm
  · obtain ⟨i, i1, i2, -⟩ := C10_value_balance h3
    obtain ⟨j, j1, j2, -⟩ := C10_value_balance hc
    rw [hv, ho] at i1
    rw [hv'] at j1
    cases i; cases j
    simp only [Spec.totalOutputs, List.map_nil, List.sum_nil] at i1 j1
    subst i1; subst j1
    rw [Option.some.injEq] at i2 j2
    rw [← i2, ← j2]
    rfl

end Orchard
