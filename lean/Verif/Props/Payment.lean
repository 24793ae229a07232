import Verif.Props.Wallet
import Verif.Examples.Payment

/-!
# C95: payments with received notes go through
-/

namespace Orchard

open Spec RedPallas

section
variable {T A V : Type} {P : Prims} {into : V → I64} {tryFrom : I64 → Option V} {rng : BuildDraws}
    {ty : BundleType} {spends : List SpendInfo} {outputs : List OutputInfo}
    {b : UnauthorizedBundle V} {m : BundleMetadata}

/-- Received spends are requestable, and their paths lead to the root. -/
theorem ReceivedOn.requestable {bs : List (OpenedBundle T A V)} (hc : Chain P into bs) {n : ℕ}
    {s : SpendInfo} (h : ReceivedOn P bs n s) :
    Requestable P s ∧ PathToAnchor P (node P (leafAt (bs.take n)) 32 0) s := by
  obtain ⟨h1, h2, ⟨k, oa, addr, memo, h3, h4, h5⟩, h6⟩ := h
  obtain ⟨⟨cm, e1, e2, -⟩, h8, -⟩ := C64_received_is_spendable P s.fvk h2 s.scope k h3 oa.action s.note
    addr memo h5
  refine ⟨⟨h1, h2, h8, cm, e1⟩, cm, e1, ?_⟩
  rw [← pathRoot_iff, ← e2]
  have hleaf : leafAt (bs.take n) s.merklePath.position.toNat = oa.action.cmx := by
    unfold leafAt
    rw [cmxsOf_eq fun b hb => hc.length b (List.mem_of_mem_take hb), List.getD_eq_getElem?_getD,
      List.getElem?_map, h4]
    rfl
  rw [← hleaf]
  exact C45_path_authenticates P _ _ h6

theorem take_actions {bs : List (OpenedBundle T A V)} {n j : ℕ} {oa : OpenedAction A}
    (h : (actionsOf (bs.take n))[j]? = some oa) : (actionsOf bs)[j]? = some oa := by
  have e : actionsOf bs = actionsOf (bs.take n) ++ actionsOf (bs.drop n) := by
    unfold actionsOf
    rw [← List.flatMap_append, List.take_append_drop]
  rw [e, List.getElem?_append_left (List.getElem?_eq_some_iff.1 h).1, h]

/-- Different received notes have different nullifiers, or exhibit a relation. -/
theorem received_distinct {bs : List (OpenedBundle T A V)} (hc : Chain P into bs) {n : ℕ}
    {s s' : SpendInfo} (h : ReceivedOn P bs n s) (h' : ReceivedOn P bs n s') {nf : Fp}
    (hn : s.note.nullifier P s.fvk = .ret nf) (hn' : s'.note.nullifier P s'.fvk = .ret nf) :
    s.merklePath.position = s'.merklePath.position ∨
      NullifierRelation P (noteOpening P s.note) (noteOpening P s'.note)
        (nullifierScalar P s.fvk.nk s.note.rho (psi P s.note.rseed s.note.rho))
        (nullifierScalar P s'.fvk.nk s'.note.rho (psi P s'.note.rseed s'.note.rho)) := by
  obtain ⟨⟨-, -, -, cm, hcm⟩, -⟩ := ReceivedOn.requestable hc h
  obtain ⟨⟨-, -, -, cm', hcm'⟩, -⟩ := ReceivedOn.requestable hc h'
  rw [(C40_formula P s.note s.fvk).1 cm hcm, Outcome.ret.injEq] at hn
  rw [(C40_formula P s'.note s'.fvk).1 cm' hcm', Outcome.ret.injEq] at hn'
  obtain ⟨x, hx, ex⟩ := noteCommit_eq_some hcm
  obtain ⟨y, hy, ey⟩ := noteCommit_eq_some hcm'
  have e := hn.trans hn'.symm
  unfold deriveNullifier at e
  rw [ex, ey] at e
  rcases nullifier_binding (m := noteOpening P s.note) (m' := noteOpening P s'.note)
    (length_noteBits ..) (length_noteBits ..) hx hy e with ⟨h4, -⟩ | h4
  swap; · exact Or.inr h4
  obtain ⟨h6, -⟩ := Prod.mk.inj h4
  obtain ⟨-, -, -, hrho, -⟩ := noteBits_inj s.note.value.inner.toNat_lt s'.note.value.inner.toNat_lt h6
  left
  obtain ⟨-, -, ⟨k, oa, addr, memo, -, i1, i2⟩, -⟩ := h
  obtain ⟨-, -, ⟨k', oa', addr', memo', -, j1, j2⟩, -⟩ := h'
  obtain ⟨-, -, ⟨r1, -⟩, -⟩ := ((C44_decryption P k.ivk oa.action).2 _ _ _).1 i2
  obtain ⟨-, -, ⟨r2, -⟩, -⟩ := ((C44_decryption P k'.ivk oa'.action).2 _ _ _).1 j2
  have hnd := hc.nodup
  rw [nullifiersOf_eq hc.length] at hnd
  have g1 := take_actions i1
  have g2 := take_actions j1
  have q1 : ((actionsOf bs).map (·.action.nf))[s.merklePath.position.toNat]? = some oa.action.nf := by
    rw [List.getElem?_map, g1]; rfl
  have q2 : ((actionsOf bs).map (·.action.nf))[s'.merklePath.position.toNat]? = some oa'.action.nf := by
    rw [List.getElem?_map, g2]; rfl
  obtain ⟨l1, v1⟩ := List.getElem?_eq_some_iff.1 q1
  obtain ⟨l2, v2⟩ := List.getElem?_eq_some_iff.1 q2
  have : s.merklePath.position.toNat = s'.merklePath.position.toNat := by
    refine (List.Nodup.getElem_inj_iff hnd (hi := l1) (hj := l2)).1 ?_
    rw [v1, v2, ← r1, ← r2, hrho]
  exact UInt32.toNat_inj.1 this

/-- **C95** (building). A request to spend received notes to any addresses can be built, for the root of the
tree in which the notes were found, if the totals fit into 64 bits and the difference is a value of the
balance type. -/
theorem C95_builds {bs : List (OpenedBundle T A V)} (hc : Chain P into bs) (n : ℕ)
    (hrec : ∀ s ∈ spends, ReceivedOn P bs n s)
    (hen : ty.flags.spendsEnabled = true ∨ spends = [])
    (hen' : ty.flags.outputsEnabled = true ∨ outputs = [])
    (hne : spends ≠ [] ∨ outputs ≠ [])
    (h1 : totalSpends spends ≤ 2 ^ 64 - 1) (h2 : totalOutputs outputs ≤ 2 ^ 64 - 1)
    (i : I64) (hi : i.val = totalSpends spends - totalOutputs outputs) (v : V) (hv : tryFrom i = some v)
    (hk : NoZeroKeys P rng) (he : EnoughDraws P rng) :
    ∃ b m, bundle P tryFrom rng (node P (leafAt (bs.take n)) 32 0) ty spends outputs =
      .ok (some (b, m)) := by
  suffices h : ∃ x, bundle P tryFrom rng (node P (leafAt (bs.take n)) 32 0) ty spends outputs =
      .ok (some x) from by
    obtain ⟨⟨b, m⟩, h⟩ := h
    exact ⟨b, m, h⟩
  refine (C13_outcome (fun s hs => (ReceivedOn.requestable hc (hrec s hs)).1) hk he).2.2.2.2.2.2
    ⟨by rcases hen with h | h <;> simp [h], ?_, by rcases hen' with h | h <;> simp [h], ?_, ?_⟩
  · rintro ⟨s, hs, hb⟩
    exact hb (Or.inr (ReceivedOn.requestable hc (hrec s hs)).2)
  · rintro ⟨k, hk, h | h⟩
    · obtain ⟨g1, g2⟩ := numActions_ge hk
      exact h (plannedNets_ok g1 g2 h1 h2)
    · rw [h i hi] at hv; cases hv
  · intro h
    obtain ⟨g1, g2⟩ := numActions_ge h
    rcases hne with h | h
    · exact h (List.length_eq_zero_iff.1 (Nat.le_zero.1 g1))
    · exact h (List.length_eq_zero_iff.1 (Nat.le_zero.1 g2))

/-- **C95** (the payment goes through). Let the built bundle of `C95_builds` be proven and signed with the
keys of the spent notes, with a complete proof system.  Then it is valid; and if the notes have not been
spent, are different notes, and the nullifiers of the dummies are fresh, the chain accepts it.  On the longer
chain the recipient of every output decrypts a note of the requested value with the requested memo, so that
everything in C94 and C95 applies to it in turn.  Exceptions: a Merkle path with a Sinsemilla exception, an
action on the chain that exhibits a relation with one of the notes, or two of the notes that exhibit one. -/
theorem C95_goes_through (hP : P.hashToCurve keyDiversificationPersonalization [] ≠ 0)
    (hconv : ∀ i v, tryFrom i = some v → into v = i)
    {bs : List (OpenedBundle Authorized (Signature .spendAuth) V)} (hc : Chain P into bs) (n : ℕ)
    (hn : n ≤ bs.length) (hrec : ∀ s ∈ spends, ReceivedOn P bs n s)
    (huns : ∀ s ∈ spends, UnspentOn P bs s) (hdist : (spends.map (·.merklePath.position)).Nodup)
    (ho : ∀ o ∈ outputs, o.recipient.pkd ≠ 0)
    (h : bundle P tryFrom rng (node P (leafAt (bs.take n)) 32 0) ty spends outputs = .ok (some (b, m)))
    (hrk : ∀ a ∈ b.actions, a.rk.point ≠ 0)
    (hdummy : ∀ i a, b.actions[i]? = some a → DummyAt spends m i →
      a.nf ∉ nullifiersOf bs ∧ ∀ i' a', b.actions[i']? = some a' → a'.nf = a.nf → i' = i)
    (hcap : (cmxsOf bs).length + b.actions.length ≤ 2 ^ 32) {Rnd : Type}
    (prover : Rnd → List Circuit → List (List Fp) → Except ProofError (List UInt8))
    (verifier : List (List Fp) → List UInt8 → Bool) (hps : CompleteProofSystem P prover verifier)
    (keys : List SpendAuthorizingKey)
    (hk : ∀ s ∈ spends, ∃ ask ∈ keys, s.fvk.ak.point = ask.s • Constants.spendAuthG)
    (rnd : Rnd) (srng : SignRng) (sighash : Bytes 32) :
    (∃ b1 b' secrets bsk, b.createProof (prover rnd) = .ok b1 ∧
      b1.applySignatures P srng sighash keys = .ret (.ok b') ∧
      BundleValid P verifier into b' sighash ∧
      Chain P into (bs ++ [⟨b', secrets, bsk⟩]) ∧
      ∀ (j : ℕ) (hj : j < outputs.length) (k : IncomingViewingKey),
        outputs[j].recipient.pkd = k.ivk • diversifyHash P outputs[j].recipient.d →
        ∃ i oa note, m.outputActionIndex j = some i ∧
          (actionsOf (bs ++ [⟨b', secrets, bsk⟩]))[(actionsOf bs).length + i]? = some oa ∧
          note.value = outputs[j].value ∧ tryNoteDecryption P k.ivk oa.action =
            .ret (some (note, outputs[j].recipient, outputs[j].memo))) ∨
    (∃ c ∈ b.authorization.proof.circuits,
      ∃ x ∈ pathInputs P c.pos.toNat 0 c.path (extractP c.cmOld),
        sinsemillaHashToPoint P Constants.qMerkleCrh (merkleBits x.1 x.2.1 x.2.2) = none ∧
        ∃ L ∈ botCandidates (chunks (merkleBits x.1 x.2.1 x.2.2)),
          L.IsRelation P Constants.qMerkleCrh 0) ∨
    (∃ s ∈ spends, ∃ a ∈ actionsOf bs,
      WalletRelation P a s.note s.fvk.ak.point s.fvk.nk (scopedRivk P s.fvk s.scope)) ∨
    ∃ s ∈ spends, ∃ s' ∈ spends, s.merklePath.position ≠ s'.merklePath.position ∧
      NullifierRelation P (noteOpening P s.note) (noteOpening P s'.note)
        (nullifierScalar P s.fvk.nk s.note.rho (psi P s.note.rseed s.note.rho))
        (nullifierScalar P s'.fvk.nk s'.note.rho (psi P s'.note.rseed s'.note.rho)) := by
  by_cases hx1 : ∃ s ∈ spends, ∃ a ∈ actionsOf bs,
      WalletRelation P a s.note s.fvk.ak.point s.fvk.nk (scopedRivk P s.fvk s.scope)
  · exact Or.inr (Or.inr (Or.inl hx1))
  by_cases hx2 : ∃ s ∈ spends, ∃ s' ∈ spends, s.merklePath.position ≠ s'.merklePath.position ∧
      NullifierRelation P (noteOpening P s.note) (noteOpening P s'.note)
        (nullifierScalar P s.fvk.nk s.note.rho (psi P s.note.rseed s.note.rho))
        (nullifierScalar P s'.fvk.nk s'.note.rho (psi P s'.note.rseed s'.note.rho))
  · exact Or.inr (Or.inr (Or.inr hx2))
  have hreq : ∀ s ∈ spends, Requestable P s := fun s hs => (ReceivedOn.requestable hc (hrec s hs)).1
  obtain ⟨rows, hplan, hms, hmo, hinj, -⟩ := C09_metadata h
  -- the nullifiers of requested spends
  have hspend : ∀ i a, b.actions[i]? = some a → ¬ DummyAt spends m i →
      ∃ j, ∃ hj : j < spends.length, m.spendActionIndex j = some i ∧
        spends[j].note.nullifier P spends[j].fvk = .ret a.nf := by
    intro i a ha hd
    unfold DummyAt at hd
    push Not at hd
    obtain ⟨j, hj, hji⟩ := hd
    obtain ⟨i', r, q1, q2, q3, q4⟩ := hms j hj
    rw [hji, Option.some.injEq] at q1
    subst q1
    obtain ⟨l1, v1⟩ := List.getElem?_eq_some_iff.1 q3
    obtain ⟨l2, v2⟩ := List.getElem?_eq_some_iff.1 ha
    have hr := hplan.explains.1.get l1 l2
    simp only [List.get_eq_getElem, v1, v2] at hr
    obtain ⟨cm, c1, c2⟩ := hr.nullifier
    refine ⟨j, hj, hji, ?_⟩
    rw [← q4, (C40_formula P r.spend.note r.spend.fvk).1 cm c1, c2]
  have hfresh : ∀ (i : ℕ) (a : Action SigningMetadata), b.actions[i]? = some a →
      a.nf ∉ nullifiersOf bs := by
    intro i a ha
    by_cases hd : DummyAt spends m i
    · exact (hdummy i a ha hd).1
    obtain ⟨j, hj, -, hn⟩ := hspend i a ha hd
    have hmem := List.getElem_mem hj
    rcases C94_fresh hc _ _ _ (hreq _ hmem).2.2.1 _ hn (huns _ hmem) with q | ⟨a', q1, -, q2⟩
    · exact q
    · exact absurd ⟨_, hmem, a', q1, q2⟩ hx1
  have hnd : (b.actions.map (·.nf)).Nodup := by
    rw [List.nodup_iff_injective_get]
    rintro ⟨i, hi⟩ ⟨i', hi'⟩ he
    simp only [List.get_eq_getElem, List.getElem_map] at he
    rw [List.length_map] at hi hi'
    have ha := List.getElem?_eq_getElem hi
    have ha' := List.getElem?_eq_getElem hi'
    refine Fin.ext ?_
    show i = i'
    by_cases hd : DummyAt spends m i
    · exact ((hdummy i _ ha hd).2 i' _ ha' he.symm).symm
    by_cases hd' : DummyAt spends m i'
    · exact (hdummy i' _ ha' hd').2 i _ ha he
    obtain ⟨j, hj, e1, hn1⟩ := hspend i _ ha hd
    obtain ⟨j', hj', e2, hn2⟩ := hspend i' _ ha' hd'
    rw [← he] at hn2
    have hm1 := List.getElem_mem hj
    have hm2 := List.getElem_mem hj'
    have hpos : spends[j].merklePath.position = spends[j'].merklePath.position := by
      by_contra hne
      rcases received_distinct hc (hrec _ hm1) (hrec _ hm2) hn1 hn2 with q | q
      · exact hne q
      · exact hx2 ⟨_, hm1, _, hm2, hne, q⟩
    have hjj : j = j' := by
      refine (List.Nodup.getElem_inj_iff hdist (hi := by simpa using hj) (hj := by simpa using hj')).1 ?_
      simpa using hpos
    subst hjj
    rw [e1, Option.some.injEq] at e2
    exact e2
  have hnf : (nullifiersOf bs ++ b.actions.map (·.nf)).Nodup := by
    rw [List.nodup_append']
    refine ⟨hc.nodup, hnd, ?_⟩
    intro x h1 h2
    obtain ⟨a, ha, rfl⟩ := List.mem_map.1 h2
    obtain ⟨i, hi⟩ := List.mem_iff_getElem?.1 ha
    exact hfresh i a hi h1
  rcases C66_honest_bundle_accepted hP into hconv h hreq ho hrk prover verifier hps
    (fun ps => ps.all fun y => verifier y.1 y.2) (fun _ => rfl) keys hk rnd srng sighash with
    ⟨b1, b', -, k1, k2, k3, -⟩ | hx
  swap; · exact Or.inr (Or.inl hx)
  have hist : Relation.ReflTransGen (PhaseStep P prover sighash) (.built b) (.authorized b') :=
    .tail (.tail .refl (.prove rnd k1)) (.apply srng keys k2)
  have heff := C21_effects P into prover sighash _ _ hist
  rcases C92_honest hP into hconv h hreq ho hrk b' heff bs ⟨n, hn, rfl⟩ hnf hcap with
    ⟨secrets, hacc, -⟩ | hx
  swap; · exact Or.inr (Or.inl hx)
  refine Or.inl ⟨b1, b', secrets, _, k1, k2, k3, .accept hc hacc, fun j hj k hkj => ?_⟩
  obtain ⟨i, note, t1, t2, t3, t4, -⟩ :=
    C63_recipient_finds_output hP h into prover sighash b' hist j hj k hkj
  have t5 : ∃ a, b'.actions[i]? = some a ∧
      tryNoteDecryption P k.ivk a = .ret (some (note, outputs[j].recipient, outputs[j].memo)) := by
    unfold Bundle.decryptOutputWithKey at t4
    cases hb : b'.actions[i]? with
    | none => rw [hb] at t4; simp at t4
    | some a => rw [hb] at t4; exact ⟨a, rfl, t4⟩
  obtain ⟨a, t6, t7⟩ := t5
  obtain ⟨l, -⟩ := List.getElem?_eq_some_iff.1 t6
  have l' : i < secrets.length := by
    rw [← hacc.proof.length_eq]; exact l
  refine ⟨i, ⟨a, (secrets[i]).1, (secrets[i]).2⟩, note, t1, ?_, t3, t7⟩
  unfold actionsOf
  rw [List.flatMap_append, List.flatMap_singleton, List.getElem?_append_right (by omega)]
  simp only [Nat.add_sub_cancel_left, OpenedBundle.opened, List.getElem?_map]
  rw [List.getElem?_zip_eq_some (z := (a, secrets[i])) |>.2 ⟨t6, List.getElem?_eq_getElem l'⟩]
  rfl
end

/-- Under `P0`: 3 is received in a coinbase bundle, and paid on in a second bundle; all hypotheses of C95
hold.  The second bundle has two actions, one of which spends a dummy note. -/
example : ∃ (bs : List (OpenedBundle Authorized (Signature .spendAuth) I64)) (s : SpendInfo) (o : OutputInfo)
    (rng : BuildDraws) (b : UnauthorizedBundle I64) (m : BundleMetadata) (ask : SpendAuthorizingKey),
    Chain Examples.P0 id bs ∧ ReceivedOn Examples.P0 bs 1 s ∧ UnspentOn Examples.P0 bs s ∧
    s.note.value.inner = 3 ∧ o.value.inner = 3 ∧ o.recipient.pkd ≠ 0 ∧
    bundle Examples.P0 some rng (node Examples.P0 (leafAt (bs.take 1)) 32 0) .DEFAULT [s] [o] =
      .ok (some (b, m)) ∧
    (∀ a ∈ b.actions, a.rk.point ≠ 0) ∧
    (∀ i a, b.actions[i]? = some a → DummyAt [s] m i →
      a.nf ∉ nullifiersOf bs ∧ ∀ i' a', b.actions[i']? = some a' → a'.nf = a.nf → i' = i) ∧
    (∃ i < b.actions.length, DummyAt [s] m i) ∧
    (cmxsOf bs).length + b.actions.length ≤ 2 ^ 32 ∧
    s.fvk.ak.point = ask.s • Constants.spendAuthG := by
  obtain ⟨fvk, hsk, hnk, -, hv⟩ := Examples.fvk_P0 ⟨default⟩
  obtain ⟨ask, ha1, ha2⟩ : ∃ ask : SpendAuthorizingKey, fvk.ak.point = ask.s • Constants.spendAuthG ∧ True := by
    have h : askInner Examples.P0 ⟨default⟩ ≠ 0 := by
      have := Examples.askScalar_P0 (default : Bytes 32)
      unfold Spec.askScalar at this
      unfold askInner
      rw [this]; exact one_ne_zero
    obtain ⟨ask, h1, h2, h3, h4⟩ := askOfSk_spec h
    unfold FullViewingKey.ofSk at hsk
    rw [h1] at hsk
    cases hsk
    exact ⟨ask, rfl, trivial⟩
  obtain ⟨k, hk, hk0, -⟩ := toIvk_valid hv .external
  have hP : Examples.P0.hashToCurve keyDiversificationPersonalization [] ≠ 0 := genG_ne_zero
  obtain ⟨o, ho⟩ : ∃ o, o = OutputInfo.new (some default) (k.address Examples.P0 default) ⟨3⟩ none :=
    ⟨_, rfl⟩
  have hor : o.recipient = k.address Examples.P0 default := by rw [ho]; rfl
  have hov : o.value = ⟨3⟩ := by rw [ho]; rfl
  have ho3 : Spec.totalOutputs [o] = 3 := by
    simp only [Spec.totalOutputs, List.map_cons, List.map_nil, List.sum_cons, List.sum_nil, hov]
    rfl
  have hpk : o.recipient.pkd ≠ 0 := by
    rw [hor]
    change k.ivk • diversifyHash Examples.P0 default ≠ 0
    rw [Ne, smul_eq_zero_iff', not_or]
    exact ⟨hk0, diversifyHash_ne_zero hP default⟩
  -- the coinbase bundle
  obtain ⟨hk1, he1⟩ := Examples.rng_ok (rng := Examples.rng0 Examples.path0)
    (fun _ => rfl) (fun _ => rfl) (fun _ => rfl) (fun _ => rfl)
  obtain ⟨b1, m1, hb1⟩ := C95_builds (T := Authorized) (A := Signature .spendAuth) (V := I64)
    (P := Examples.P0) (tryFrom := some) (into := id) (ty := .coinbase) (spends := []) (outputs := [o])
    (.empty) 0 (by simp) (by simp) (by simp [BundleType.flags, Flags.SPENDS_DISABLED])
    (by simp) (by simp [Spec.totalSpends]) (by rw [ho3]; norm_num) ⟨-3, by decide⟩
    (by rw [ho3]; rfl) _ rfl hk1 he1
  have hlen1 : b1.actions.length = 1 := by
    have := C05_built _ _ _ _ _ _ _ _ _ hb1
    simpa [BundleType.numActions] using this.symm
  have hfl1 := (C14_flags_anchor hb1).1
  have hrk1 := Examples.rk_of_alpha hb1 (by simp) (fun _ => rfl)
  have hbot : ∀ x : ℕ × Fp × Fp, sinsemillaHashToPoint Examples.P0 Constants.qMerkleCrh
      (merkleBits x.1 x.2.1 x.2.2) ≠ none := by
    intro x hn
    obtain ⟨A, hA, -⟩ := Examples.hash_P0 (Q := Constants.qMerkleCrh)
      (msg := merkleBits x.1 x.2.1 x.2.2) (by simp [Examples.domainPoints]) (by simp)
    rw [hn] at hA; simp at hA
  rcases C95_goes_through (P := Examples.P0) (into := id) hP (by intro i v h; cases h; rfl)
    (bs := []) .empty 0 le_rfl (by simp) (by simp) (by simp)
    (by intro o' ho'; rw [List.mem_singleton.1 ho']; exact hpk) hb1 hrk1
    (by
      intro i a h _
      refine ⟨by simp [nullifiersOf], fun i' a' h' _ => ?_⟩
      have l := (List.getElem?_eq_some_iff.1 h).1
      have l' := (List.getElem?_eq_some_iff.1 h').1
      omega)
    (by rw [hlen1]; simp [cmxsOf]) _ _ Examples.verifier_complete [] (by simp) () ⟨fun _ => default⟩ default with
    ⟨b1p, b1', sec, bsk, q1, q2, -, hc, hdec⟩ | ⟨c, -, x, -, hn, -⟩ | ⟨s, hs, -⟩ | ⟨s, hs, -⟩
  rotate_left
  · exact absurd hn (hbot x)
  · simp at hs
  · simp at hs
  have hist : Relation.ReflTransGen (PhaseStep Examples.P0 (fun (_ : Unit) _ _ => .ok [1, 2, 3]) default)
      (.built b1) (.authorized b1') := .tail (.tail .refl (.prove () q1)) (.apply _ [] q2)
  have heff : effects id b1' = effects id b1 := C21_effects Examples.P0 id _ default _ _ hist
  have hlen1' : b1'.actions.length = 1 := by
    have := congrArg (fun e => e.actions.length) heff
    simpa [effects, hlen1] using this
  have hfl1' : b1'.flags.spendsEnabled = false := by
    have := congrArg (fun e => e.spendsEnabled) heff
    simpa [effects, hfl1, BundleType.flags, Flags.SPENDS_DISABLED] using this
  obtain ⟨i, oa, note, -, hoa, hnv, hdn⟩ := hdec 0 (by simp) k (by
    simp only [List.getElem_cons_zero]; rw [hor]; rfl)
  simp only [List.getElem_cons_zero] at hnv hdn
  rw [List.nil_append] at hc hoa
  have hacc : Accepted Examples.P0 id [] ⟨b1', sec, bsk⟩ := by
    generalize hbs : [(⟨b1', sec, bsk⟩ : OpenedBundle Authorized (Signature .spendAuth) I64)] = bs at hc
    cases hc with
    | empty => cases hbs
    | @accept bs' b' _ h =>
      obtain ⟨e1, e2⟩ := List.append_inj' (s₁ := []) (t₁ := [_]) hbs rfl
      rw [← e1] at h
      cases e2
      exact h
  have hal : (actionsOf [(⟨b1', sec, bsk⟩ : OpenedBundle Authorized (Signature .spendAuth) I64)]).length = 1 := by
    have := hacc.proof.length_eq
    simp only [actionsOf, OpenedBundle.opened, List.flatMap_cons, List.flatMap_nil, List.append_nil,
      List.length_map, List.length_zip]
    simp only at this
    omega
  have hi0 : i = 0 := by
    have := (List.getElem?_eq_some_iff.1 hoa).1
    simp only [hal] at this
    omega
  subst hi0
  have hv0 : ∀ a ∈ actionsOf [(⟨b1', sec, bsk⟩ : OpenedBundle Authorized (Signature .spendAuth) I64)],
      a.w.vOld = 0 := by
    intro a ha
    simp only [actionsOf, OpenedBundle.opened, List.flatMap_cons, List.flatMap_nil, List.append_nil] at ha
    obtain ⟨⟨x, y⟩, hxy, rfl⟩ := List.mem_map.1 ha
    have := (List.forall₂_iff_zip.1 hacc.proof).2 hxy
    rcases this.1.enableSpend with h | h
    · exact h
    · exact absurd (hfl1'.symm.trans h) (by simp)
  obtain ⟨path, hp1, hp2⟩ := exists_path Examples.P0
    (leafAt [(⟨b1', sec, bsk⟩ : OpenedBundle Authorized (Signature .spendAuth) I64)]) 0 (by norm_num)
  obtain ⟨s, hs⟩ : ∃ s : SpendInfo, s = ⟨none, fvk, .external, note, path⟩ := ⟨_, rfl⟩
  have hrec : ReceivedOn Examples.P0 [⟨b1', sec, bsk⟩] 1 s := by
    subst hs
    exact ⟨rfl, hv, ⟨k, oa, _, _, hk, by rw [hp1]; exact hoa, hdn⟩, by rw [hp1]; exact hp2⟩
  have hsv : s.note.value = ⟨3⟩ := by rw [hs, ← hov, ← hnv]
  have huns : UnspentOn Examples.P0 [⟨b1', sec, bsk⟩] s := by
    rintro a ha ⟨⟨-, -, h, -⟩, -⟩
    rw [hv0 a ha, hsv] at h
    exact absurd h (by decide)
  -- the second bundle
  obtain ⟨cm, -, hcm⟩ := Examples.noteCommit_P0
  obtain ⟨nf1, hnf1⟩ := List.length_eq_one_iff.1 hlen1'
  obtain ⟨R, hR1, hR2⟩ := Examples.exists_fresh cm nf1.nf
    (Spec.deriveNullifier Examples.P0 2 note.rho (psi Examples.P0 note.rseed note.rho) cm)
  obtain ⟨hk2, he2⟩ := Examples.rng_ok (rng := Examples.rngAt R)
    (fun _ => rfl) (fun _ => rfl) (fun _ => rfl) (fun _ => rfl)
  have hs3 : Spec.totalSpends [s] = 3 := by
    simp only [Spec.totalSpends, List.map_cons, List.map_nil, List.sum_cons, List.sum_nil, hsv]
    rfl
  obtain ⟨b, m, hb⟩ := C95_builds (P := Examples.P0) (tryFrom := some) (into := id) (ty := .DEFAULT)
    (spends := [s]) (outputs := [o]) hc 1 (by intro s' h; rw [List.mem_singleton.1 h]; exact hrec)
    (Or.inl rfl) (Or.inl rfl) (by simp) (by rw [hs3]; norm_num) (by rw [ho3]; norm_num) ⟨0, by decide⟩
    (by rw [ho3, hs3]; rfl) _ rfl hk2 he2
  have hlen : b.actions.length = 2 := by
    have := C05_built _ _ _ _ _ _ _ _ _ hb
    have e : BundleType.numActions .DEFAULT [s].length [o].length = some 2 := by
      rfl
    rw [e] at this
    simpa using this.symm
  have hreq := (ReceivedOn.requestable hc hrec).1
  obtain ⟨rows, hplan, hms, -, hinj, -⟩ := C09_metadata hb
  obtain ⟨i0, r0, z1, z2, z3, z4⟩ := hms 0 (by simp)
  simp only [List.getElem_cons_zero] at z4
  have hrl : rows.length = 2 := by rw [← hlen, hplan.explains.1.length_eq]
  obtain ⟨dS, d1, d2, d3⟩ := hplan.spends
  have hreal : ∀ (i : ℕ) r a, rows[i]? = some r → b.actions[i]? = some a → Realises Examples.P0 r a := by
    intro i r a hr ha
    obtain ⟨l1, v1⟩ := List.getElem?_eq_some_iff.1 hr
    obtain ⟨l2, v2⟩ := List.getElem?_eq_some_iff.1 ha
    have hr := hplan.explains.1.get l1 l2
    simpa only [List.get_eq_getElem, v1, v2] using hr
  have hdum : ∀ (i : ℕ) r, rows[i]? = some r → i ≠ i0 → r.spend ∈ dS := by
    intro i r hr hi
    refine Examples.other_mem (l := rows.map Row.spend) (i := i) (j := i0) (s := s) ?_ ?_ ?_ hi d1
    · rw [List.length_map, hrl]
    · rw [List.getElem?_map, hr]; rfl
    · rw [List.getElem?_map, z3]; exact congrArg some z4
  have hnfd : ∀ (i : ℕ) (a : Action SigningMetadata), b.actions[i]? = some a → i ≠ i0 →
      a.nf = Examples.nfAt cm R := by
    intro i a ha hi
    have l := (List.getElem?_eq_some_iff.1 ha).1
    have hr := List.getElem?_eq_getElem (l := rows) (i := i) (by omega)
    obtain ⟨j, hj⟩ := List.getElem?_of_mem (hdum i _ hr hi)
    obtain ⟨-, g1, -, -, -, -, -, -, sk, -, -, ask', -, -, g2, -⟩ := d3 j _ hj
    obtain ⟨cm', c1, c2⟩ := (hreal i _ a hr ha).nullifier
    obtain ⟨fvk', f1, f2, -⟩ := Examples.fvk_P0 sk
    rw [g2, Outcome.ret.injEq] at f1
    unfold commitmentOf at c1
    rw [hcm, Option.some.injEq] at c1
    rw [c2, f1, f2, ← c1, g1]
    exact Examples.deriveNullifier_P0 _ _ _ _ rfl
  have hnfs : ∀ (a : Action SigningMetadata), b.actions[i0]? = some a →
      a.nf = Spec.deriveNullifier Examples.P0 2 note.rho (psi Examples.P0 note.rseed note.rho) cm := by
    intro a ha
    obtain ⟨cm', c1, c2⟩ := (hreal i0 _ a z3 ha).nullifier
    unfold commitmentOf at c1
    rw [hcm, Option.some.injEq] at c1
    rw [c2, ← c1, z4, hs, hnk]
  have hne : ∀ i, DummyAt [s] m i → i ≠ i0 := fun i hd e => hd 0 (by simp) (by rw [e]; exact z1)
  refine ⟨_, s, o, Examples.rngAt R, b, m, ask, hc, hrec, huns, by rw [hsv], by rw [hov], hpk, hb,
    Examples.rk_of_alpha hb (by intro s' h; rw [List.mem_singleton.1 h]; exact hreq) (fun _ => rfl),
    ?_, ⟨1 - i0, by omega, ?_⟩, ?_, by rw [hs]; exact ha1⟩
  · intro i a ha hd
    have hi := hne i hd
    have l := (List.getElem?_eq_some_iff.1 ha).1
    refine ⟨?_, fun i' a' ha' he => ?_⟩
    · rw [hnfd i a ha hi]
      simpa [nullifiersOf, hnf1] using hR1
    · have l' := (List.getElem?_eq_some_iff.1 ha').1
      by_contra hii
      have : i' = i0 := by omega
      subst this
      rw [hnfd i a ha hi, hnfs a' ha'] at he
      exact hR2 he.symm
  · intro j hj h
    have : j = 0 := by simpa using hj
    rw [this, z1, Option.some.injEq] at h
    omega
  · rw [hlen]
    simp [cmxsOf, hlen1']
end Orchard
