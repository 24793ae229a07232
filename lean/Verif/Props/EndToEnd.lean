import Verif.Props.ActionCircuit
import Verif.Props.Signing
import Verif.Props.Batch
import Verif.Props.Protocol

/-!
# C63–C66: properties of whole bundles, from the builder to the ledger and back to the wallet
-/

namespace Orchard

open RedPallas Halo2

section
variable {V : Type} {P : Prims} {tryFrom : I64 → Option V} {rng : BuildDraws} {anchor : Fp}
    {ty : BundleType} {spends : List SpendInfo} {outputs : List OutputInfo}
    {b : UnauthorizedBundle V} {m : BundleMetadata}

/-! ### C63: outputs arrive -/

theorem action_of_history {A B T U : Type} {into : V → I64} {b : Bundle T A V} {b' : Bundle U B V}
    (h : Spec.effects into b' = Spec.effects into b) {i : ℕ} {a : Action A}
    (ha : b.actions[i]? = some a) :
    ∃ a', b'.actions[i]? = some a' ∧ Spec.actionEffects a' = Spec.actionEffects a := by
  have h1 : b'.actions.map Spec.actionEffects = b.actions.map Spec.actionEffects :=
    congrArg Spec.BundleEffects.actions h
  have h2 := congrArg (fun l => l[i]?) h1
  simp only [List.getElem?_map, ha, Option.map_some, Option.map_eq_some_iff] at h2
  exact h2

theorem encrypted_of_effects {A B : Type} {a : Action A} {a' : Action B}
    (h : Spec.actionEffects a' = Spec.actionEffects a) :
    a'.nf = a.nf ∧ a'.cmx = a.cmx ∧ a'.cvNet = a.cvNet ∧ a'.encryptedNote = a.encryptedNote := by
  obtain ⟨nf', rk', cmx', ⟨e1', e2', e3'⟩, ⟨cv'⟩, au'⟩ := a'
  obtain ⟨nf, rk, cmx, ⟨e1, e2, e3⟩, ⟨cv⟩, au⟩ := a
  simp only [Spec.actionEffects, Spec.ActionEffects.mk.injEq] at h
  obtain ⟨rfl, rfl, rfl, rfl, rfl, rfl, -⟩ := h
  exact ⟨rfl, rfl, rfl, rfl⟩

/-- The row behind the `j`-th requested output. -/
theorem row_of_output (h : bundle P tryFrom rng anchor ty spends outputs = .ok (some (b, m)))
    (j : ℕ) (hj : j < outputs.length) :
    ∃ i r a, m.outputActionIndex j = some i ∧ b.actions[i]? = some a ∧ Spec.Realises P r a ∧
      r.output = outputs[j] := by
  obtain ⟨rows, hp, -, ho, -⟩ := C09_metadata h
  obtain ⟨i, r, h1, h2, h3, h4⟩ := ho j hj
  obtain ⟨h5, h6⟩ := List.getElem?_eq_some_iff.1 h3
  have := hp.explains.1.get h5 h2
  simp only [List.get_eq_getElem, h6] at this
  exact ⟨i, r, _, h1, List.getElem?_eq_getElem h2, this, h4⟩

/-- **C63** (recipient). Let a bundle be built and then proven and signed in any way.  If the address
of the `j`-th requested output belongs to an incoming viewing key, then the action with index
`output_action_index(j)` of the authorised bundle decrypts under this key to a note with the requested
recipient and value and to the requested memo; scanning the bundle with this key reports it; and so
does trial decryption of the compact form of the action. -/
theorem C63_recipient_finds_output
    (hP : P.hashToCurve keyDiversificationPersonalization [] ≠ 0)
    (h : bundle P tryFrom rng anchor ty spends outputs = .ok (some (b, m)))
    (into : V → I64) {Rnd : Type}
    (prover : Rnd → List Circuit → List (List Fp) → Except ProofError (List UInt8))
    (sighash : Bytes 32) (b' : AuthorizedBundle V)
    (hist : Relation.ReflTransGen (Spec.PhaseStep P prover sighash) (.built b) (.authorized b'))
    (j : ℕ) (hj : j < outputs.length) (k : IncomingViewingKey)
    (hk : outputs[j].recipient.pkd = k.ivk • diversifyHash P outputs[j].recipient.d) :
    ∃ i note, m.outputActionIndex j = some i ∧
      note.recipient = outputs[j].recipient ∧ note.value = outputs[j].value ∧
      b'.decryptOutputWithKey P i k =
        .ret (some (note, outputs[j].recipient, outputs[j].memo)) ∧
      (∃ r, b'.decryptOutputsWithKeys P [k] = .ret r ∧
        (i, k, note, outputs[j].recipient, outputs[j].memo) ∈ r) ∧
      ∃ a, b'.actions[i]? = some a ∧ tryCompactNoteDecryption P k.ivk (CompactAction.ofAction a) =
        .ret (some (note, outputs[j].recipient)) := by
  obtain ⟨i, r, a, h1, h2, hr, h4⟩ := row_of_output h j hj
  obtain ⟨a', ha', he⟩ := action_of_history (C21_effects P into prover sighash _ _ hist) h2
  obtain ⟨e1, e2, -, e4⟩ := encrypted_of_effects he
  obtain ⟨cm, hcm, hcmx⟩ := hr.cmx
  obtain ⟨enc, g1, g2⟩ := C42_recipient_decrypts (T := Signature .spendAuth) P hP k.ivk r.note
    r.output.memo r.output.ovk r.rndOck r.rndOp (by rw [hr.recipient, h4]; exact hk) hr.esk cm hcm
    a.cvNet
  have := hr.ciphertext
  rw [hcmx, g1, Outcome.ret.injEq] at this
  obtain ⟨g3, g4⟩ := g2 a' (e1.trans hr.rho.symm) (e2.trans hcmx) (e4.trans this.symm)
  rw [hr.recipient, h4] at g3 g4
  have hd : b'.decryptOutputWithKey P i k =
      .ret (some (r.note, outputs[j].recipient, outputs[j].memo)) := by
    unfold Bundle.decryptOutputWithKey
    rw [ha']; exact g3
  refine ⟨i, r.note, h1, by rw [hr.recipient, h4], by rw [hr.value, h4], hd, ?_, a', ha', g4⟩
  obtain ⟨l, k1, k2⟩ := ((C25_single_key P b' i).1 k).2
  exact ⟨l, k1, (k2 _).1 hd⟩

/-- **C63** (sender). If the `j`-th requested output was given an outgoing viewing key, this key
recovers from the authorised bundle the note, recipient and memo, at `output_action_index(j)`. -/
theorem C63_sender_recovers_output
    (h : bundle P tryFrom rng anchor ty spends outputs = .ok (some (b, m)))
    (into : V → I64) {Rnd : Type}
    (prover : Rnd → List Circuit → List (List Fp) → Except ProofError (List UInt8))
    (sighash : Bytes 32) (b' : AuthorizedBundle V)
    (hist : Relation.ReflTransGen (Spec.PhaseStep P prover sighash) (.built b) (.authorized b'))
    (j : ℕ) (hj : j < outputs.length) (hpk : outputs[j].recipient.pkd ≠ 0) (ovk : Bytes 32)
    (hovk : outputs[j].ovk = some ovk) :
    ∃ i note, m.outputActionIndex j = some i ∧
      note.recipient = outputs[j].recipient ∧ note.value = outputs[j].value ∧
      b'.recoverOutputWithOvk P i ovk =
        .ret (some (note, outputs[j].recipient, outputs[j].memo)) ∧
      ∃ r, b'.recoverOutputsWithOvks P [ovk] = .ret r ∧
        (i, ovk, note, outputs[j].recipient, outputs[j].memo) ∈ r := by
  obtain ⟨i, r, a, h1, h2, hr, h4⟩ := row_of_output h j hj
  obtain ⟨a', ha', he⟩ := action_of_history (C21_effects P into prover sighash _ _ hist) h2
  obtain ⟨e1, e2, e3, e4⟩ := encrypted_of_effects he
  obtain ⟨cm, hcm, hcmx⟩ := hr.cmx
  obtain ⟨enc, g1, g2⟩ := C43_sender_recovers (T := Signature .spendAuth) P r.note
    r.output.memo ovk r.rndOck r.rndOp (by rw [hr.recipient, h4]; exact hpk) hr.esk cm hcm a.cvNet
  have := hr.ciphertext
  rw [h4, hovk, ← h4, hcmx, g1, Outcome.ret.injEq] at this
  have g3 := g2 a' (e1.trans hr.rho.symm) (e2.trans hcmx) e3 (e4.trans this.symm)
  rw [hr.recipient, h4] at g3
  have hd : b'.recoverOutputWithOvk P i ovk =
      .ret (some (r.note, outputs[j].recipient, outputs[j].memo)) := by
    unfold Bundle.recoverOutputWithOvk
    rw [ha']; exact g3
  refine ⟨i, r.note, h1, by rw [hr.recipient, h4], by rw [hr.value, h4], hd, ?_⟩
  obtain ⟨l, k1, k2⟩ := ((C25_single_key P b' i).2 ovk).2
  exact ⟨l, k1, (k2 _).1 hd⟩

end

/-! ### C64: what is received can be spent -/

/-- **C64.** Whatever a wallet decrypts from an action, made by anybody in any way, with the incoming
viewing key of a scope of a valid full viewing key, it can spend: the note's commitment is the
published one, its nullifier can be computed, and `add_spend` accepts the note with any Merkle path
that leads from the published `cmx` to the builder's anchor. -/
theorem C64_received_is_spendable {T : Type} (P : Prims) (fvk : FullViewingKey)
    (hv : Spec.ValidFvk P fvk.ak.point fvk.nk fvk.rivk) (s : Scope) (k : IncomingViewingKey)
    (hk : fvk.toIvk P s = .ret k) (act : Action T) (note : Note) (addr : Address) (memo : Bytes 512)
    (hd : tryNoteDecryption P k.ivk act = .ret (some (note, addr, memo))) :
    (∃ cm, Spec.commitmentOf P note = some cm ∧ act.cmx = extractP cm ∧
      note.nullifier P fvk = .ret (Spec.deriveNullifier P fvk.nk note.rho
        (Spec.psi P note.rseed note.rho) cm)) ∧
    Spec.OwnedInScope P fvk s note.recipient ∧
    ∀ (ty : BundleType) (anchor : Fp) (path : MerklePath) (b : Builder), b.bundleType = ty →
      b.anchor = anchor → ty.flags.spendsEnabled = true →
      Spec.PathRoot P path.position.toNat path.authPath act.cmx anchor →
      ∃ b' scope, b.addSpend P fvk note path = .ret (.ok (), b') ∧
        b'.spends = b.spends ++ [⟨none, fvk, scope, note, path⟩] := by
  obtain ⟨-, h2, h3, -⟩ := ((C44_decryption P k.ivk act).2 note addr memo).1 hd
  obtain ⟨hrho, ⟨cm, hcm, hcmx⟩, -, -⟩ := h3
  have hown : Spec.OwnedInScope P fvk s note.recipient :=
    (ownedInScope_iff hv hk note.recipient).1 h2
  have hcm' : Spec.commitmentOf P note = some cm := hcm
  refine ⟨⟨cm, hcm', hcmx.symm, ?_⟩, hown, ?_⟩
  · exact (C40_formula P note fvk).1 cm hcm
  · rintro ty anchor path b rfl rfl he hp
    obtain ⟨r, b', g1, -, -, -, g2, -, g3⟩ := C06_add_spend P b fvk note path hv ⟨cm, hcm'⟩
    have hr := g2.2 ⟨he, ⟨s, hown⟩, Or.inr ⟨cm, hcm', by rw [hcmx]; exact hp⟩⟩
    obtain ⟨scope, -, -, hb⟩ := g3 hr
    exact ⟨b', scope, by rw [g1, hr], by rw [hb]⟩

/-! ### C65: no value is created -/

theorem sum_map_sub' {α : Type} (f g : α → ℤ) (l : List α) :
    (l.map fun x => f x - g x).sum = (l.map f).sum - (l.map g).sum := by
  induction l with
  | nil => rfl
  | cons a l ih => simp only [List.map_cons, List.sum_cons, ih]; ring

/-- The cells satisfy the circuit for the public inputs of the action in the bundle. -/
def Spec.SatisfiedFor {T A V : Type} (P : Prims) (b : Bundle T A V) (a : Action A)
    (k : ActionCircuit.Cells) : Prop :=
  ∃ inst, (a.toInstance b.flags b.anchor).toHalo2 = .ret inst ∧
    ActionCircuit.Synthesize P false k inst

/-- **C65** (balance). Let cells satisfying the Action circuit be known for every action of a bundle of
at most `2^190` actions, and a binding signing key of its binding validating key.  Then the bundle's
value balance is the total of the old notes' values minus the total of the new notes' values, over the
integers; or a discrete-logarithm relation between the two value commitment generators is
exhibited.  Actions whose flags disable spends (outputs) contribute no old (new) value. -/
theorem C65_balance {T A V : Type} (P : Prims) (into : V → I64) (b : Bundle T A V)
    (hlen : b.actions.length ≤ 2 ^ 190) (ks : List ActionCircuit.Cells)
    (hk : List.Forall₂ (Spec.SatisfiedFor P b) b.actions ks) (bsk : Fq)
    (hb : Spec.bindingKey into b = bsk • Constants.valueCommitR) :
    ((into b.valueBalance).val = (ks.map fun k => (k.vOld.val : ℤ)).sum -
        (ks.map fun k => (k.vNew.val : ℤ)).sum ∨
      DLogRelation (((ks.map fun k => (k.vOld.val : ℤ) - (k.vNew.val : ℤ)).sum -
          (into b.valueBalance).val : ℤ) : Fq)
        ((ks.map fun k => k.rcv).sum - bsk) Constants.valueCommitV Constants.valueCommitR) ∧
    (b.flags.spendsEnabled = false → ∀ k ∈ ks, k.vOld.val = 0) ∧
    (b.flags.outputsEnabled = false → ∀ k ∈ ks, k.vNew.val = 0) := by
  have hst : List.Forall₂ (fun a k => Spec.ActionStatement P (a.toInstance b.flags b.anchor)
      k.witness) b.actions ks :=
    hk.imp fun a k ⟨inst, h1, h2⟩ => C54_sound P k _ inst h1 h2
  have hall : ∀ k ∈ ks, ∃ a : Action A,
      Spec.ActionStatement P (a.toInstance b.flags b.anchor) k.witness := by
    intro k hk'
    obtain ⟨i, hi⟩ := List.mem_iff_getElem?.1 hk'
    obtain ⟨hi1, hi2⟩ := List.getElem?_eq_some_iff.1 hi
    have := hst.get (by rw [hst.length_eq]; exact hi1) hi1
    simp only [List.get_eq_getElem, hi2] at this
    exact ⟨_, this⟩
  refine ⟨?_, fun hf k hk' => ?_, fun hf k hk' => ?_⟩
  · have hr : ∀ a ∈ ks.map (fun k => ((⟨(k.vOld.val : ℤ) - (k.vNew.val : ℤ)⟩ : ValueSum),
        (⟨k.rcv⟩ : ValueCommitTrapdoor))), ValueInRange a.1.inner := by
      intro a ha
      obtain ⟨k, hk', rfl⟩ := List.mem_map.1 ha
      obtain ⟨_, hs⟩ := hall k hk'
      have h1 : k.vOld.val < 2 ^ 64 := hs.vOld
      have h2 : k.vNew.val < 2 ^ 64 := hs.vNew
      unfold ValueInRange
      simp only
      generalize k.vOld.val = x at *
      generalize k.vNew.val = y at *
      constructor <;> omega
    have hvr : ValueInRange (ValueSum.fromRaw (into b.valueBalance)).inner :=
      C02_constructible_inRange (.fromRaw _)
    have := C04_balance_binding _ (by rw [List.length_map, ← hst.length_eq]; exact hlen) hr
      (b.actions.map fun a => a.cvNet) ?_ (into b.valueBalance) _ (C03_derive _ hvr _) bsk ?_
    · simp only [List.map_map, Function.comp_def] at this
      rw [← sum_map_sub']
      exact this
    · rw [List.map_map, List.map_map]
      have h1 : ks.map ((fun a : ValueSum × ValueCommitTrapdoor => ValueCommitment.derive a.1 a.2) ∘
          fun k => ((⟨(k.vOld.val : ℤ) - (k.vNew.val : ℤ)⟩ : ValueSum),
            (⟨k.rcv⟩ : ValueCommitTrapdoor))) =
          ks.map fun k => some ⟨valueCommitSpec ((k.vOld.val : ℤ) - (k.vNew.val : ℤ)) k.rcv⟩ :=
        List.map_congr_left fun k hk' => C03_derive _ (hr _ (List.mem_map_of_mem hk')) _
      rw [h1]
      clear h1 hr hall hlen hb hk
      generalize b.actions = as at hst
      induction hst with
      | nil => rfl
      | cons h _ ih =>
        rw [List.map_cons, List.map_cons, ih]
        congr 2
        exact congrArg ValueCommitment.mk h.cvNet.symm
    · rw [← hb]
      unfold Spec.bindingKey
      simp only [ValueCommitment.sub, ValueCommitment.sum_inner, List.map_map, Function.comp_def,
        valueCommitSpec, ValueSum.fromRaw, ValueCommitTrapdoor.zero, Orchard.zero_smul, add_zero]
  · obtain ⟨a, hs⟩ := hall k hk'
    rcases hs.enableSpend with h | h
    · exact h
    · change b.flags.spendsEnabled = true at h
      rw [hf] at h; cases h
  · obtain ⟨a, hs⟩ := hall k hk'
    rcases hs.enableOutput with h | h
    · exact h
    · change b.flags.outputsEnabled = true at h
      rw [hf] at h; cases h

/-! ### C66: an honest bundle is accepted -/

section
variable {V : Type} {P : Prims} {tryFrom : I64 → Option V} {rng : BuildDraws} {anchor : Fp}
    {ty : BundleType} {spends : List SpendInfo} {outputs : List OutputInfo}
    {b : UnauthorizedBundle V} {m : BundleMetadata}

theorem exists_common {A C X : Type} {R : A → X → Prop} {S : C → X → Prop} {as : List A} {cs : List C}
    (hlen : as.length = cs.length)
    (h : ∀ (i : ℕ) a c, as[i]? = some a → cs[i]? = some c → ∃ x, R a x ∧ S c x) :
    ∃ xs, List.Forall₂ R as xs ∧ List.Forall₂ S cs xs := by
  induction as generalizing cs with
  | nil =>
    cases cs with
    | nil => exact ⟨[], .nil, .nil⟩
    | cons c cs => simp at hlen
  | cons a as ih =>
    cases cs with
    | nil => simp at hlen
    | cons c cs =>
      obtain ⟨xs, h1, h2⟩ := ih (by simpa using hlen)
        (fun i a c ha hc => h (i + 1) a c (by simpa using ha) (by simpa using hc))
      obtain ⟨x, h3, h4⟩ := h 0 a c rfl rfl
      exact ⟨x :: xs, .cons h3 h1, .cons h4 h2⟩

theorem mapM_of_forall₂ {A X : Type} {f : A → Outcome X} {as : List A} {xs : List X}
    (h : List.Forall₂ (fun a x => f a = .ret x) as xs) : as.mapM f = .ret xs := by
  induction h with
  | nil => rfl
  | cons h1 _ ih => rw [List.mapM_cons, h1, Outcome.ret_bind, ih]; rfl

/-- The proof system is complete: for circuits whose assigned cells satisfy the constraints with the
given public inputs, the prover gives a proof and the verifier accepts it. -/
def Spec.CompleteProofSystem {Rnd : Type} (P : Prims)
    (prover : Rnd → List Circuit → List (List Fp) → Except ProofError (List UInt8))
    (verifier : List (List Fp) → List UInt8 → Bool) : Prop :=
  ∀ rnd cs xs, List.Forall₂ (fun c x => ∃ k, ActionCircuit.assign P c = some k ∧
      ActionCircuit.Synthesize P true k x) cs xs →
    ∃ proof, prover rnd cs xs = .ok proof ∧ verifier xs proof = true

/-- **C66.** With a complete proof system: a bundle built from requestable spends and from outputs to
addresses with `pk_d ≠ 0`, none of whose `rk` is the identity, can be proven; the proven bundle is
authorised with any keys that contain those of the requested spends; the authorised bundle is valid;
and the batch validator takes it and accepts, whatever the random scalars.  The only exception is a
Merkle path with a Sinsemilla exception. -/
theorem C66_honest_bundle_accepted
    (hP : P.hashToCurve keyDiversificationPersonalization [] ≠ 0) (into : V → I64)
    (hconv : ∀ i v, tryFrom i = some v → into v = i)
    (h : bundle P tryFrom rng anchor ty spends outputs = .ok (some (b, m)))
    (hs : ∀ s ∈ spends, Spec.Requestable P s) (ho : ∀ o ∈ outputs, o.recipient.pkd ≠ 0)
    (hrk : ∀ a ∈ b.actions, a.rk.point ≠ 0) {Rnd : Type}
    (prover : Rnd → List Circuit → List (List Fp) → Except ProofError (List UInt8))
    (verifier : List (List Fp) → List UInt8 → Bool)
    (hps : Spec.CompleteProofSystem P prover verifier)
    (finalize : List (List (List Fp) × List UInt8) → Bool)
    (hfin : ∀ ps, finalize ps = ps.all fun y => verifier y.1 y.2)
    (keys : List SpendAuthorizingKey)
    (hk : ∀ s ∈ spends, ∃ ask ∈ keys, s.fvk.ak.point = ask.s • Constants.spendAuthG)
    (rnd : Rnd) (srng : SignRng) (sighash : Bytes 32) :
    (∃ b1 b' v, b.createProof (prover rnd) = .ok b1 ∧
      b1.applySignatures P srng sighash keys = .ret (.ok b') ∧
      Spec.BundleValid P verifier into b' sighash ∧
      BatchValidator.new.addBundle P into b' sighash = .ret v ∧
      ∀ z, v.validate finalize z = true) ∨
    ∃ c ∈ b.authorization.proof.circuits,
      ∃ x ∈ pathInputs P c.pos.toNat 0 c.path (extractP c.cmOld),
        sinsemillaHashToPoint P Constants.qMerkleCrh (merkleBits x.1 x.2.1 x.2.2) = none ∧
        ∃ L ∈ botCandidates (chunks (merkleBits x.1 x.2.1 x.2.2)),
          L.IsRelation P Constants.qMerkleCrh 0 := by
  refine or_iff_not_imp_right.2 fun hbot => ?_
  obtain ⟨rows, hplan⟩ := C08_each_once h
  have hlen : b.actions.length = b.authorization.proof.circuits.length := by
    rw [← hplan.explains.1.length_eq, hplan.explains.2.1.length_eq]
  obtain ⟨xs, hx1, hx2⟩ := exists_common
    (R := fun (a : Action SigningMetadata) x => (a.toInstance b.flags b.anchor).toHalo2 = .ret x)
    (S := fun c x => ∃ k, ActionCircuit.assign P c = some k ∧ ActionCircuit.Synthesize P true k x)
    hlen (by
      intro i a c ha hc
      rcases C55_complete hP h hs ho i a c ha hc (hrk a (List.mem_of_getElem? ha)) with
        ⟨k, inst, h1, h2, h3⟩ | hx
      · exact ⟨inst, h2, k, h1, h3⟩
      · exact absurd ⟨c, List.mem_of_getElem? hc, hx⟩ hbot)
  have hxs : b.toInstances.mapM Instance.toHalo2 = .ret xs := by
    refine mapM_of_forall₂ ?_
    unfold Bundle.toInstances
    rw [List.forall₂_map_left_iff]
    exact hx1
  obtain ⟨proof, hp1, hp2⟩ := hps rnd _ _ hx2
  obtain ⟨c1, c2, c3, c4⟩ := C21_create_proof (prover rnd) b
  obtain ⟨b1, hb1⟩ : ∃ b1, b.createProof (prover rnd) = .ok b1 := by
    cases hc : b.createProof (prover rnd) with
    | panic =>
      obtain ⟨a, ha, h0⟩ := c1.1 hc
      exact absurd h0 (hrk a ha)
    | more => exact absurd hc c4
    | err e =>
      obtain ⟨xs', e', h1, h2, -⟩ := (c2 e).1 hc
      rw [hxs] at h1; cases h1
      rw [hp1] at h2; cases h2
    | ok b1 => exact ⟨b1, rfl⟩
  obtain ⟨b', hb'⟩ := C20_builder P tryFrom rng anchor ty spends outputs b m h (prover rnd) b1 hb1 srng
    sighash keys hk
  have hist : Relation.ReflTransGen (Spec.PhaseStep P prover sighash) (.built b) (.authorized b') :=
    .tail (.tail .refl (.prove rnd hb1)) (.apply srng keys hb')
  obtain ⟨-, -, k3⟩ := C17_authorized P tryFrom into hconv rng anchor ty spends
    (fun s hs' => (hs s hs').1) outputs b m h prover sighash b' hist
  have hvalid := k3 verifier (by
    intro rnd' xs' proof' h1 h2
    rw [hxs] at h1; cases h1
    obtain ⟨proof'', h3, h4⟩ := hps rnd' _ _ hx2
    rw [h3] at h2; cases h2
    exact h4)
  have hrk' : ¬ ∃ a ∈ b'.actions, a.rk.point = 0 := by
    rintro ⟨a', ha', h0⟩
    obtain ⟨i, hi⟩ := List.mem_iff_getElem?.1 ha'
    obtain ⟨a, ha, he⟩ := action_of_history
      (C21_effects P into prover sighash _ _ hist).symm hi
    refine hrk a (List.mem_of_getElem? ha) ?_
    have := congrArg Spec.ActionEffects.rk he
    simp only [Spec.actionEffects] at this
    rw [this, h0]
  obtain ⟨v, hv⟩ : ∃ v, BatchValidator.new.addBundle P into b' sighash = .ret v := by
    cases hc : BatchValidator.new.addBundle P into b' sighash with
    | panic => exact absurd ((C57_add_panics_iff P into _ b' sighash).1 hc) hrk'
    | ret v => exact ⟨v, rfl⟩
  refine ⟨b1, b', v, hb1, hb', hvalid, hv, fun z => ?_⟩
  refine C57_valid_accepted P into verifier finalize hfin [(b', sighash)] v ?_ ?_ z
  · unfold addAll
    rw [hv]; rfl
  · intro x hx
    rw [List.mem_singleton.1 hx]; exact hvalid

end

/-! ### A case for C63–C66 -/

namespace Examples

theorem rk_of_alpha {V : Type} {tryFrom : I64 → Option V} {rng : BuildDraws} {anchor : Fp}
    {ty : BundleType} {spends : List SpendInfo} {outputs : List OutputInfo}
    {b : UnauthorizedBundle V} {m : BundleMetadata}
    (hb : bundle P0 tryFrom rng anchor ty spends outputs = .ok (some (b, m)))
    (hr : ∀ s ∈ spends, Spec.Requestable P0 s) (halpha : ∀ i, (rng.action i).alpha = 0) :
    ∀ a ∈ b.actions, a.rk.point ≠ 0 := by
  obtain ⟨rows, hp⟩ := C08_each_once hb
  intro a ha
  obtain ⟨k, hk⟩ := List.mem_iff_getElem?.1 ha
  have hf := hp.explains.1
  obtain ⟨hk1, g1⟩ := List.getElem?_eq_some_iff.1 hk
  have hk2 : k < rows.length := by rw [hf.length_eq]; exact hk1
  have hr0 := hf.get hk2 hk1
  simp only [List.get_eq_getElem, g1] at hr0
  have hal : rows[k].alpha = 0 := by
    rw [(hp.randomness k _ (List.getElem?_eq_getElem hk2)).2.1, halpha]
  rw [hr0.rk, hal, Orchard.zero_smul, add_zero]
  obtain ⟨dS, q1, -, q3⟩ := hp.spends
  have hmem : rows[k].spend ∈ spends ++ dS :=
    q1.mem_iff.1 (List.mem_map_of_mem (List.getElem_mem hk2))
  rcases List.mem_append.1 hmem with hm | hm
  · exact (hr _ hm).2.1.1
  · obtain ⟨j, hj⟩ := List.mem_iff_getElem?.1 hm
    obtain ⟨-, -, -, -, -, -, hv, -⟩ := q3 j _ hj
    exact hv.1

/-- Under `P0` and with a proof system that is complete (it accepts everything), the bundle of
`built_P0` (a spend of value 5, a dummy spend, outputs of value 1 and 2) goes all the way: it is proven,
signed and accepted by the batch validator, the key of the recipient finds both outputs with the
default memo, and the note of value 2 it finds is a note that can be decrypted, as C64 asks for. -/
example : ∃ (b : UnauthorizedBundle I64) (b' : AuthorizedBundle I64) (m : BundleMetadata)
    (v : BatchValidator) (k : IncomingViewingKey) (i : ℕ) (note : Note),
    Spec.CompleteProofSystem P0 (fun (_ : Unit) _ _ => .ok [1, 2, 3]) (fun _ _ => true) ∧
    Relation.ReflTransGen (Spec.PhaseStep P0 (fun (_ : Unit) _ _ => .ok [1, 2, 3]) default)
      (.built b) (.authorized b') ∧
    BatchValidator.new.addBundle P0 id b' default = .ret v ∧
    (∀ z, v.validate (fun ps => ps.all fun _ => true) z = true) ∧
    m.outputActionIndex 1 = some i ∧ note.value = ⟨2⟩ ∧
    b'.decryptOutputWithKey P0 i k = .ret (some (note, (output0 2).recipient, defaultMemo)) := by
  obtain ⟨s, anchor, b, m, hv5, hr, hb, hl⟩ := built_P0 (fun _ => 0) (fun _ => 0)
  have hr' : ∀ s' ∈ [s], Spec.Requestable P0 s' := by
    intro s' hs'; rw [List.mem_singleton.1 hs']; exact hr
  have hps : Spec.CompleteProofSystem P0 (fun (_ : Unit) _ _ => .ok [1, 2, 3]) (fun _ _ => true) :=
    fun _ _ _ _ => ⟨_, rfl, rfl⟩
  obtain ⟨ask, hask⟩ := exists_smul_of_ne_zero Constants.spendAuthG_ne_zero s.fvk.ak.point
  obtain ⟨ivk, hivk⟩ := exists_smul_of_ne_zero genG_ne_zero Constants.spendAuthG
  rcases C66_honest_bundle_accepted (P := P0) (by exact genG_ne_zero) id (by
      intro i v h; cases h; rfl) hb hr'
    (by
      intro o ho
      have : o.recipient.pkd = Constants.spendAuthG := by
        simp only [List.mem_cons, List.not_mem_nil, or_false] at ho
        rcases ho with rfl | rfl <;> rfl
      rw [this]; exact Constants.spendAuthG_ne_zero)
    (rk_of_alpha hb hr' (fun _ => rfl)) _ _ hps (fun ps => ps.all fun _ => true) (fun _ => rfl) [⟨ask⟩]
    (by
      intro s' hs'; rw [List.mem_singleton.1 hs']
      exact ⟨_, List.mem_singleton.2 rfl, hask⟩) () ⟨fun _ => default⟩ default with
    ⟨b1, b', v, h1, h2, -, h4, h5⟩ | ⟨c, -, x, -, hn, -⟩
  · have hist : Relation.ReflTransGen
        (Spec.PhaseStep P0 (fun (_ : Unit) _ _ => .ok [1, 2, 3]) default)
        (.built b) (.authorized b') := .tail (.tail .refl (.prove () h1)) (.apply _ _ h2)
    obtain ⟨i, note, g1, -, g3, g4, -⟩ := C63_recipient_finds_output (by exact genG_ne_zero) hb id _
      default b' hist 1 (by simp) ⟨default, ivk⟩ hivk
    exact ⟨b, b', m, v, _, i, note, hps, hist, h4, h5, g1, g3, g4⟩
  · obtain ⟨A, hA, -⟩ := hash_P0 (Q := Constants.qMerkleCrh)
      (msg := merkleBits x.1 x.2.1 x.2.2) (by simp [domainPoints]) (by simp)
    rw [hn] at hA; simp at hA

/-- The same bundle meets the hypotheses of C65 with its recorded witnesses and binding key; the
balance is 2. -/
example : ∃ (b : UnauthorizedBundle I64) (ks : List ActionCircuit.Cells) (bsk : Fq),
    b.actions.length = 2 ∧ List.Forall₂ (Spec.SatisfiedFor P0 b) b.actions ks ∧
    Spec.bindingKey id b = bsk • Constants.valueCommitR ∧ b.valueBalance.val = 2 := by
  obtain ⟨s, anchor, b, m, hv5, hr, hb, hl⟩ := built_P0 (fun _ => 0) (fun _ => 0)
  have hr' : ∀ s' ∈ [s], Spec.Requestable P0 s' := by
    intro s' hs'; rw [List.mem_singleton.1 hs']; exact hr
  have hsig := C17_built_signable P0 some id (by intro i v h; cases h; rfl) _ _ _ _
    (fun s' hs' => (hr' s' hs').1) _ b m hb
  obtain ⟨i, h1, h2, -⟩ := C12_binding_key hb
  obtain ⟨rows, hplan⟩ := C08_each_once hb
  obtain ⟨ks, hk, -⟩ := exists_common (R := Spec.SatisfiedFor P0 b) (S := fun _ _ => True)
    (as := b.actions) (cs := b.authorization.proof.circuits)
    (by rw [← hplan.explains.1.length_eq, hplan.explains.2.1.length_eq]) (by
      intro i a c ha hc
      rcases C55_complete (by exact genG_ne_zero) hb hr'
        (by
          intro o ho
          have : o.recipient.pkd = Constants.spendAuthG := by
            simp only [List.mem_cons, List.not_mem_nil, or_false] at ho
            rcases ho with rfl | rfl <;> rfl
          rw [this]; exact Constants.spendAuthG_ne_zero)
        i a c ha hc (rk_of_alpha hb hr' (fun _ => rfl) a (List.mem_of_getElem? ha)) with
        ⟨k, inst, h1, h2, h3⟩ | ⟨x, hx, hn, -⟩
      · exact ⟨k, ⟨inst, h2, synthesize_mono h3⟩, trivial⟩
      · obtain ⟨A, hA, -⟩ := hash_P0 (Q := Constants.qMerkleCrh)
          (msg := merkleBits x.1 x.2.1 x.2.2) (by simp [domainPoints]) (by simp)
        rw [hn] at hA; simp at hA)
  refine ⟨b, ks, _, hl, hk, hsig.bsk.symm, ?_⟩
  cases h2
  rw [h1]
  have hv : Spec.totalSpends [s] = 5 := by
    simp only [Spec.totalSpends, List.map_cons, List.map_nil, Spec.intValue, hv5]; decide
  have ho : Spec.totalOutputs [Examples.output0 1, Examples.output0 2] = 3 := by decide
  rw [hv, ho]; norm_num

end Examples

end Orchard
