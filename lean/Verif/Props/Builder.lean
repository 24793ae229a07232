import Verif.Examples.Builder

/-!
# Properties C05-C15 and C56: building bundles
-/

namespace Orchard

open RedPallas

variable {V : Type}

/-! ### C05: number of actions -/

/-- **C05** (transactional). Rejected exactly when spends (outputs) are requested although disabled;
otherwise `max(spends, outputs, 2)` actions, but none if nothing was requested and none is required. -/
theorem C05_transactional (flags : Flags) (required : Bool) (s o : ℕ) :
    ((BundleType.transactional flags required).numActions s o = none ↔
      (flags.spendsEnabled = false ∧ 0 < s) ∨ (flags.outputsEnabled = false ∧ 0 < o)) ∧
    ∀ n, (BundleType.transactional flags required).numActions s o = some n →
      ((s = 0 ∧ o = 0 ∧ required = false) → n = 0) ∧
      (¬ (s = 0 ∧ o = 0 ∧ required = false) → n = max (max s o) 2) := by
  unfold BundleType.numActions MIN_ACTIONS
  obtain ⟨a, b⟩ := flags
  constructor
  · cases a <;> cases b <;> simp <;> omega
  · intro n h
    simp only at h
    split_ifs at h with h1 h2 h3
    · simp only [Option.some.injEq] at h
      simp only [Bool.or_eq_true, decide_eq_true_eq] at h3
      refine ⟨?_, fun _ => h.symm⟩
      rintro ⟨rfl, rfl, rfl⟩
      simp at h3
    · simp only [Option.some.injEq] at h
      simp only [Bool.or_eq_true, decide_eq_true_eq, not_or, Bool.not_eq_true] at h3
      exact ⟨fun _ => h.symm, fun hn => absurd ⟨by omega, by omega, h3.1⟩ hn⟩

/-- **C05** (coinbase). Rejected exactly when there is a spend; otherwise one action per output. -/
theorem C05_coinbase (s o : ℕ) :
    (BundleType.coinbase.numActions s o = none ↔ 0 < s) ∧
    (s = 0 → BundleType.coinbase.numActions s o = some o) := by
  unfold BundleType.numActions
  constructor
  · simp
  · rintro rfl; simp

/-- **C05** (built bundles). A built bundle has the number of actions `num_actions` gives. -/
theorem C05_built (P : Prims) (tryFrom : I64 → Option V) (rng : BuildDraws) (anchor : Fp)
    (ty : BundleType) (spends : List SpendInfo) (outputs : List OutputInfo)
    (b : UnauthorizedBundle V) (m : BundleMetadata)
    (h : bundle P tryFrom rng anchor ty spends outputs = .ok (some (b, m))) :
    ty.numActions spends.length outputs.length = some b.actions.length := by
  obtain ⟨n, dS, dO, pre, rows, hc, hp, -, -, -, -, he, hs, -⟩ := bundle_some_inv h
  obtain ⟨g1, g2⟩ := numActions_ge hc.num
  rw [hc.num, ← he.1.length_eq, ← hp.length_pre g1 g2]
  have := congrArg List.length hs
  rw [List.length_map, List.length_map] at this
  rw [this]

/-- **C05** (default type). All numbers of spends and outputs are accepted; there is no action only if nothing was
requested. -/
theorem C05_default (s o : ℕ) : BundleType.DEFAULT.flags = ⟨true, true⟩ ∧
    BundleType.DEFAULT.numActions s o = some (if s = 0 ∧ o = 0 then 0 else max (max s o) 2) := by
  refine ⟨rfl, ?_⟩
  unfold BundleType.numActions BundleType.DEFAULT Flags.ENABLED MIN_ACTIONS
  by_cases h : s = 0 ∧ o = 0
  · obtain ⟨rfl, rfl⟩ := h; rfl
  · have : 0 < max s o := by omega
    simp [h, this]

/-- **C05** (disabled type). Only nothing can be requested, and no bundle is ever produced. -/
theorem C05_disabled (P : Prims) (tryFrom : I64 → Option V) (rng : BuildDraws) (anchor : Fp)
    (spends : List SpendInfo) (outputs : List OutputInfo) (s o n : ℕ) :
    BundleType.DISABLED.flags = ⟨false, false⟩ ∧
    (BundleType.DISABLED.numActions s o = some n ↔ s = 0 ∧ o = 0 ∧ n = 0) ∧
    ∀ x, bundle P tryFrom rng anchor BundleType.DISABLED spends outputs ≠ .ok (some x) := by
  have key : ∀ s o n, BundleType.DISABLED.numActions s o = some n ↔ s = 0 ∧ o = 0 ∧ n = 0 := by
    intro s o n
    have := C05_transactional ⟨false, false⟩ false s o
    constructor
    · intro h
      have h0 : ¬ (((⟨false, false⟩ : Flags).spendsEnabled = false ∧ 0 < s) ∨
          ((⟨false, false⟩ : Flags).outputsEnabled = false ∧ 0 < o)) := by
        rw [← this.1]
        intro h1
        exact absurd (h1.symm.trans h) (by simp)
      have hs : s = 0 := by simp at h0; exact h0.1
      have ho : o = 0 := by simp at h0; exact h0.2
      exact ⟨hs, ho, (this.2 n h).1 ⟨hs, ho, rfl⟩⟩
    · rintro ⟨rfl, rfl, rfl⟩; rfl
  refine ⟨rfl, key s o n, ?_⟩
  rintro ⟨b, m⟩ h
  have := (key _ _ _).1 (C05_built P tryFrom rng anchor _ spends outputs b m h)
  exact b.nonempty (List.length_eq_zero_iff.1 this.2.2)

example : BundleType.DEFAULT.numActions 3 1 = some 3 ∧ BundleType.DEFAULT.numActions 0 1 = some 2 ∧
    BundleType.DEFAULT.numActions 0 0 = some 0 ∧ BundleType.DISABLED.numActions 0 1 = none ∧
    (BundleType.transactional ⟨false, false⟩ true).numActions 0 0 = some 2 ∧
    BundleType.coinbase.numActions 0 1 = some 1 := by decide

/-! ### C06: histories of builder calls -/

/-- **C06** (one `add_spend` call). For a valid full viewing key and a note with a commitment the
call returns; which result it gives is decided by the flag, ownership, and the anchor, in this
order; on error the builder is unchanged, and otherwise the spend is appended with a scope in which
the key owns the note. -/
theorem C06_add_spend (P : Prims) (b : Builder) (fvk : FullViewingKey) (note : Note)
    (path : MerklePath) (hv : Spec.ValidFvk P fvk.ak.point fvk.nk fvk.rivk)
    (hc : ∃ cm, Spec.commitmentOf P note = some cm) :
    ∃ r b', b.addSpend P fvk note path = .ret (r, b') ∧
      (r = .error .spendsDisabled ↔ b.bundleType.flags.spendsEnabled = false) ∧
      (r = .error .fvkMismatch ↔ b.bundleType.flags.spendsEnabled = true ∧
        ∀ scope, ¬ Spec.OwnedInScope P fvk scope note.recipient) ∧
      (r = .error .anchorMismatch ↔ b.bundleType.flags.spendsEnabled = true ∧
        (∃ scope, Spec.OwnedInScope P fvk scope note.recipient) ∧
        ¬ (Spec.intValue note.value = 0 ∨ ∃ cm, Spec.commitmentOf P note = some cm ∧
          Spec.PathRoot P path.position.toNat path.authPath (extractP cm) b.anchor)) ∧
      (r = .ok () ↔ b.bundleType.flags.spendsEnabled = true ∧
        (∃ scope, Spec.OwnedInScope P fvk scope note.recipient) ∧
        (Spec.intValue note.value = 0 ∨ ∃ cm, Spec.commitmentOf P note = some cm ∧
          Spec.PathRoot P path.position.toNat path.authPath (extractP cm) b.anchor)) ∧
      (r ≠ .ok () → b' = b) ∧
      (r = .ok () → ∃ scope, Spec.OwnedInScope P fvk scope note.recipient ∧
        (Spec.OwnedInScope P fvk .external note.recipient → scope = .external) ∧
        b' = ⟨b.spends ++ [⟨none, fvk, scope, note, path⟩], b.outputs, b.bundleType, b.anchor⟩) := by
  unfold Builder.addSpend
  cases he : b.bundleType.flags.spendsEnabled with
  | false =>
    refine ⟨.error .spendsDisabled, b, ?_, ?_⟩
    · simp [he]
    · simp
  | true =>
    obtain ⟨ext, int, r, h1, h2, h3, h4, h5, h6⟩ := C34_scope_for_address P fvk hv note.recipient
    rw [ownedInScope_iff hv h1] at h4 h5 h6
    rw [ownedInScope_iff hv h2] at h5 h6
    have hif : ¬ ((!b.bundleType.flags.spendsEnabled) = true) := by simp [he]
    simp only [if_neg hif]
    have hnew : SpendInfo.new P fvk note path = .ret (r.map fun scope =>
        { dummySk := none, fvk := fvk, scope := scope, note := note, merklePath := path }) := by
      unfold SpendInfo.new
      rw [h3, Outcome.ret_bind]
      cases r <;> rfl
    rw [hnew, Outcome.ret_bind]
    cases r with
    | none =>
      simp only [Option.map_none]
      obtain ⟨n1, n2⟩ := h6.1 rfl
      refine ⟨.error .fvkMismatch, b, rfl, ?_⟩
      have hno : ∀ scope, ¬ Spec.OwnedInScope P fvk scope note.recipient := by
        intro scope; cases scope <;> assumption
      refine ⟨by simp, by simp [hno], by simp [hno], by simp [hno], by simp, by simp⟩
    | some scope =>
      simp only [Option.map_some]
      have hown : Spec.OwnedInScope P fvk scope note.recipient := by
        cases scope with
        | external => exact h4.1 rfl
        | internal => exact (h5.1 rfl).1
      have hext : Spec.OwnedInScope P fvk .external note.recipient → scope = .external := by
        intro h
        have := h4.2 h
        simpa using this
      obtain ⟨mt, e1, e2⟩ := hasMatchingAnchor_eq (P := P) (anchor := b.anchor)
        (s := ⟨none, fvk, scope, note, path⟩) hc
      rw [e1, Outcome.ret_bind]
      have e3 : Spec.AnchorOk P b.anchor ⟨none, fvk, scope, note, path⟩ ↔
        (Spec.intValue note.value = 0 ∨ ∃ cm, Spec.commitmentOf P note = some cm ∧
          Spec.PathRoot P path.position.toNat path.authPath (extractP cm) b.anchor) := Iff.rfl
      rw [← e3, ← e2]
      have hex : (∃ scope, Spec.OwnedInScope P fvk scope note.recipient) := ⟨_, hown⟩
      have hall : ¬ ∀ scope, ¬ Spec.OwnedInScope P fvk scope note.recipient := fun h => h _ hown
      cases mt with
      | false =>
        refine ⟨.error .anchorMismatch, b, rfl, by simp, by simp [hall], by simp [hex], by simp,
          by simp, by simp⟩
      | true =>
        refine ⟨.ok (), _, rfl, by simp, by simp [hall], by simp, by simp [hex], by simp,
          fun _ => ⟨scope, hown, hext, rfl⟩⟩

/-- **C06** (one `add_output` call). -/
theorem C06_add_output (b : Builder) (ovk : Option (Bytes 32)) (recipient : Address)
    (value : NoteValue) (memo : Option (Bytes 512)) :
    (b.bundleType.flags.outputsEnabled = false →
      b.addOutput ovk recipient value memo = (.error .disabled, b)) ∧
    (b.bundleType.flags.outputsEnabled = true →
      ∃ o : OutputInfo, o.ovk = ovk ∧ o.recipient = recipient ∧ o.value = value ∧
        o.memo.toList = (memo.map Bytes.toList).getD (0xf6 :: List.replicate 511 0) ∧
        b.addOutput ovk recipient value memo =
          (.ok (), ⟨b.spends, b.outputs ++ [o], b.bundleType, b.anchor⟩)) := by
  unfold Builder.addOutput
  constructor
  · intro h; simp [h]
  · intro h
    refine ⟨OutputInfo.new ovk recipient value memo, rfl, rfl, rfl, ?_, by simp [h]⟩
    cases memo with
    | none => exact defaultMemo_toList
    | some m => rfl

/-- The call is made with a value of the type `FullViewingKey` and a value of type `Note`: both types
only have valid values (C32, C38). -/
def Spec.CallOk (P : Prims) : Builder.Call → Prop
  | .spend fvk note _ => Spec.ValidFvk P fvk.ak.point fvk.nk fvk.rivk ∧
      ∃ cm, Spec.commitmentOf P note = some cm
  | .output _ _ _ _ => True

theorem calls_spec (P : Prims) : ∀ (cs : List Builder.Call) (b : Builder),
    (∀ c ∈ cs, Spec.CallOk P c) →
    ∃ rs ns no, b.calls P cs =
        .ret (rs, ⟨b.spends ++ ns, b.outputs ++ no, b.bundleType, b.anchor⟩) ∧
      rs.length = cs.length ∧
      ns.map (fun s => (s.fvk, s.note, s.merklePath)) = Spec.acceptedSpends cs rs ∧
      no.map (fun o => (o.ovk, o.recipient, o.value, o.memo.toList)) = Spec.acceptedOutputs cs rs ∧
      (∀ s ∈ ns, Spec.Requestable P s ∧ Spec.AnchorOk P b.anchor s ∧
        b.bundleType.flags.spendsEnabled = true) ∧
      (∀ o ∈ no, b.bundleType.flags.outputsEnabled = true) := by
  intro cs
  induction cs with
  | nil => intro b _; exact ⟨[], [], [], by simp [Builder.calls], rfl, rfl, rfl, by simp, by simp⟩
  | cons c cs ih =>
    intro b hc
    have hcs : ∀ c ∈ cs, Spec.CallOk P c := fun c h => hc c (by simp [h])
    cases c with
    | spend fvk note path =>
      obtain ⟨hv, hcm⟩ := hc _ List.mem_cons_self
      obtain ⟨r, b', h1, -, -, -, h5, h6, h7⟩ := C06_add_spend P b fvk note path hv hcm
      by_cases hr : r = .ok ()
      · obtain ⟨scope, ho, -, hb⟩ := h7 hr
        obtain ⟨he, -, ha⟩ := h5.1 hr
        obtain ⟨rs, ns, no, i1, i2, i3, i4, i5, i6⟩ := ih b' hcs
        subst hb
        refine ⟨true :: rs, ⟨none, fvk, scope, note, path⟩ :: ns, no, ?_, by simp [i2], ?_, ?_, ?_, i6⟩
        · simp only [Builder.calls, Builder.call, h1, Outcome.ret_bind, Outcome.pure_eq, i1, hr]
          simp [Except.isOk, Except.toBool]
        · simp [Spec.acceptedSpends, i3]
        · simp [Spec.acceptedOutputs, i4]
        · intro s hs
          rcases List.mem_cons.1 hs with rfl | hs
          · exact ⟨⟨rfl, hv, ho, hcm⟩, ha, he⟩
          · exact i5 s hs
      · have hb := h6 hr
        subst hb
        obtain ⟨rs, ns, no, i1, i2, i3, i4, i5, i6⟩ := ih b' hcs
        refine ⟨false :: rs, ns, no, ?_, by simp [i2], ?_, ?_, i5, i6⟩
        · have hf : r.isOk = false := by
            cases r with
            | ok u => exact absurd rfl hr
            | error e => rfl
          simp only [Builder.calls, Builder.call, h1, Outcome.ret_bind, Outcome.pure_eq, i1, hf]
        · simp [Spec.acceptedSpends, i3]
        · simp [Spec.acceptedOutputs, i4]
    | output ovk recipient value memo =>
      obtain ⟨h1, h2⟩ := C06_add_output b ovk recipient value memo
      cases he : b.bundleType.flags.outputsEnabled with
      | false =>
        obtain ⟨rs, ns, no, i1, i2, i3, i4, i5, i6⟩ := ih b hcs
        refine ⟨false :: rs, ns, no, ?_, by simp [i2], ?_, ?_, i5, fun o ho => by
          rw [← he]; exact i6 o ho⟩
        · simp only [Builder.calls, Builder.call, h1 he, Outcome.ret_bind, Outcome.pure_eq, i1]
          simp [Except.isOk, Except.toBool]
        · simp [Spec.acceptedSpends, i3]
        · simp [Spec.acceptedOutputs, i4]
      | true =>
        obtain ⟨o, o1, o2, o3, o4, h3⟩ := h2 he
        obtain ⟨rs, ns, no, i1, i2, i3, i4, i5, i6⟩ := ih
          ⟨b.spends, b.outputs ++ [o], b.bundleType, b.anchor⟩ hcs
        refine ⟨true :: rs, ns, o :: no, ?_, by simp [i2], ?_, ?_, i5, fun _ _ => rfl⟩
        · simp only [Builder.calls, Builder.call, h3, Outcome.ret_bind, Outcome.pure_eq, i1]
          simp [Except.isOk, Except.toBool]
        · simp [Spec.acceptedSpends, i3]
        · simp only [Spec.acceptedOutputs, List.map_cons, i4, o1, o2, o3, o4, if_true]

/-- **C06.** After any history of calls on a new builder, with arbitrary arguments, no call panics;
the builder holds exactly the spends and outputs of the calls that returned `Ok`, in call order; each
held spend is not a dummy, is owned by the full viewing key it was added with, and has a path to the
anchor unless its value is zero; and spends (outputs) are held only if they are enabled. -/
theorem C06_history (P : Prims) (ty : BundleType) (anchor : Fp) (cs : List Builder.Call)
    (hcs : ∀ c ∈ cs, Spec.CallOk P c) :
    ∃ rs b, (Builder.new ty anchor).calls P cs = .ret (rs, b) ∧ rs.length = cs.length ∧
      b.bundleType = ty ∧ b.anchor = anchor ∧
      b.spends.map (fun s => (s.fvk, s.note, s.merklePath)) = Spec.acceptedSpends cs rs ∧
      b.outputs.map (fun o => (o.ovk, o.recipient, o.value, o.memo.toList)) =
        Spec.acceptedOutputs cs rs ∧
      (∀ s ∈ b.spends, Spec.Requestable P s ∧ Spec.AnchorOk P anchor s ∧
        ty.flags.spendsEnabled = true) ∧
      (∀ o ∈ b.outputs, ty.flags.outputsEnabled = true) := by
  obtain ⟨rs, ns, no, h1, h2, h3, h4, h5, h6⟩ := calls_spec P cs (Builder.new ty anchor) hcs
  exact ⟨rs, _, h1, h2, rfl, rfl, by simpa [Builder.new] using h3, by simpa [Builder.new] using h4,
    by simpa [Builder.new] using h5, by simpa [Builder.new] using h6⟩

/-- A history with accepted spends and a refused output. -/
example : ∃ (s : SpendInfo) (anchor : Fp) (b : Builder),
    (Builder.new (.transactional ⟨true, false⟩ false) anchor).calls Examples.P0
      [.spend s.fvk s.note s.merklePath, .output none s.note.recipient ⟨3⟩ none,
        .spend s.fvk s.note s.merklePath] = .ret ([true, false, true], b) ∧
    b.spends.length = 2 ∧ b.outputs.length = 0 := by
  obtain ⟨s, anchor, h1, h2, cm, hcm, hroot⟩ := Examples.spend_P0 5
  have key : ∀ b : Builder, b.bundleType = .transactional ⟨true, false⟩ false → b.anchor = anchor →
      ∃ sc, b.addSpend Examples.P0 s.fvk s.note s.merklePath = .ret (.ok (),
        ⟨b.spends ++ [⟨none, s.fvk, sc, s.note, s.merklePath⟩], b.outputs, b.bundleType, b.anchor⟩) := by
    intro b hb ha
    obtain ⟨r, b1, e1, -, -, -, e2, -, e3⟩ := C06_add_spend Examples.P0 b
      s.fvk s.note s.merklePath h2.2.1 h2.2.2.2
    have hr := e2.2 ⟨by rw [hb]; rfl, ⟨_, h2.2.2.1⟩, Or.inr ⟨cm, hcm, ha ▸ hroot⟩⟩
    obtain ⟨scope, -, -, hb⟩ := e3 hr
    exact ⟨scope, by rw [e1, hr, hb]⟩
  obtain ⟨sc, e1⟩ := key (Builder.new (.transactional ⟨true, false⟩ false) anchor) rfl rfl
  obtain ⟨sc', e2⟩ := key ⟨[⟨none, s.fvk, sc, s.note, s.merklePath⟩], [],
    .transactional ⟨true, false⟩ false, anchor⟩ rfl rfl
  refine ⟨s, anchor, ?_, ?_, ?_, ?_⟩
  rotate_left
  · simp only [Builder.calls, Builder.call, e1, Outcome.ret_bind, Outcome.pure_eq]
    have : ∀ b : Builder, b.bundleType = .transactional ⟨true, false⟩ false →
        b.addOutput none s.note.recipient ⟨3⟩ none = (.error .disabled, b) := by
      intro b hb
      exact (C06_add_output ..).1 (by rw [hb]; rfl)
    rw [this _ rfl]
    simp only [Builder.new, List.nil_append]
    rw [e2]
    rfl
  · rfl
  · rfl

end Orchard
