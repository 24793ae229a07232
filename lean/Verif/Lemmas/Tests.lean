import Verif.Spec.Tests
import Verif.Lemmas.TestingBuilder
import Verif.Props.TestingBuilder
import Verif.Props.EndToEnd

/-!
# Lemmas about the crate's randomised tests
-/

namespace Orchard

open RedPallas Testing Tests

theorem abs_sum_le {B : ℤ} : ∀ l : List ℤ, (∀ v ∈ l, |v| ≤ B) → |l.sum| ≤ l.length * B := by
  intro l
  induction l with
  | nil => simp
  | cons v l ih =>
    intro h
    have h1 := ih fun x hx => h x (by simp [hx])
    have h2 := h v (by simp)
    have h3 := abs_add_le v l.sum
    simp only [List.sum_cons, List.length_cons, Nat.cast_add, Nat.cast_one]
    linarith

/-- What the strategy of `bsk_consistent_with_bvk` draws. -/
theorem mem_arbValues {o : Outcome (List (ValueSum × ValueCommitTrapdoor))} (h : o ∈ arbValues) :
    ∃ l, o = .ret l ∧ (∀ a ∈ l, ValueInRange a.1.inner) ∧
      ∀ k ≤ l.length, ValueInRange (((l.map Prod.fst).take k).map ValueSum.inner).sum := by
  obtain ⟨-, -, htr, -, hvs, -, hnv, -⟩ := C99_values
  unfold arbValues at h
  rw [Gen.mem_bind_yields (Gen.yields_range (by decide))] at h
  obtain ⟨n, ⟨h1, h2⟩, h⟩ := h
  have hm : maxDiv n = .ret (maxNoteValue / n) := by unfold maxDiv; rw [if_neg (by omega)]
  rw [hm] at h
  have hr : Spec.Yields (Gen.run (.ret (maxNoteValue / n))) fun m => m = maxNoteValue / n := by
    intro o; simp
  rw [Gen.mem_bind_yields hr] at h
  obtain ⟨_, rfl, h⟩ := h
  have hpos : 0 < maxNoteValue / n := by
    rw [Nat.div_pos_iff]; unfold maxNoteValue; omega
  have hlt : maxNoteValue / n < 2 ^ 64 :=
    lt_of_le_of_lt (Nat.div_le_self _ _) (by unfold maxNoteValue; omega)
  have hb := hnv _ hlt
  rw [if_pos hpos] at hb
  rw [Gen.mem_bind_yields hb] at h
  obtain ⟨bound, hbound, h⟩ := h
  have hy : Spec.Yields (do
      let v ← arbValueSumBounded bound
      let rcv ← arbTrapdoor
      pure (v, rcv) : Gen (ValueSum × ValueCommitTrapdoor))
      fun x => |x.1.inner| ≤ Spec.intValue bound := by
    intro o
    rw [Gen.mem_bind_yields (hvs bound)]
    constructor
    · rintro ⟨v, hv, h⟩
      rw [Gen.mem_bind_yields htr] at h
      obtain ⟨r, -, h⟩ := h
      exact ⟨(v, r), hv, h⟩
    · rintro ⟨x, hx, rfl⟩
      refine ⟨x.1, hx, ?_⟩
      rw [Gen.mem_bind_yields htr]
      exact ⟨x.2, trivial, rfl⟩
  cases o with
  | panic =>
    have := Gen.panic_mem_vec h
    rw [hy] at this
    obtain ⟨_, _, h⟩ := this; simp at h
  | ret l =>
    refine ⟨l, rfl, ?_⟩
    rw [Gen.ret_mem_vec] at h
    obtain ⟨hl, h⟩ := h
    have hin : ∀ a ∈ l, |a.1.inner| ≤ Spec.intValue bound := by
      intro a ha
      have := h a ha
      rw [hy] at this
      obtain ⟨z, hz, he⟩ := this
      cases he; exact hz
    refine ⟨fun a ha => ?_, ?_⟩
    · have h1 := hin a ha
      have h2 : Spec.intValue bound < 2 ^ 64 := by
        unfold Spec.intValue; exact_mod_cast bound.inner.toNat_lt
      rw [abs_le] at h1
      exact ⟨by omega, by omega⟩
    intro k hk
    have hbn : (n : ℤ) * Spec.intValue bound ≤ 2 ^ 64 - 1 := by
      have : n * bound.inner.toNat ≤ maxNoteValue :=
        le_trans (Nat.mul_le_mul_left n hbound.le) (Nat.mul_div_le _ _)
      unfold maxNoteValue at this
      unfold Spec.intValue
      have h' : ((n * bound.inner.toNat : ℕ) : ℤ) ≤ ((2 ^ 64 - 1 : ℕ) : ℤ) := by exact_mod_cast this
      rw [Nat.cast_mul] at h'
      refine le_trans h' (by norm_num)
    have h4 := abs_sum_le (B := Spec.intValue bound)
      (((l.map Prod.fst).take k).map ValueSum.inner) (by
        intro v hv
        rw [List.mem_map] at hv
        obtain ⟨x, hx, rfl⟩ := hv
        have := List.mem_of_mem_take hx
        rw [List.mem_map] at this
        obtain ⟨y, hy', rfl⟩ := this
        exact hin y hy')
    have h0 : 0 ≤ Spec.intValue bound := by unfold Spec.intValue; omega
    have h5 : ((((l.map Prod.fst).take k).map ValueSum.inner).length : ℤ) ≤ n := by
      simp only [List.length_map, List.length_take]; omega
    have h6 := le_trans h4 (le_trans (mul_le_mul_of_nonneg_right h5 h0) hbn)
    rw [abs_le] at h6
    exact ⟨by omega, by omega⟩

theorem arbValues_some : ∃ l, .ret l ∈ arbValues := by
  obtain ⟨-, -, htr, -, hvs, -, hnv, -⟩ := C99_values
  have hb := hnv maxNoteValue (by unfold maxNoteValue; omega)
  rw [if_pos (by unfold maxNoteValue; omega)] at hb
  refine ⟨[(⟨0⟩, ⟨0⟩)], ?_⟩
  unfold arbValues
  rw [Gen.mem_bind_yields (Gen.yields_range (by decide))]
  refine ⟨1, ⟨le_rfl, by decide⟩, ?_⟩
  have hm : maxDiv 1 = .ret maxNoteValue := by unfold maxDiv; rw [if_neg (by omega), Nat.div_one]
  rw [Gen.ret_mem_bind]
  refine ⟨maxNoteValue, by rw [Gen.mem_run, hm], ?_⟩
  rw [Gen.mem_bind_yields hb]
  refine ⟨⟨0⟩, by unfold maxNoteValue; decide, ?_⟩
  rw [Gen.ret_mem_vec]
  refine ⟨rfl, ?_⟩
  intro a ha
  have : a = (⟨0⟩, ⟨0⟩) := by simpa using ha
  rw [this, Gen.mem_bind_yields (hvs _)]
  refine ⟨⟨0⟩, by simp [Spec.intValue], ?_⟩
  rw [Gen.mem_bind_yields htr]
  exact ⟨⟨0⟩, trivial, rfl⟩

theorem smul_sum_commit (l : List (ValueSum × ValueCommitTrapdoor)) :
    (l.map fun a => valueCommitSpec a.1.inner a.2.inner).sum =
      valueCommitSpec ((l.map Prod.fst).map ValueSum.inner).sum
        ((l.map Prod.snd).map ValueCommitTrapdoor.inner).sum := by
  unfold valueCommitSpec
  induction l with
  | nil => simp
  | cons a l ih =>
    simp only [List.map_cons, List.sum_cons, ih, Int.cast_add, add_smul]
    abel

theorem bskConsistent_passes {l : List (ValueSum × ValueCommitTrapdoor)}
    (h1 : ∀ a ∈ l, ValueInRange a.1.inner)
    (h : ∀ k ≤ l.length, ValueInRange (((l.map Prod.fst).take k).map ValueSum.inner).sum) :
    bskConsistentWithBvk l = .ret () := by
  have hs := (C01_sum_exact (l.map Prod.fst)).1 (by simpa using h)
  have htot : ValueInRange ((l.map Prod.fst).map ValueSum.inner).sum := by
    have := h l.length le_rfl
    rwa [List.take_of_length_le (by simp)] at this
  have hm := Outcome.mapM_of_ret (f := fun x : ValueSum × ValueCommitTrapdoor =>
      Option.unwrapO (ValueCommitment.derive x.1 x.2))
    (g := fun a => (⟨valueCommitSpec a.1.inner a.2.inner⟩ : ValueCommitment)) (l := l)
    (fun a ha => by rw [C03_derive _ (h1 a ha)]; rfl)
  unfold bskConsistentWithBvk sumUnwrap
  have hd := C03_derive ⟨((l.map Prod.fst).map ValueSum.inner).sum⟩ htot
    ValueCommitTrapdoor.zero
  rw [hs, hm]
  simp only [Outcome.ret_bind]
  rw [hd]
  simp only [Option.unwrapO, Outcome.ret_bind]
  rw [decide_eq_true, assertO_true]
  unfold SigningKey.vk ValueCommitment.sub
  rw [ValueCommitment.sum_inner, ValueCommitTrapdoor.sum_inner]
  refine congrArg VerificationKey.mk ?_
  have h2 : (l.map (ValueCommitment.inner ∘ fun a : ValueSum × ValueCommitTrapdoor =>
      (⟨valueCommitSpec a.1.inner a.2.inner⟩ : ValueCommitment))).sum = _ := smul_sum_commit l
  rw [← List.map_map] at h2
  rw [h2]
  unfold valueCommitSpec
  simp [ValueCommitTrapdoor.zero, basepoint]

/-! ### Building and authorising -/

section
variable {P : Prims} {draws : BuildDraws} {anchor : Fp} {ss : List SpendInfo}

/-- At most one spend and exactly one output: two actions, and building succeeds. -/
theorem build_one {f : Flags} (hfo : f.outputsEnabled = true) (hfs : f.spendsEnabled = true ∨ ss = [])
    (hl : ss.length ≤ 1) (hr : ∀ s ∈ ss, Spec.Requestable P s) (ha : ∀ s ∈ ss, Spec.AnchorOk P anchor s)
    (hk : Spec.NoZeroKeys P draws) (he : Spec.EnoughDraws P draws) (o : OutputInfo)
    (hv : ∀ s ∈ ss, Spec.intValue s.note.value ≤ 2 ^ 63) (ho : Spec.intValue o.value ≤ 2 ^ 63)
    (hb : Spec.totalSpends ss - Spec.intValue o.value < 2 ^ 63) :
    ∃ u m, bundle P some draws anchor (.transactional f false) ss [o] = .ok (some (u, m)) := by
  have hn : (BundleType.transactional f false).numActions ss.length 1 = some 2 := by
    have h1 : max ss.length 1 = 1 := by omega
    rcases hfs with h | h
    · simp [BundleType.numActions, h, hfo, h1, MIN_ACTIONS]
    · simp [BundleType.numActions, h, hfo, MIN_ACTIONS]
  have hts : 0 ≤ Spec.totalSpends ss ∧ Spec.totalSpends ss ≤ 2 ^ 63 := by
    rcases ss with _ | ⟨s, _ | ⟨_, _⟩⟩
    · simp [Spec.totalSpends]
    · have := hv s (by simp)
      simp only [Spec.totalSpends, List.map_cons, List.map_nil, List.sum_cons, List.sum_nil, add_zero]
      exact ⟨by unfold Spec.intValue; omega, this⟩
    · simp at hl
  have hto : Spec.totalOutputs [o] = Spec.intValue o.value := by simp [Spec.totalOutputs]
  obtain ⟨-, -, -, -, -, c6⟩ := C13_outcome (tryFrom := some) (anchor := anchor)
    (ty := .transactional f false) (outputs := [o]) hr hk he
  obtain ⟨⟨u, m⟩, h⟩ := c6.2 ⟨by
      rintro ⟨h1, h2⟩
      rcases hfs with h | h
      · simp only [BundleType.flags] at h1; rw [h] at h1; cases h1
      · exact h2 h, by
      rintro ⟨s, hs, h⟩
      exact h (ha s hs), by
      rintro ⟨h1, -⟩
      simp only [BundleType.flags] at h1; rw [hfo] at h1
      exact absurd h1 (by simp), by
      rintro ⟨n, h1, h2 | h2⟩
      · rw [List.length_singleton, hn, Option.some.injEq] at h1
        exact h2 (plannedNets_ok (by omega) (by simp only [List.length_singleton]; omega) (by omega)
          (by omega))
      · have h0 : 0 ≤ Spec.intValue o.value := by unfold Spec.intValue; omega
        have := h2 ⟨Spec.totalSpends ss - Spec.intValue o.value, by omega, by omega⟩ (by rw [hto])
        exact absurd this (by simp), by rw [List.length_singleton, hn]; simp⟩
  exact ⟨u, m, h⟩

variable {ty : BundleType} {os : List OutputInfo} {u : UnauthorizedBundle I64} {m : BundleMetadata}
  {Rnd : Type} {prover : Rnd → List Circuit → List (List Fp) → Except ProofError (List UInt8)}
  {verifier : List (List Fp) → List UInt8 → Bool}

theorem rk_ne_zero_dummy (he : Spec.EnoughDraws P draws)
    (h : bundle P some draws anchor ty [] os = .ok (some (u, m)))
    (hz : Spec.NoZeroDummyRk P draws) : ∀ a ∈ u.actions, a.rk.point ≠ 0 := by
  have : ∃ b, b ∈ (draws.spendDummy 0).skDraws := by
    by_contra hc
    have h0 : (draws.spendDummy 0).skDraws = [] := by
      rw [List.eq_nil_iff_forall_not_mem]
      intro b hb; exact hc ⟨b, hb⟩
    refine he.1 0 ?_
    unfold SpendInfo.dummy Note.dummy
    rw [h0]; rfl
  obtain ⟨b, hb⟩ := this
  exact rk_ne_zero (sk := b) h (by simp) fun i => ⟨hz i 0 b hb, hz i⟩

theorem random_some {sks : List (Bytes 32)} (hz : ∀ b ∈ sks, Spec.askScalar P b ≠ 0)
    (hs : ∃ b ∈ sks, Spec.ValidSk P b) :
    ∃ sk rest, SpendingKey.random P sks = .ret (some (sk, rest)) ∧ sk.bytes ∈ sks ∧
      Spec.ValidSk P sk.bytes := by
  induction sks with
  | nil => simp at hs
  | cons b l ih =>
    obtain ⟨r, fvk, e1, -, e2, -⟩ := C30_spending_key_partial P b (hz b (by simp))
    simp only [SpendingKey.random]
    rw [e1, Outcome.ret_bind]
    cases r with
    | none =>
      obtain ⟨c, hc, hv⟩ := hs
      rcases List.mem_cons.1 hc with rfl | hc
      · rw [(C30_valid_keys P c).1.2 hv] at e1; cases e1
      · obtain ⟨sk, rest, i1, i2, i3⟩ := ih (fun b hb => hz b (by simp [hb])) ⟨c, hc, hv⟩
        exact ⟨sk, rest, i1, by simp [i2], i3⟩
    | some sk =>
      have hb := e2 sk rfl
      refine ⟨sk, l, rfl, by simp [hb], ?_⟩
      subst hb
      exact (C30_valid_keys P sk.bytes).1.1 e1

/-- What the tests do with a bundle after building it. -/
theorem authorise_passes (hP : P.hashToCurve keyDiversificationPersonalization [] ≠ 0)
    (hps : Spec.CompleteProofSystem P prover verifier)
    (h : bundle P some draws anchor ty ss os = .ok (some (u, m)))
    (hs : ∀ s ∈ ss, Spec.Requestable P s) (ho : ∀ o ∈ os, o.recipient.pkd ≠ 0)
    (hrk : ∀ a ∈ u.actions, a.rk.point ≠ 0) (keys : List SpendAuthorizingKey)
    (hk : ∀ s ∈ ss, ∃ ask ∈ keys, s.fvk.ak.point = ask.s • Constants.spendAuthG)
    (rng : BundleDraws Rnd) :
    (∃ b', authorise P prover rng u keys = .ok b' ∧ verifyBundle P verifier b' = .ret () ∧
      Relation.ReflTransGen (Spec.PhaseStep P prover (u.commitment P id)) (.built u) (.authorized b')) ∨
    Spec.PathException P u := by
  rcases C66_honest_bundle_accepted hP id (fun i v h => (Option.some.inj h).symm) h hs ho hrk prover
    verifier hps (fun ps => ps.all fun y => verifier y.1 y.2) (fun _ => rfl) keys hk rng.prove rng.sign
    (u.commitment P id) with ⟨b1, b', v, q1, q2, ⟨v1, v2, v3⟩, -⟩ | hx
  · left
    have hist : Relation.ReflTransGen (Spec.PhaseStep P prover (u.commitment P id)) (.built u)
        (.authorized b') := .tail (.tail .refl (.prove rng.prove q1)) (.apply rng.sign keys q2)
    refine ⟨b', ?_, ?_, hist⟩
    · unfold authorise
      simp only [q1, unwrapRun, Run.ok_bind, q2, Run.ofOutcome_ret, unwrapResult]
    · have hc := C21_commitment P id prover _ u b' hist
      unfold verifyBundle
      have hall : (b'.actions.all fun a => a.rk.verify P (b'.commitment P id).toList a.authorization) =
          true := by
        rw [List.all_eq_true, hc]; exact v1
      have hb := bindingValidatingKey_eq id b'
      rw [hc] at hall ⊢
      simp only [v3, Outcome.ret_bind, assertO_true, hb, hall]
      refine (congrArg assertO ?_).trans assertO_true
      exact v2
  · exact Or.inr hx

theorem tryNoteDecryption_congr {A B : Type} {a : Action A} {a' : Action B} (ivk : Fq)
    (h : Spec.actionEffects a' = Spec.actionEffects a) :
    tryNoteDecryption P ivk a' = tryNoteDecryption P ivk a := by
  obtain ⟨e1, e2, -, e4⟩ := encrypted_of_effects h
  have e5 : a'.rho = a.rho := e1
  unfold tryNoteDecryption
  rw [e5, e2, e4]

/-- The first bundle of `bundle_chain`. -/
theorem shieldingPart_passes (hP : P.hashToCurve keyDiversificationPersonalization [] ≠ 0)
    (hps : Spec.CompleteProofSystem P prover verifier) {key : Bytes 32} (hsk : Spec.ValidSk P key)
    {amount : NoteValue} (hamount : amount.inner.toNat ≤ 2 ^ 63) {a : Address}
    (hown : Spec.OwnedInScope P (Spec.fvkOf P key) .external a) (rng : BundleDraws Rnd)
    (hk : Spec.NoZeroKeys P rng.build) (he : Spec.EnoughDraws P rng.build)
    (hrk : Spec.NoZeroDummyRk P rng.build) :
    ∃ u m, bundle P some rng.build (Spec.node P (fun _ => 2) 32 0)
        (.transactional Flags.SPENDS_DISABLED false) [] [OutputInfo.new none a amount none] =
          .ok (some (u, m)) ∧
      ((∃ b', shieldingPart P prover amount (Spec.fvkOf P key) a rng = .ok b' ∧
        verifyBundle P verifier b' = .ret () ∧
        Relation.ReflTransGen (Spec.PhaseStep P prover (u.commitment P id)) (.built u) (.authorized b')) ∨
      Spec.PathException P u) := by
  have hroot : emptyRoot P 32 = .ret (Spec.node P (fun _ => 2) 32 0) :=
    (C47_empty_root P 32).1 (by decide)
  generalize Spec.node P (fun _ => 2) 32 0 = anchor at hroot
  let o := OutputInfo.new none a amount none
  have hov : Spec.intValue o.value = amount.inner.toNat := rfl
  have hadd : (Builder.new (.transactional Flags.SPENDS_DISABLED false) anchor).addOutput none a amount
      none = (.ok (), ⟨[], [o], .transactional Flags.SPENDS_DISABLED false, anchor⟩) := rfl
  obtain ⟨u, m, hbu⟩ := build_one (P := P) (anchor := anchor) (ss := []) (f := Flags.SPENDS_DISABLED) rfl
    (Or.inr rfl) (by simp) (by simp) (by simp) hk he o (by simp) (by rw [hov]; exact_mod_cast hamount)
    (by rw [hov]; simp [Spec.totalSpends]; omega)
  refine ⟨u, m, hbu, ?_⟩
  have hpkd : ∀ o' ∈ [o], o'.recipient.pkd ≠ 0 := by
    intro o' ho
    rw [List.mem_singleton.1 ho]
    exact owned_pkd_ne_zero hP hsk.2 hown
  rcases authorise_passes hP hps hbu (by simp) hpkd (rk_ne_zero_dummy he hbu hrk) [] (by simp) rng with
    ⟨b', q1, q2, q3⟩ | hx
  · refine Or.inl ⟨b', ?_, q2, q3⟩
    obtain ⟨i, r, act, h1, h2, hr, h4⟩ := row_of_output hbu 0 (by simp)
    obtain ⟨k, hk1, -, -⟩ := toIvk_valid (P := P) (fvk := Spec.fvkOf P key) hsk.2 .external
    obtain ⟨cm, hcm, hcmx⟩ := hr.cmx
    have h4 : r.output = o := h4
    obtain ⟨enc, g1, g2⟩ := C42_recipient_decrypts (T := SigningMetadata) P hP k.ivk r.note
      r.output.memo r.output.ovk r.rndOck r.rndOp (by
        rw [hr.recipient, h4]
        exact (ownedInScope_iff (P := P) (fvk := Spec.fvkOf P key) hsk.2 hk1 a).2 hown) hr.esk cm hcm
      act.cvNet
    have := hr.ciphertext
    rw [hcmx, g1, Outcome.ret.injEq] at this
    obtain ⟨g3, -⟩ := g2 act hr.rho.symm hcmx this.symm
    have hdec : u.decryptOutputWithKey P i k = .ret (some (r.note, r.note.recipient, r.output.memo)) := by
      unfold Bundle.decryptOutputWithKey
      rw [h2]; exact g3
    have hval : r.note.value = amount := by rw [hr.value, h4]; rfl
    unfold shieldingPart
    rw [hroot, Run.ofOutcome_ret, Run.ok_bind]
    have hbu' : Builder.build P some rng.build
        ⟨[], [o], .transactional Flags.SPENDS_DISABLED false, anchor⟩ = .ok (some (u, m)) := hbu
    simp only [hadd, unwrapResult, Run.ofOutcome_ret, Run.ok_bind, hbu', unwrapRun, Option.unwrapO, h1, hk1,
      hdec, Option.map_some, hval]
    unfold check
    rw [decide_true, assertO_true, Run.ofOutcome_ret, Run.ok_bind]
    exact q1
  · exact Or.inr hx

theorem findMapO_none {K X : Type} {f : K → Outcome (Option X)} : ∀ {l : List K},
    Bundle.findMapO f l = .ret none → ∀ k ∈ l, f k = .ret none
  | [], _, k, hk => by simp at hk
  | k :: l, h, k', hk => by
    unfold Bundle.findMapO at h
    cases hf : f k with
    | panic => rw [hf] at h; exact absurd h (by simp)
    | ret r =>
      rw [hf] at h
      cases r with
      | some x => exact absurd h (by simp)
      | none =>
        rcases List.mem_cons.1 hk with rfl | hk
        · exact hf
        · exact findMapO_none h k' hk

/-- The note that `bundle_chain` finds in the first bundle. -/
theorem finds_note (hP : P.hashToCurve keyDiversificationPersonalization [] ≠ 0)
    {k : IncomingViewingKey} (h : bundle P some draws anchor ty ss os = .ok (some (u, m)))
    {sighash : Bytes 32} {b' : AuthorizedBundle I64}
    (hist : Relation.ReflTransGen (Spec.PhaseStep P prover sighash) (.built u) (.authorized b'))
    (hj : 0 < os.length) (hk : os[0].recipient.pkd = k.ivk • diversifyHash P os[0].recipient.d) :
    ∃ (x : Note × Address × Bytes 512) (i : ℕ) (act : Action SigningMetadata),
      Bundle.findMapO (fun a => tryNoteDecryption P k.ivk a) b'.actions = .ret (some x) ∧
      u.actions[i]? = some act ∧ tryNoteDecryption P k.ivk act = .ret (some x) := by
  obtain ⟨i, note, -, -, -, h1, -, a0, h0, -⟩ :=
    C63_recipient_finds_output hP h id prover sighash b' hist 0 hj k hk
  obtain ⟨r, h2, h3⟩ := findMapO_spec (f := fun a : Action (Signature .spendAuth) =>
    tryNoteDecryption P k.ivk a) (fun a => (C44_decryption P k.ivk a).1) b'.actions
  cases r with
  | none =>
    exfalso
    unfold Bundle.decryptOutputWithKey at h1
    rw [h0] at h1
    have := findMapO_none h2 a0 (List.mem_of_getElem? h0)
    exact absurd (h1.symm.trans this) (by simp)
  | some x =>
    obtain ⟨j, act', g1, g2, -⟩ := (h3 x).1 rfl
    obtain ⟨act, g3, g4⟩ := action_of_history (C21_effects P id prover sighash _ _ hist).symm g1
    exact ⟨x, j, act, h2, g3, by rw [tryNoteDecryption_congr k.ivk g4]; exact g2⟩

theorem spendingPart_eq {amount : NoteValue} {sk : SpendingKey} {fvk : FullViewingKey} {a : Address}
    {b1 : AuthorizedBundle I64} {rng : BundleDraws Rnd} {k : IncomingViewingKey}
    {x : Note × Address × Bytes 512} {cmx : Fp} {path : MerklePath} {bd bd' : Builder}
    {ask : SpendAuthorizingKey} (h1 : fvk.toIvk P .external = .ret k)
    (h2 : Bundle.findMapO (fun a => tryNoteDecryption P k.ivk a) b1.actions = .ret (some x))
    (h3 : x.1.cmx P = .ret cmx) (h4 : frontierRoot P [cmx] = .ret anchor)
    (h5 : frontierWitness P [cmx] = .ret path) (h6 : path.root P cmx = .ret anchor)
    (h7 : (Builder.new BundleType.DEFAULT anchor).addSpend P fvk x.1 path = .ret (.ok (), bd))
    (h8 : bd.addOutput none a amount none = (.ok (), bd'))
    (h9 : bd'.build P some rng.build = .ok (some (u, m)))
    (h10 : SpendAuthorizingKey.ofSk P sk = .ret ask) :
    spendingPart P prover amount sk fvk a b1 rng = authorise P prover rng u [ask] := by
  unfold spendingPart check
  rw [h1, Run.ofOutcome_ret, Run.ok_bind, h2, Run.ofOutcome_ret, Run.ok_bind, Option.unwrapO,
    Run.ofOutcome_ret, Run.ok_bind]
  simp only
  rw [h3, Run.ofOutcome_ret, Run.ok_bind, h4, Run.ofOutcome_ret, Run.ok_bind, h5, Run.ofOutcome_ret,
    Run.ok_bind, h6, Run.ofOutcome_ret, Run.ok_bind, decide_eq_true rfl, assertO_true,
    Run.ofOutcome_ret, Run.ok_bind, h7, Run.ofOutcome_ret, Run.ok_bind]
  simp only
  rw [unwrapResult, Run.ofOutcome_ret, Run.ok_bind, h8]
  simp only
  rw [unwrapResult, Run.ofOutcome_ret, Run.ok_bind, h9, unwrapRun, Run.ok_bind, Option.unwrapO,
    Run.ofOutcome_ret, Run.ok_bind, h10, Run.ofOutcome_ret, Run.ok_bind]

/-- The second bundle of `bundle_chain`. -/
theorem spendingPart_passes (hP : P.hashToCurve keyDiversificationPersonalization [] ≠ 0)
    (hps : Spec.CompleteProofSystem P prover verifier) {sk : SpendingKey}
    (hsk : Spec.ValidSk P sk.bytes)
    {amount : NoteValue} (hamount : amount.inner.toNat ≤ 2 ^ 63) {a : Address}
    (hown : Spec.OwnedInScope P (Spec.fvkOf P sk.bytes) .external a)
    {k : IncomingViewingKey} (hivk : (Spec.fvkOf P sk.bytes).toIvk P .external = .ret k)
    {b1 : AuthorizedBundle I64} {x : Note × Address × Bytes 512} {act : Action SigningMetadata}
    (hfind : Bundle.findMapO (fun a => tryNoteDecryption P k.ivk a) b1.actions = .ret (some x))
    (hdec : tryNoteDecryption P k.ivk act = .ret (some x))
    (hval : Spec.intValue x.1.value = amount.inner.toNat ∨ Spec.intValue x.1.value = 0)
    (rng : BundleDraws Rnd)
    (hk : Spec.NoZeroKeys P rng.build) (he : Spec.EnoughDraws P rng.build)
    (hrk : Spec.NoZeroRk P rng.build sk.bytes) :
    ∃ path u m, Spec.IsPathIn P [act.cmx] 0 path ∧
      bundle P some rng.build (Spec.treeRoot P [act.cmx]) BundleType.DEFAULT
        [⟨none, Spec.fvkOf P sk.bytes, .external, x.1, path⟩] [OutputInfo.new none a amount none] =
          .ok (some (u, m)) ∧
      ((∃ b2, spendingPart P prover amount sk (Spec.fvkOf P sk.bytes) a b1 rng = .ok b2 ∧
        verifyBundle P verifier b2 = .ret ()) ∨
      Spec.PathException P u) := by
  obtain ⟨n, addr, memo⟩ := x
  simp only at hval ⊢
  obtain ⟨⟨cm, hcm, hcmx, -⟩, hno, -⟩ := C64_received_is_spendable P _ hsk.2 .external k hivk act n addr
    memo hdec
  obtain ⟨path, hw, hpath⟩ := frontierWitness_eq P [act.cmx] (by simp)
  have hpath : Spec.IsPathIn P [act.cmx] 0 path := hpath
  have hroot : path.root P act.cmx = .ret (Spec.treeRoot P [act.cmx]) := pathIn_root hpath
  have hn : n.cmx P = .ret act.cmx := by rw [cmx_eq_ret hcm, hcmx]
  have hfr := frontierRoot_eq P [act.cmx]
  generalize Spec.treeRoot P [act.cmx] = anchor at hroot hfr ⊢
  have hpr : ∃ cm, Spec.commitmentOf P n = some cm ∧
      Spec.PathRoot P path.position.toNat path.authPath (extractP cm) anchor :=
    ⟨cm, hcm, by rw [← hcmx]; exact (pathRoot_iff P path act.cmx anchor).1 hroot⟩
  let o := OutputInfo.new none a amount none
  let s : SpendInfo := ⟨none, Spec.fvkOf P sk.bytes, .external, n, path⟩
  have hov : Spec.intValue o.value = amount.inner.toNat := rfl
  have hreq : Spec.Requestable P s := ⟨rfl, hsk.2, hno, cm, hcm⟩
  obtain ⟨u, m, hbu⟩ := build_one (P := P) (anchor := anchor) (ss := [s]) (f := Flags.ENABLED) rfl
    (Or.inl rfl) (by simp) (by simpa using hreq) 
    (by intro s' hs'; rw [List.mem_singleton.1 hs']; exact Or.inr hpr) hk he o
    (by
      intro s' hs'
      rw [List.mem_singleton.1 hs']
      change Spec.intValue n.value ≤ 2 ^ 63
      rcases hval with h | h <;> rw [h]
      · exact_mod_cast hamount
      · norm_num)
    (by rw [hov]; exact_mod_cast hamount)
    (by
      rw [hov]
      simp only [Spec.totalSpends, List.map_cons, List.map_nil, List.sum_cons, List.sum_nil, add_zero]
      change Spec.intValue n.value - _ < 2 ^ 63
      rcases hval with h | h <;> rw [h] <;> omega)
  refine ⟨path, u, m, hpath, hbu, ?_⟩
  obtain ⟨hofsk, ask, hask, hak⟩ := sk_spec hsk
  have hpkd : ∀ o' ∈ [o], o'.recipient.pkd ≠ 0 := by
    intro o' ho
    rw [List.mem_singleton.1 ho]
    exact owned_pkd_ne_zero hP hsk.2 hown
  rcases authorise_passes hP hps hbu (by simpa using hreq) hpkd
    (rk_ne_zero hbu (by intro s' hs'; rw [List.mem_singleton.1 hs']) hrk) [ask]
    (by intro s' hs'; rw [List.mem_singleton.1 hs']; exact ⟨ask, by simp, hak⟩) rng with
    ⟨b', q1, q2, -⟩ | hx
  · refine Or.inl ⟨b', ?_, q2⟩
    obtain ⟨r, bb, hs1, -, -, -, hs5, -, hs7⟩ := C06_add_spend P
      (Builder.new BundleType.DEFAULT anchor) (Spec.fvkOf P sk.bytes) n path hsk.2 ⟨cm, hcm⟩
    have hr : r = .ok () := hs5.2 ⟨rfl, ⟨.external, hno⟩, Or.inr hpr⟩
    obtain ⟨scope, -, hsc, hbb⟩ := hs7 hr
    rw [hsc hno] at hbb
    rw [hr, hbb] at hs1
    have hs2 : (Builder.new BundleType.DEFAULT anchor).addSpend P (Spec.fvkOf P sk.bytes) n path =
        .ret (.ok (), ⟨[s], [], BundleType.DEFAULT, anchor⟩) := hs1
    have hadd : (⟨[s], [], BundleType.DEFAULT, anchor⟩ : Builder).addOutput none a amount none =
        (.ok (), ⟨[s], [o], BundleType.DEFAULT, anchor⟩) := rfl
    have hbu' : Builder.build P some rng.build ⟨[s], [o], BundleType.DEFAULT, anchor⟩ =
        .ok (some (u, m)) := hbu
    rw [spendingPart_eq hivk hfind hn hfr hw hroot hs2 hadd hbu' hask]
    exact q1
  · exact Or.inr hx

/-- The values of the notes that the first bundle creates. -/
theorem output_values {o : OutputInfo} {rows : List Spec.Row}
    (hp : Spec.Plan P draws ss [o] u rows) {i : ℕ} {r : Spec.Row} {act : Action SigningMetadata}
    (hr : rows[i]? = some r) (ha : u.actions[i]? = some act) :
    Spec.Realises P r act ∧
      (Spec.intValue r.note.value = Spec.intValue o.value ∨ Spec.intValue r.note.value = 0) := by
  obtain ⟨h5, h6⟩ := List.getElem?_eq_some_iff.1 hr
  obtain ⟨h7, h8⟩ := List.getElem?_eq_some_iff.1 ha
  have hre := hp.explains.1.get h5 h7
  simp only [List.get_eq_getElem, h6, h8] at hre
  refine ⟨hre, ?_⟩
  rw [hre.value]
  obtain ⟨dO, hperm, -, hd⟩ := hp.outputs
  have : r.output ∈ [o] ++ dO := hperm.subset (List.mem_map_of_mem (List.mem_of_getElem? hr))
  rcases List.mem_append.1 this with h | h
  · rw [List.mem_singleton.1 h]; exact Or.inl rfl
  · obtain ⟨j, hj⟩ := List.mem_iff_getElem?.1 h
    exact Or.inr (hd j _ hj).1

/-! ### The circuit -/

theorem dummy_some {sks seeds : List (Bytes 32)} (hz : ∀ b ∈ sks, Spec.askScalar P b ≠ 0)
    (hs : ∃ b ∈ sks, Spec.ValidSk P b)
    (hseeds : ∀ (a : Address) (v : NoteValue) (rho : Fp),
      ∃ s ∈ seeds, Spec.GoodSeed P a.d a.pkd v.inner.toNat rho s) (rho : Option Fp) (rp : Point) :
    ∃ (sk : SpendingKey) (n : Note) (cm : Point),
      Note.dummy P sks rho rp seeds = .ret (some (sk, Spec.fvkOf P sk.bytes, n)) ∧
      sk.bytes ∈ sks ∧ Spec.ValidSk P sk.bytes ∧ Spec.intValue n.value = 0 ∧
      n.rho = rho.getD (extractP rp) ∧
      Spec.OwnedInScope P (Spec.fvkOf P sk.bytes) .external n.recipient ∧
      Spec.commitmentOf P n = some cm := by
  obtain ⟨sk, rest, r1, r2, hsk⟩ := random_some hz hs
  obtain ⟨a, a1, a2⟩ := addressAt_owned (P := P) (fvk := Spec.fvkOf P sk.bytes) hsk.2
    (Bytes.ofNat 11 0) .external
  obtain ⟨⟨n, rest'⟩, hn⟩ := Option.ne_none_iff_exists'.1
    (new_ne_none (hseeds a NoteValue.zero (rho.getD (nullifierDummy rp))))
  obtain ⟨pre, s, -, e, ⟨-, cm, hcm⟩, -⟩ := (new_eq_some ..).1 hn
  refine ⟨sk, n, cm, ?_, r2, hsk, by rw [e]; rfl, by rw [e]; rfl, by rw [e]; exact a2,
    by rw [e]; exact hcm⟩
  unfold Note.dummy
  rw [r1, Outcome.ret_bind]
  simp only
  rw [(sk_spec hsk).1, Outcome.ret_bind, a1, Outcome.ret_bind, hn]
  rfl

theorem scope_external {fvk : FullViewingKey} (hv : Spec.ValidFvk P fvk.ak.point fvk.nk fvk.rivk)
    {a : Address} (h : Spec.OwnedInScope P fvk .external a) :
    fvk.scopeForAddress P a = .ret (some .external) := by
  obtain ⟨ext, int, r, h1, -, h2, h3, -⟩ := C34_scope_for_address P fvk hv a
  rw [h2, h3.2 ((ownedInScope_iff hv h1 a).2 h)]

/-- What `generate_circuit_instance` returns. -/
theorem instance_spec {rng : CircuitDraws} (hg : Spec.GoodCircuitDraws P rng) :
    ∃ (sk : SpendingKey) (n : Note) (cm : Point) (r : Spec.Row) (c : Circuit) (x : Instance),
      Note.dummy P rng.skOld none rng.rhoPoint rng.seedsOld =
        .ret (some (sk, Spec.fvkOf P sk.bytes, n)) ∧ Spec.commitmentOf P n = some cm ∧
      c.path = rng.path.authPath ∧ c.pos = rng.path.position ∧ c.cmOld = cm ∧
      generateCircuitInstance P rng = .ok (c, x) ∧
      r.spend.fvk = Spec.fvkOf P sk.bytes ∧ r.spend.scope = .external ∧ r.spend.note = n ∧
      Spec.ValidSk P sk.bytes ∧ Spec.OwnedInScope P (Spec.fvkOf P sk.bytes) .external n.recipient ∧
      (∃ sk' : SpendingKey, Spec.ValidSk P sk'.bytes ∧
        Spec.OwnedInScope P (Spec.fvkOf P sk'.bytes) .external r.note.recipient) ∧
      Spec.IsWitness P r c ∧ x.rk.point ≠ 0 ∧
      x.cvNet.inner = ((Spec.intValue n.value - Spec.intValue r.note.value : ℤ) : Fq) •
        Constants.valueCommitV + r.rcv • Constants.valueCommitR ∧
      x.nfOld = Spec.deriveNullifier P (Spec.fvkOf P sk.bytes).nk n.rho (Spec.psi P n.rseed n.rho) cm ∧
      x.rk.point = (Spec.fvkOf P sk.bytes).ak.point + r.alpha • Constants.spendAuthG ∧
      r.note.rho = x.nfOld ∧ (∃ cm, Spec.commitmentOf P r.note = some cm ∧ x.cmx = extractP cm) ∧
      Spec.intValue n.value = 0 ∧ Spec.intValue r.note.value = 0 := by
  obtain ⟨sk, n, cm, d1, d2, hsk, d4, -, d6, d7⟩ :=
    dummy_some hg.askOld hg.skOld hg.seedsOld none rng.rhoPoint
  have hnf := (C40_formula P n (Spec.fvkOf P sk.bytes)).1 cm d7
  generalize hnfe : Spec.deriveNullifier P (Spec.fvkOf P sk.bytes).nk n.rho (Spec.psi P n.rseed n.rho) cm
    = nf at hnf
  obtain ⟨sk', n', cm', e1, e2, hsk', e4, e5, e6, e7⟩ :=
    dummy_some hg.askNew hg.skNew hg.seedsNew (some nf) rng.rhoPoint
  have hcv := derive_net ⟨⟨some sk, Spec.fvkOf P sk.bytes, .external, n, rng.path⟩,
    OutputInfo.new none n'.recipient n'.value none, ⟨rng.rcv⟩⟩
  simp only [OutputInfo.new] at hcv
  obtain ⟨nodes, -, hroot, -⟩ := C45_placement P rng.path (extractP cm)
  generalize nodes 32 = anchor at hroot
  have hgen : ∃ c x, generateCircuitInstance P rng = .ok (c, x) ∧ c = 
      { path := rng.path.authPath, pos := rng.path.position,
        gdOld := n.recipient.gd P, pkdOld := n.recipient.pkd,
        vOld := n.value, rhoOld := n.rho,
        psiOld := RandomSeed.psi P n.rseed n.rho,
        rcmOld := RandomSeed.rcm P n.rseed n.rho, cmOld := cm,
        alpha := rng.alpha, ak := (Spec.fvkOf P sk.bytes).ak, nk := (Spec.fvkOf P sk.bytes).nk,
        rivk := Spec.scopedRivk P (Spec.fvkOf P sk.bytes) .external,
        gdNew := n'.recipient.gd P, pkdNew := n'.recipient.pkd,
        vNew := n'.value, psiNew := RandomSeed.psi P n'.rseed n'.rho,
        rcmNew := RandomSeed.rcm P n'.rseed n'.rho, rcv := ⟨rng.rcv⟩ } ∧
      x = ⟨anchor, ⟨((Spec.intValue n.value - Spec.intValue n'.value : ℤ) : Fq) •
        Constants.valueCommitV + rng.rcv • Constants.valueCommitR⟩, nf,
        VerificationKey.randomize (Spec.fvkOf P sk.bytes).ak rng.alpha, extractP cm', true, true⟩ := by
    refine ⟨_, _, ?_, rfl, rfl⟩
    unfold generateCircuitInstance
    rw [d1, Run.ofOutcome_ret, Run.ok_bind, Run.ofDraws_some, Run.ok_bind]
    simp only
    rw [scope_external hsk.2 d6, Run.ofOutcome_ret, Run.ok_bind, Option.unwrapO, Run.ofOutcome_ret,
      Run.ok_bind, rivkFor_valid hsk.2, Run.ofOutcome_ret, Run.ok_bind, hnf, Run.ofOutcome_ret,
      Run.ok_bind, e1, Run.ofOutcome_ret, Run.ok_bind, Run.ofDraws_some, Run.ok_bind]
    simp only
    rw [cmx_eq_ret e7, Run.ofOutcome_ret, Run.ok_bind, NoteValue.sub_eq, Option.unwrapO,
      Run.ofOutcome_ret, Run.ok_bind]
    refine (congrArg (fun z => Run.ofOutcome (Option.unwrapO z) >>= _) hcv).trans ?_
    rw [Option.unwrapO, Run.ofOutcome_ret, Run.ok_bind, cmx_eq_ret d7, Run.ofOutcome_ret, Run.ok_bind,
      hroot, Run.ofOutcome_ret, Run.ok_bind, commitment_eq_ret.2 d7, Run.ofOutcome_ret, Run.ok_bind]
    rfl
  obtain ⟨c, x, g1, g2, g3⟩ := hgen
  refine ⟨sk, n, cm, ⟨⟨some sk, Spec.fvkOf P sk.bytes, .external, n, rng.path⟩,
    OutputInfo.new none n'.recipient n'.value none, rng.rcv, rng.alpha, n', default, default⟩, c, x, d1,
    d7, by rw [g2], by rw [g2], by rw [g2], g1, rfl, rfl, rfl, hsk, d6, ⟨sk', hsk', e6⟩, ?_, ?_,
    by rw [g3], by rw [g3, hnfe], by rw [g3]; rfl, by rw [g3]; exact e5, ⟨cm', e7, by rw [g3]⟩, d4, e4⟩
  · rw [g2]
    refine ⟨rfl, rfl, rfl, rfl, rfl, rfl, psi_eq .., rcm_eq .., d7, rfl, rfl, rfl, rfl, rfl, rfl, rfl,
      psi_eq .., rcm_eq .., rfl⟩
  · rw [g3]
    exact hg.rk _ d2

end

end Orchard
