import Verif.Lemmas.Tests
import Verif.Props.ProofSize

/-!
# Property C102: the crate's own randomised tests pass on every run

A run is given by its random values.  The theorems say that all runs pass, and list the exceptions;
each is tied to the values of the run.
-/

namespace Orchard

open RedPallas Testing Tests

/-- **C102** (`value.rs`). Every run of `bsk_consistent_with_bvk` passes. -/
theorem C102_bsk : ∀ o, o ∈ bskTest ↔ o = .ret () := by
  intro o
  constructor
  · intro h
    unfold bskTest at h
    rw [Gen.mem_bind] at h
    rcases h with ⟨h, -⟩ | ⟨l, h, ho⟩
    · obtain ⟨l, hl, -⟩ := mem_arbValues h
      exact absurd hl (by simp)
    · obtain ⟨l', hl, h1, h2⟩ := mem_arbValues h
      cases hl
      rw [Gen.mem_run] at ho
      rw [ho, bskConsistent_passes h1 h2]
  · rintro rfl
    unfold bskTest
    rw [Gen.ret_mem_bind]
    obtain ⟨l, h⟩ := arbValues_some
    obtain ⟨l', hl, h1, h2⟩ := mem_arbValues h
    cases hl
    exact ⟨l, h, by rw [Gen.mem_run, bskConsistent_passes h1 h2]⟩

/-- **C102** (`keys.rs`). Every run of `key_agreement` passes, unless the strategy for spending keys
panics on bytes with `ask = 0` (see C30 and C99). -/
theorem C102_key_agreement (P : Prims) :
    (∀ o, o ∈ keyAgreementTest P → o = .ret () ∨ (o = .panic ∧ ∃ b, Spec.askScalar P b = 0)) ∧
    ((∃ b, Spec.ValidSk P b) → .ret () ∈ keyAgreementTest P) := by
  have key : ∀ sk : SpendingKey, Spec.ValidSk P sk.bytes → ∀ esk j, keyAgreement P sk esk j = .ret () := by
    intro sk hsk esk j
    unfold keyAgreement
    obtain ⟨k, hk, -, -⟩ := toIvk_valid (P := P) (fvk := Spec.fvkOf P sk.bytes) hsk.2 .external
    rw [(sk_spec hsk).1, Outcome.ret_bind]
    change IncomingViewingKey.ofFvk P _ = _ at hk
    rw [hk, Outcome.ret_bind]
    simp only
    rw [decide_eq_true, assertO_true]
    change esk • (k.ivk • diversifyHash P _) = k.ivk • (esk • diversifyHash P _)
    rw [← mul_smul, ← mul_smul, mul_comm]
    rfl
  constructor
  · intro o h
    unfold keyAgreementTest arbDiversifierIndex at h
    rw [Gen.mem_bind] at h
    rcases h with ⟨h, ho⟩ | ⟨sk, h, ho⟩
    · exact Or.inr ⟨ho, (C99_spending_key P).2.1 h⟩
    left
    have hsk := ((C99_spending_key P).1 sk).1 h
    rw [Gen.mem_bind_yields (C99_keys .binding).1] at ho
    obtain ⟨esk, -, ho⟩ := ho
    rw [Gen.mem_bind_yields Gen.yields_anything] at ho
    obtain ⟨j, -, ho⟩ := ho
    rw [Gen.mem_run] at ho
    rw [ho]
    exact key sk hsk esk j
  · rintro ⟨b, hb⟩
    unfold keyAgreementTest arbDiversifierIndex
    rw [Gen.ret_mem_bind]
    refine ⟨⟨b⟩, ((C99_spending_key P).1 ⟨b⟩).2 hb, ?_⟩
    rw [Gen.mem_bind_yields (C99_keys .binding).1]
    refine ⟨1, one_ne_zero, ?_⟩
    rw [Gen.mem_bind_yields Gen.yields_anything]
    exact ⟨default, trivial, by rw [Gen.mem_run, key ⟨b⟩ hb]⟩

/-- **C102** (`keys.rs`). Every run of `diversifier_index` passes. -/
theorem C102_diversifier_index (P : Prims) : ∀ o, o ∈ diversifierIndexTest P ↔ o = .ret () := by
  have key : ∀ dk j, diversifierIndex P dk j = .ret () := by
    intro dk j
    unfold diversifierIndex
    simp only
    rw [dkIndex_dkGet]; simp
  intro o
  unfold diversifierIndexTest arbDiversifierKey arbDiversifierIndex
  rw [Gen.mem_bind_yields Gen.yields_anything]
  simp only [Gen.mem_bind_yields Gen.yields_anything, Gen.mem_run, key]
  constructor
  · rintro ⟨-, -, -, -, h⟩; exact h
  · intro h; exact ⟨default, trivial, default, trivial, h⟩

section
variable {P : Prims} {Rnd : Type}
  {prover : Rnd → List Circuit → List (List Fp) → Except ProofError (List UInt8)}
  {verifier : List (List Fp) → List UInt8 → Bool}

/-- **C102** (`builder.rs`). With a complete proof system, enough draws with a valid key, none of which
has `ask = 0`, and no `rk` that is the identity, every run of `shielding_bundle` passes for all amounts
up to `2^63`, unless a Merkle path of a dummy spend has a Sinsemilla exception. -/
theorem C102_shielding_bundle (hP : P.hashToCurve keyDiversificationPersonalization [] ≠ 0)
    (hps : Spec.CompleteProofSystem P prover verifier) (amount : NoteValue)
    (ha : amount.inner.toNat ≤ 2 ^ 63) (skDraws : List (Bytes 32))
    (hz : ∀ b ∈ skDraws, Spec.askScalar P b ≠ 0) (hs : ∃ b ∈ skDraws, Spec.ValidSk P b)
    (rng : BundleDraws Rnd) (hk : Spec.NoZeroKeys P rng.build) (he : Spec.EnoughDraws P rng.build)
    (hrk : Spec.NoZeroDummyRk P rng.build) :
    shieldingBundle P prover amount skDraws rng = .ok () ∨
    ∃ a u m, Spec.SomeAddress P a ∧
      bundle P some rng.build (Spec.node P (fun _ => 2) 32 0) BundleType.DEFAULT []
        [OutputInfo.new none a amount none] = .ok (some (u, m)) ∧ Spec.PathException P u := by
  obtain ⟨sk, rest, r1, -, hsk⟩ := random_some hz hs
  obtain ⟨a, a1, a2⟩ := addressAt_owned (P := P) (fvk := Spec.fvkOf P sk.bytes) hsk.2
    (Bytes.ofNat 11 0) .external
  have hroot := (C47_empty_root P (UInt8.ofNat Constants.MERKLE_DEPTH)).1 (by decide)
  have h32 : (UInt8.ofNat Constants.MERKLE_DEPTH).toNat = 32 := by decide
  rw [h32] at hroot
  generalize Spec.node P (fun _ => 2) 32 0 = anchor at hroot
  let o := OutputInfo.new none a amount none
  have hov : Spec.intValue o.value = amount.inner.toNat := rfl
  have hadd : (Builder.new BundleType.DEFAULT anchor).addOutput none a amount none =
      (.ok (), ⟨[], [o], BundleType.DEFAULT, anchor⟩) := rfl
  obtain ⟨u, m, hbu⟩ := build_one (P := P) (anchor := anchor) (ss := []) (f := Flags.ENABLED) rfl
    (Or.inr rfl) (by simp) (by simp) (by simp) hk he o (by simp) (by rw [hov]; exact_mod_cast ha)
    (by rw [hov]; simp [Spec.totalSpends]; omega)
  obtain ⟨rb, hb1, hb2, -⟩ := C07_value_balance some (⟨[], [o], BundleType.DEFAULT, anchor⟩ : Builder)
  obtain ⟨i, hi, hi2⟩ : ∃ i : I64, i.val = -(amount.inner.toNat : ℤ) ∧ rb = .ok i := by
    refine ⟨⟨-(amount.inner.toNat : ℤ), by omega, by omega⟩, rfl, (hb2 _).2 ⟨?_, _, ?_, rfl⟩⟩
    · intro k
      have hsv : Spec.signedValues (⟨[], [o], BundleType.DEFAULT, anchor⟩ : Builder) =
          [-(amount.inner.toNat : ℤ)] := by simp [Spec.signedValues, hov]
      rw [hsv]
      rcases k with _ | k
      · simp
      · simp only [List.take_succ_cons, List.take_nil, List.sum_cons, List.sum_nil]; omega
    · simp [Spec.totalSpends, Spec.totalOutputs, hov]
  have hurk := rk_ne_zero_dummy he hbu hrk
  have hpkd : ∀ o' ∈ [o], o'.recipient.pkd ≠ 0 := by
    intro o' ho
    rw [List.mem_singleton.1 ho]
    exact owned_pkd_ne_zero hP hsk.2 a2
  rcases C66_honest_bundle_accepted hP id (fun i v h => (Option.some.inj h).symm) hbu (by simp) hpkd hurk
    prover verifier hps (fun ps => ps.all fun y => verifier y.1 y.2) (fun _ => rfl) [] (by simp) rng.prove
    rng.sign (Bytes.replicate 32 0) with ⟨b1, b', v, q1, q2, -, -⟩ | hx
  · left
    have hq2 : (b1.prepare P rng.sign (Bytes.replicate 32 0)).1.finalize = .ret (.ok b') := q2
    have hist : Relation.ReflTransGen (Spec.PhaseStep P prover (Bytes.replicate 32 0)) (.built u)
        (.authorized b') := .tail (.tail .refl (.prove rng.prove q1)) (.apply rng.sign [] q2)
    obtain ⟨j, j1, j2, -⟩ := C10_value_balance hbu
    have hbal : b'.valueBalance.val = -(amount.inner.toNat : ℤ) := by
      have h1 := congrArg Spec.BundleEffects.valueBalance (C21_effects P id prover _ _ _ hist)
      change b'.valueBalance.val = u.valueBalance.val at h1
      rw [h1, ← Option.some.inj j2, j1]
      simp [Spec.totalSpends, Spec.totalOutputs, hov]
    unfold shieldingBundle
    rw [r1, Run.ofOutcome_ret, Run.ok_bind, Run.ofDraws_some, Run.ok_bind]
    simp only
    rw [(sk_spec hsk).1, Run.ofOutcome_ret, Run.ok_bind, a1, Run.ofOutcome_ret, Run.ok_bind, hroot,
      Run.ofOutcome_ret, Run.ok_bind, hadd]
    simp only [unwrapResult, Run.ofOutcome_ret, Run.ok_bind, hb1, hi2]
    unfold check
    rw [decide_eq_true hi, assertO_true, Run.ofOutcome_ret, Run.ok_bind]
    have hbu' : Builder.build P some rng.build ⟨[], [o], BundleType.DEFAULT, anchor⟩ =
        .ok (some (u, m)) := hbu
    rw [hbu']
    simp only [unwrapRun, Run.ok_bind, Option.unwrapO, Run.ofOutcome_ret, q1, hq2]
    rw [decide_eq_true hbal]; rfl
  · exact Or.inr ⟨a, u, m, ⟨_, hsk, a2⟩, hbu, hx⟩

/-- An action of a bundle decrypts to a note whose value is not that of the note it was made for, so
that two notes with one commitment give a discrete logarithm relation between the generators of the
note commitment. -/
def Spec.OpensOtherwise (P : Prims) (draws : BuildDraws) (outputs : List OutputInfo)
    (ivk : Fq) (u : UnauthorizedBundle I64) : Prop :=
  ∃ rows, Spec.Plan P draws [] outputs u rows ∧ ∃ (i : ℕ) (r : Spec.Row) (a : Action SigningMetadata)
    (n : Note) (addr : Address) (memo : Bytes 512), rows[i]? = some r ∧ u.actions[i]? = some a ∧
    tryNoteDecryption P ivk a = .ret (some (n, addr, memo)) ∧ n.value ≠ r.note.value ∧
    ∃ L ∈ collisionCandidates (chunks (Spec.bitsOf P n)) (chunks (Spec.bitsOf P r.note))
        (Spec.rcm P n.rseed n.rho) (Spec.rcm P r.note.rseed r.note.rho),
      L.IsRelation P Constants.qNoteCommit Constants.noteCommitR

/-- **C102** (`tests/builder.rs`). With a complete proof system, a valid spending key, enough draws and
no `rk` that is the identity, every run of `bundle_chain` passes, for all keys and all amounts up to
`2^63`, with three exceptions: a Merkle path in the first bundle or one in the second has a Sinsemilla
exception, or an action of the first bundle decrypts to a note of another value, which gives a discrete
logarithm relation. -/
theorem C102_bundle_chain (hP : P.hashToCurve keyDiversificationPersonalization [] ≠ 0)
    (hps : Spec.CompleteProofSystem P prover verifier) {key : Bytes 32} (hsk : Spec.ValidSk P key)
    (amount : NoteValue) (hamount : amount.inner.toNat ≤ 2 ^ 63) (rng1 rng2 : BundleDraws Rnd)
    (hk1 : Spec.NoZeroKeys P rng1.build) (he1 : Spec.EnoughDraws P rng1.build)
    (hrk1 : Spec.NoZeroDummyRk P rng1.build)
    (hk2 : Spec.NoZeroKeys P rng2.build) (he2 : Spec.EnoughDraws P rng2.build)
    (hrk2 : Spec.NoZeroRk P rng2.build key) :
    bundleChainWith P prover verifier key amount rng1 rng2 = .ok () ∨
    ∃ a k u m, (Spec.fvkOf P key).addressAt P (Bytes.ofNat 11 0) .external = .ret a ∧
      (Spec.fvkOf P key).toIvk P .external = .ret k ∧
      bundle P some rng1.build (Spec.node P (fun _ => 2) 32 0)
        (.transactional Flags.SPENDS_DISABLED false) [] [OutputInfo.new none a amount none] =
          .ok (some (u, m)) ∧
      (Spec.PathException P u ∨
      Spec.OpensOtherwise P rng1.build [OutputInfo.new none a amount none] k.ivk u ∨
      ∃ act ∈ u.actions, ∃ n addr memo path u' m',
        tryNoteDecryption P k.ivk act = .ret (some (n, addr, memo)) ∧
        Spec.IsPathIn P [act.cmx] 0 path ∧
        bundle P some rng2.build (Spec.treeRoot P [act.cmx]) BundleType.DEFAULT
          [⟨none, Spec.fvkOf P key, .external, n, path⟩] [OutputInfo.new none a amount none] =
            .ok (some (u', m')) ∧
        Spec.PathException P u') := by
  obtain ⟨a, a1, a2⟩ := addressAt_owned (P := P) (fvk := Spec.fvkOf P key) hsk.2
    (Bytes.ofNat 11 0) .external
  obtain ⟨k, hivk, -, -⟩ := toIvk_valid (P := P) (fvk := Spec.fvkOf P key) hsk.2 .external
  obtain ⟨u, m, hu, ⟨b1, p1, p2, hist⟩ | hx⟩ :=
    shieldingPart_passes hP hps hsk hamount a2 rng1 hk1 he1 hrk1
  swap
  · exact Or.inr ⟨a, k, u, m, a1, hivk, hu, Or.inl hx⟩
  obtain ⟨⟨n, addr, memo⟩, i, act, f1, f2, f3⟩ := finds_note hP (k := k) hu hist (by simp)
    ((ownedInScope_iff (P := P) (fvk := Spec.fvkOf P key) hsk.2 hivk a).2 a2)
  obtain ⟨rows, hp⟩ := C08_each_once hu
  obtain ⟨h7, h8⟩ := List.getElem?_eq_some_iff.1 f2
  have h9 : i < rows.length := by rw [hp.explains.1.length_eq]; exact h7
  obtain ⟨hre, hval⟩ := output_values hp (List.getElem?_eq_getElem h9) f2
  generalize hrow : rows[i] = r at hre hval
  have hri : rows[i]? = some r := by rw [List.getElem?_eq_getElem h9, hrow]
  by_cases hne : n.value = r.note.value
  · obtain ⟨path, u', m', hpath, hu', ⟨b2, s1, s2⟩ | hx⟩ := spendingPart_passes hP hps (sk := ⟨key⟩) hsk
      hamount a2 hivk f1 f3 (by simp only [hne]; exact hval) rng2 hk2 he2 hrk2
    · left
      unfold bundleChainWith
      rw [((C30_valid_keys P key).1).2 hsk, Run.ofOutcome_ret, Run.ok_bind, Option.unwrapO,
        Run.ofOutcome_ret, Run.ok_bind, (sk_spec (sk := ⟨key⟩) hsk).1, Run.ofOutcome_ret, Run.ok_bind,
        a1, Run.ofOutcome_ret, Run.ok_bind, p1, Run.ok_bind, p2, Run.ofOutcome_ret, Run.ok_bind, s1,
        Run.ok_bind, s2, Run.ofOutcome_ret]
    · exact Or.inr ⟨a, k, u, m, a1, hivk, hu, Or.inr (Or.inr ⟨act, List.mem_of_getElem? f2, n, addr,
        memo, path, u', m', f3, hpath, hu', hx⟩)⟩
  · refine Or.inr ⟨a, k, u, m, a1, hivk, hu, Or.inr (Or.inl ⟨rows, hp, i, r, act, n, addr, memo, hri,
      f2, f3, hne, ?_⟩)⟩
    obtain ⟨⟨cm, hcm, hcmx, -⟩, -⟩ := C64_received_is_spendable P _ hsk.2 .external k hivk act n addr
      memo f3
    obtain ⟨cm', hcm', hcmx'⟩ := hre.cmx
    rcases C39_binding P n r.note act.cmx (by rw [cmx_eq_ret hcm, hcmx])
      (by rw [cmx_eq_ret hcm', hcmx']) with h | h
    · exact absurd h.2.2.1 hne
    · exact h

/-- **C102** (`circuit.rs`). With a complete proof system and random values that end every rejection
loop and give non-zero keys, every run of `round_trip` passes: the generated circuit and public inputs
satisfy the constraints, and the proof is made, accepted, and of the expected size, if proofs consist of what
C105 counts.  The exception is a Sinsemilla exception
on the random Merkle path, which gives a discrete logarithm relation. -/
theorem C102_round_trip (hP : P.hashToCurve keyDiversificationPersonalization [] ≠ 0)
    (hps : Spec.CompleteProofSystem P prover verifier)
    (hlen : ∀ rnd cs is proof, prover rnd cs is = .ok proof → proof.length = Pinned.proofSize cs.length)
    {rng : CircuitDraws} (hg : Spec.GoodCircuitDraws P rng) (rnd : Rnd) :
    roundTrip P prover verifier rng rnd = .ok () ∨
    ∃ sk fvk n cm, Note.dummy P rng.skOld none rng.rhoPoint rng.seedsOld = .ret (some (sk, fvk, n)) ∧
      Spec.commitmentOf P n = some cm ∧
      ∃ x ∈ pathInputs P rng.path.position.toNat 0 rng.path.authPath (extractP cm),
        sinsemillaHashToPoint P Constants.qMerkleCrh (merkleBits x.1 x.2.1 x.2.2) = none ∧
        ∃ L ∈ botCandidates (chunks (merkleBits x.1 x.2.1 x.2.2)),
          L.IsRelation P Constants.qMerkleCrh 0 := by
  obtain ⟨sk, n, cm, r, c, x, h1, h2, h3, h4, h5, h6, s1, s2, s3, hsk, hown, ⟨sk', hsk', hown'⟩, hwit,
    hrk, hcv, hnf, hrk', hrho, hcmx, v1, v2⟩ := instance_spec hg
  rcases row_complete hP (r := r) (c := c) (x := x) (by rw [s1]; exact hsk.2)
    (by rw [s1, s2, s3]; exact hown) (owned_pkd_ne_zero hP hsk'.2 hown') hwit hrk (by rw [s3]; exact hcv)
    (by rw [s3, s1]; exact ⟨cm, h2, hnf⟩) (by rw [s1]; exact hrk') hrho hcmx (by rw [s3]; exact Or.inl v1)
    (Or.inl v2) with ⟨k, inst, k1, k2, k3⟩ | he
  · left
    obtain ⟨proof, p1, p2⟩ := hps rnd [c] [inst] (.cons ⟨k, k1, k3⟩ .nil)
    have hm : mockProverAccepts P c inst = true := by
      classical exact decide_eq_true ⟨k, k1, k3⟩
    have hi : [x].mapM Instance.toHalo2 = .ret [inst] := by
      rw [List.mapM_cons, k2, Outcome.ret_bind, List.mapM_nil]; rfl
    have hl := hlen _ _ _ _ p1
    rw [List.length_singleton] at hl
    unfold roundTrip check proofCreate proofVerify
    rw [h6, Run.ok_bind, decide_eq_true C105_test.1, decide_eq_true C105_test.2, assertO_true,
      Run.ofOutcome_ret, Run.ok_bind, Run.ok_bind]
    simp only
    rw [k2, Run.ofOutcome_ret, Run.ok_bind, hm, assertO_true, Run.ofOutcome_ret, Run.ok_bind, hi,
      Outcome.ret_bind, p1, Outcome.pure_eq, Run.ofOutcome_ret, Run.ok_bind, unwrapResult,
      Run.ofOutcome_ret, Run.ok_bind, Outcome.ret_bind, p2, Outcome.pure_eq, Run.ofOutcome_ret,
      Run.ok_bind, assertO_true, Run.ofOutcome_ret, Run.ok_bind, decide_eq_true hl,
      assertO_true, Run.ofOutcome_ret]
  · rw [h3, h4, h5] at he
    exact Or.inr ⟨sk, _, n, cm, h1, h2, he⟩

end

namespace Examples

/-- Under `P0` no Sinsemilla hash of the tree has an exception. -/
theorem no_exception_P0 {x : ℕ × Fp × Fp} :
    sinsemillaHashToPoint P0 Constants.qMerkleCrh (merkleBits x.1 x.2.1 x.2.2) ≠ none := by
  obtain ⟨A, hA, -⟩ := hash_P0 (Q := Constants.qMerkleCrh)
    (msg := merkleBits x.1 x.2.1 x.2.2) (by simp [domainPoints]) (by simp)
  rw [hA]; simp

theorem no_path_exception_P0 {V : Type} {u : UnauthorizedBundle V} : ¬ Spec.PathException P0 u := by
  rintro ⟨c, -, y, -, hn, -⟩
  exact no_exception_P0 hn

/-- The random values of one bundle. -/
def bundleDraws0 : BundleDraws Unit := ⟨rng0 path0, (), ⟨fun _ => default⟩⟩

theorem rk_P0 (b : Bytes 32) (i : ℕ) :
    Spec.ak P0 b + ((rng0 path0).action i).alpha • Constants.spendAuthG ≠ 0 := by
  have h0 : ((rng0 path0).action i).alpha = 0 := rfl
  rw [h0, Orchard.zero_smul, add_zero]
  exact (validSk_P0 _).2.1

/-- Under `P0` and with a proof system that is complete, `shielding_bundle` passes with its amount. -/
example : shieldingBundle P0 (fun _ _ _ => .ok [1, 2, 3]) ⟨5000⟩ [default] bundleDraws0 = .ok () := by
  obtain ⟨hk, he⟩ := rng_ok (rng := rng0 path0) (fun _ => rfl) (fun _ => rfl) (fun _ => rfl)
    (fun _ => rfl)
  rcases C102_shielding_bundle (P := P0) (prover := fun _ _ _ => .ok [1, 2, 3])
    (verifier := fun _ _ => true) (by exact genG_ne_zero) (fun _ _ _ _ => ⟨_, rfl, rfl⟩) ⟨5000⟩ (by decide)
    [default] (fun b _ => by rw [askScalar_P0]; exact one_ne_zero) ⟨default, by simp, validSk_P0 _⟩
    bundleDraws0 hk he (fun i j b _ => rk_P0 b i) with h | ⟨a, u, m, -, -, hx⟩
  · exact h
  · exact absurd hx no_path_exception_P0

/-- Under `P0` and with a proof system that is complete, `bundle_chain` passes. -/
example : bundleChain P0 (fun _ _ _ => .ok [1, 2, 3]) (fun _ _ => true) bundleDraws0 bundleDraws0 =
    .ok () := by
  obtain ⟨hk, he⟩ := rng_ok (rng := rng0 path0) (fun _ => rfl) (fun _ => rfl) (fun _ => rfl)
    (fun _ => rfl)
  have hP : P0.hashToCurve keyDiversificationPersonalization [] ≠ 0 := genG_ne_zero
  have hsk := validSk_P0 (Bytes.replicate 32 0)
  rcases C102_bundle_chain (P := P0) (prover := fun _ _ _ => .ok [1, 2, 3])
    (verifier := fun _ _ => true) hP (fun _ _ _ _ => ⟨_, rfl, rfl⟩) hsk ⟨5000⟩
    (by decide) bundleDraws0 bundleDraws0 hk he (fun i j b _ => rk_P0 b i) hk he
    (fun i => ⟨rk_P0 _ i, fun j b _ => rk_P0 b i⟩) with h | ⟨a, k, u, m, a1, hivk, hu, hx | hx | hx⟩
  · exact h
  · exact absurd hx no_path_exception_P0
  · -- every output of the first bundle belongs to the key, so it decrypts to the note it was made for
    obtain ⟨rows, hp, i, r, act, n, addr, memo, hr, ha, hd, hne, -⟩ := hx
    obtain ⟨hre, -⟩ := output_values hp hr ha
    have hown : Spec.OwnedInScope P0 (Spec.fvkOf P0 (Bytes.replicate 32 0)) .external
        r.output.recipient := by
      obtain ⟨dO, hperm, -, hdum⟩ := hp.outputs
      rcases List.mem_append.1 (hperm.subset (List.mem_map_of_mem (List.mem_of_getElem? hr))) with h | h
      · rw [List.mem_singleton.1 h]
        obtain ⟨a', e1, e2⟩ := addressAt_owned (P := P0)
          (fvk := Spec.fvkOf P0 (Bytes.replicate 32 0)) hsk.2 (Bytes.ofNat 11 0) .external
        rw [a1, Outcome.ret.injEq] at e1
        rw [← e1] at e2
        exact e2
      · obtain ⟨j, hj⟩ := List.mem_iff_getElem?.1 h
        obtain ⟨-, -, -, sk, fvk, q1, q2, -, q4, -⟩ := hdum j _ hj
        have hq : sk.bytes = Bytes.replicate 32 0 := by
          have : sk.bytes ∈ [(default : Bytes 32)] := q1
          rw [List.mem_singleton.1 this]; rfl
        rw [(sk_spec (validSk_P0 sk.bytes)).1, Outcome.ret.injEq] at q2
        rw [← q2, hq] at q4
        exact q4
    obtain ⟨cm, hcm, hcmx⟩ := hre.cmx
    obtain ⟨enc, g1, g2⟩ := C42_recipient_decrypts (T := SigningMetadata) P0 hP k.ivk r.note
      r.output.memo r.output.ovk r.rndOck r.rndOp (by
        rw [hre.recipient]
        exact (ownedInScope_iff (P := P0) (fvk := Spec.fvkOf P0 (Bytes.replicate 32 0)) hsk.2 hivk
          _).2 hown) hre.esk cm hcm act.cvNet
    have := hre.ciphertext
    rw [hcmx, g1, Outcome.ret.injEq] at this
    obtain ⟨g3, -⟩ := g2 act hre.rho.symm hcmx this.symm
    rw [hd] at g3
    simp only [Outcome.ret.injEq, Option.some.injEq, Prod.mk.injEq] at g3
    exact absurd (by rw [g3.1]) hne
  · obtain ⟨act, -, n, addr, memo, path, u', m', -, -, -, hx⟩ := hx
    exact absurd hx no_path_exception_P0

/-- Random values for the circuit. -/
def circuitDraws0 : CircuitDraws :=
  ⟨[default], Constants.spendAuthG, [default], 0, [default], [default], 3, path0⟩

theorem goodCircuitDraws0 : Spec.GoodCircuitDraws P0 circuitDraws0 :=
  ⟨fun b _ => by rw [askScalar_P0]; exact one_ne_zero, ⟨default, by simp [circuitDraws0], validSk_P0 _⟩,
    fun a v rho => ⟨default, by simp [circuitDraws0], goodSeed_P0 _ _ _ _⟩, fun b _ => by
      have h0 : circuitDraws0.alpha = 0 := rfl
      rw [h0, Orchard.zero_smul, add_zero]
      exact (validSk_P0 _).2.1,
    fun b _ => by rw [askScalar_P0]; exact one_ne_zero, ⟨default, by simp [circuitDraws0], validSk_P0 _⟩,
    fun a v rho => ⟨default, by simp [circuitDraws0], goodSeed_P0 _ _ _ _⟩⟩

/-- A prover that writes proofs of the right size. -/
def sizedProver (_ : Unit) (cs : List Circuit) (_ : List (List Fp)) : Except ProofError (List UInt8) :=
  .ok (List.replicate (Pinned.proofSize cs.length) 1)

theorem sizedProver_length (r : Unit) (cs : List Circuit) (is : List (List Fp)) (proof : List UInt8)
    (h : sizedProver r cs is = .ok proof) : proof.length = Pinned.proofSize cs.length := by
  unfold sizedProver at h
  rw [← Except.ok.inj h, List.length_replicate]

/-- Under `P0` and with a proof system that is complete, `round_trip` passes. -/
example : roundTrip P0 sizedProver (fun _ _ => true) circuitDraws0 () = .ok () := by
  rcases C102_round_trip (P := P0) (prover := sizedProver)
    (verifier := fun _ _ => true) (by exact genG_ne_zero) (fun _ _ _ _ => ⟨_, rfl, rfl⟩)
    sizedProver_length goodCircuitDraws0 () with h | ⟨sk, fvk, n, cm, -, -, x, -, hn, -⟩
  · exact h
  · exact absurd hn no_exception_P0

/-- The strategies of the three tests with strategies have runs that pass: one value for
`bsk_consistent_with_bvk`, and under `P0` a key for `key_agreement`. -/
example : .ret () ∈ bskTest ∧ .ret () ∈ keyAgreementTest P0 ∧ .ret () ∈ diversifierIndexTest P0 :=
  ⟨(C102_bsk _).2 rfl, (C102_key_agreement P0).2 ⟨default, validSk_P0 _⟩,
    (C102_diversifier_index P0 _).2 rfl⟩

end Examples

end Orchard
