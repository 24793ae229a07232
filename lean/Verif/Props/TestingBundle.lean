import Verif.Lemmas.TestingBundle
import Verif.Examples.Builder

/-!
# Property C100: generated actions and bundles
-/

namespace Orchard

open RedPallas Testing

/-! ### C100: generated bundles -/

/-- **C100** (unauthorised bundles). For every number of actions from 1 to `2^64 - 1`, every bundle
that `arb_unauthorized_bundle` yields has that many actions, whose commitments are to the values and
notes of a balanced choice: the value balance is the exact difference of the spent and the created
values, values that the flags forbid are zero, and no sum can overflow.  It panics only if some bytes
have `ask = 0` or some note has no commitment.  Conversely it can yield a bundle with every choice of
flags, anchor and permitted values.  For zero actions it always panics. -/
theorem C100_unauthorized_bundle (P : Prims) (G : Point) (n : ℕ) (h0 : 0 < n) (h1 : n < 2 ^ 64) :
    (∀ b, .ret b ∈ arbUnauthorizedBundle P G n → ∃ vs, Spec.FakeBundle P n vs b) ∧
    (.panic ∈ arbUnauthorizedBundle P G n → Spec.Exceptional P) ∧
    ∀ flags anchor vs, Spec.FakeValues n flags vs →
      (∀ v ∈ vs, ∃ note, Spec.Generable P G v.2 note) →
      ∃ b, .ret b ∈ arbUnauthorizedBundle P G n ∧ b.flags = flags ∧ b.anchor = anchor ∧
        Spec.FakeBundle P n vs b := by
  have key := fun flags => drawn_actions (P := P) (G := G) (Q := fun _ => True)
    (action := arbUnauthorizedAction P G) h0 h1 flags
    (fun s o a h => ⟨(unauthorized_action P G s o).1 a h, trivial⟩)
    (fun s o => (unauthorized_action P G s o).2.1) (fun s o => (unauthorized_action P G s o).2.2)
  have hb := C99_values.2.1
  have e : ∀ x, x ∈ arbUnauthorizedBundle P G n ↔ ∃ flags, x ∈ (do
      let g ← Gen.run (arbActionN (arbUnauthorizedAction P G) n flags)
      let acts ← Gen.vec g n
      let anchor ← arbBase
      Gen.run (bundleOf acts flags anchor ()) : Gen (Bundle Unit Unit ValueSum)) := by
    intro x
    unfold arbUnauthorizedBundle
    simp only [Gen.mem_bind_yields yields_arbFlags, true_and]
  have yrun : ∀ {α : Type} {x : Outcome α} {a : α}, x = .ret a → Spec.Yields (Gen.run x) fun y => y = a := by
    intro α x a h o; rw [Gen.mem_run, h]; simp
  refine ⟨?_, ?_, ?_⟩
  · intro b hm
    obtain ⟨flags, hm⟩ := (e _).1 hm
    obtain ⟨g, hg, k1, -, -⟩ := key flags
    simp only [Gen.mem_bind_yields (yrun hg), exists_eq_left] at hm
    rw [Gen.ret_mem_bind] at hm
    obtain ⟨acts, h2, hm⟩ := hm
    simp only [Gen.mem_bind_yields hb, true_and, Gen.mem_run] at hm
    obtain ⟨anchor, hm⟩ := hm
    obtain ⟨hl, ⟨vs, hvs⟩, -⟩ := k1 acts h2
    obtain ⟨b', hb', -, -, -, -, hf⟩ := drawn_bundle h0 hl hvs anchor ()
    rw [hb', Outcome.ret.injEq] at hm
    rw [hm]; exact ⟨vs, hf⟩
  · intro hm
    obtain ⟨flags, hm⟩ := (e _).1 hm
    obtain ⟨g, hg, k1, k2, -⟩ := key flags
    simp only [Gen.mem_bind_yields (yrun hg), exists_eq_left] at hm
    rw [Gen.panic_mem_bind] at hm
    rcases hm with hm | ⟨acts, h2, hm⟩
    · exact k2 hm
    · simp only [Gen.mem_bind_yields hb, true_and, Gen.mem_run] at hm
      obtain ⟨anchor, hm⟩ := hm
      obtain ⟨hl, ⟨vs, hvs⟩, -⟩ := k1 acts h2
      obtain ⟨b', hb', -⟩ := drawn_bundle h0 hl hvs anchor ()
      rw [hb'] at hm; simp at hm
  · intro flags anchor vs hv hgen
    obtain ⟨g, hg, -, -, k3⟩ := key flags
    obtain ⟨acts, h2, hl, hvs⟩ := k3 vs hv hgen
    obtain ⟨b, hb', -, hfl, han, -, hf⟩ := drawn_bundle h0 hl hvs anchor ()
    refine ⟨b, (e _).2 ⟨flags, ?_⟩, hfl, han, hf⟩
    simp only [Gen.mem_bind_yields (yrun hg), exists_eq_left]
    rw [Gen.ret_mem_bind]
    refine ⟨acts, h2, ?_⟩
    simp only [Gen.mem_bind_yields hb, true_and, Gen.mem_run]
    exact ⟨anchor, hb'.symm⟩

/-- **C100** (authorised bundles). The same for `arb_bundle`; moreover the proof is 1973 bytes, every
action has a signature that its `rk` verifies for some message, and the binding signature is one that
some key verifies for some message. -/
theorem C100_bundle (P : Prims) (G : Point) (std : Bytes 32 → Bytes 80) (n : ℕ) (h0 : 0 < n)
    (h1 : n < 2 ^ 64) :
    (∀ b, .ret b ∈ arbBundle P G std n → (∃ vs, Spec.FakeBundle P n vs b) ∧
      b.authorization.proof.length = 1973 ∧
      (∀ a ∈ b.actions, ∃ sighash : Bytes 32, a.rk.verify P sighash.toList a.authorization = true) ∧
      ∃ (vk : VerificationKey .binding) (sighash : Bytes 32),
        vk.verify P sighash.toList b.authorization.bindingSignature = true) ∧
    (.panic ∈ arbBundle P G std n → Spec.Exceptional P) ∧
    ∀ flags anchor (proof : Bytes 1973) vs, Spec.FakeValues n flags vs →
      (∀ v ∈ vs, ∃ note, Spec.Generable P G v.2 note) →
      ∃ b, .ret b ∈ arbBundle P G std n ∧ b.flags = flags ∧ b.anchor = anchor ∧
        b.authorization.proof = proof.toList ∧ Spec.FakeBundle P n vs b := by
  have key := fun flags => drawn_actions (P := P) (G := G)
    (Q := fun a => ∃ sighash : Bytes 32, a.rk.verify P sighash.toList a.authorization = true)
    (action := arbAction P G std) h0 h1 flags
    (fun s o a h => (authorized_action P G std s o).1 a h)
    (fun s o => (authorized_action P G std s o).2.1) (fun s o => (authorized_action P G std s o).2.2)
  have hb := C99_values.2.1
  have e : ∀ x, x ∈ arbBundle P G std n ↔ ∃ flags, x ∈ (do
      let g ← Gen.run (arbActionN (arbAction P G std) n flags)
      let acts ← Gen.vec g n
      let anchor ← arbBase
      let sk ← arbSigningKey .binding
      let rngSeed ← Gen.anything (Bytes 32)
      let fakeProof ← Gen.anything (Bytes 1973)
      let fakeSighash ← Gen.anything (Bytes 32)
      Gen.run (bundleOf acts flags anchor
        ⟨fakeProof.toList, sk.sign P (std rngSeed) fakeSighash.toList⟩) :
          Gen (AuthorizedBundle ValueSum)) := by
    intro x
    unfold arbBundle
    simp only [Gen.mem_bind_yields yields_arbFlags, true_and]
  have yrun : ∀ {α : Type} {x : Outcome α} {a : α}, x = .ret a → Spec.Yields (Gen.run x) fun y => y = a := by
    intro α x a h o; rw [Gen.mem_run, h]; simp
  have hk := (C99_keys .binding).2.1
  refine ⟨?_, ?_, ?_⟩
  · intro b hm
    obtain ⟨flags, hm⟩ := (e _).1 hm
    obtain ⟨g, hg, k1, -, -⟩ := key flags
    simp only [Gen.mem_bind_yields (yrun hg), exists_eq_left] at hm
    rw [Gen.ret_mem_bind] at hm
    obtain ⟨acts, h2, hm⟩ := hm
    simp only [Gen.mem_bind_yields hb, Gen.mem_bind_yields hk, Gen.mem_bind_yields Gen.yields_anything,
      true_and, Gen.mem_run] at hm
    obtain ⟨anchor, sk, seed, proof, sighash, hm⟩ := hm
    obtain ⟨hl, ⟨vs, hvs⟩, hq⟩ := k1 acts h2
    obtain ⟨b', hb', hact, -, -, hau, hf⟩ := drawn_bundle h0 hl hvs anchor
      (⟨proof.toList, sk.sign P (std seed) sighash.toList⟩ : Authorized)
    rw [hb', Outcome.ret.injEq] at hm
    subst hm
    refine ⟨⟨vs, hf⟩, ?_, ?_, ⟨sk.vk, sighash, ?_⟩⟩
    · rw [hau]; exact proof.length_toList
    · intro a ha
      rw [hact, List.mem_map] at ha
      obtain ⟨x, hx, rfl⟩ := ha
      exact hq x hx
    · rw [hau]; exact verify_sign P sk _ _
  · intro hm
    obtain ⟨flags, hm⟩ := (e _).1 hm
    obtain ⟨g, hg, k1, k2, -⟩ := key flags
    simp only [Gen.mem_bind_yields (yrun hg), exists_eq_left] at hm
    rw [Gen.panic_mem_bind] at hm
    rcases hm with hm | ⟨acts, h2, hm⟩
    · exact k2 hm
    · simp only [Gen.mem_bind_yields hb, Gen.mem_bind_yields hk,
        Gen.mem_bind_yields Gen.yields_anything, true_and, Gen.mem_run] at hm
      obtain ⟨anchor, sk, seed, proof, sighash, hm⟩ := hm
      obtain ⟨hl, ⟨vs, hvs⟩, -⟩ := k1 acts h2
      obtain ⟨b', hb', -⟩ := drawn_bundle h0 hl hvs anchor
        (⟨proof.toList, sk.sign P (std seed) sighash.toList⟩ : Authorized)
      rw [hb'] at hm; simp at hm
  · intro flags anchor proof vs hv hgen
    obtain ⟨g, hg, -, -, k3⟩ := key flags
    obtain ⟨acts, h2, hl, hvs⟩ := k3 vs hv hgen
    obtain ⟨b, hb', -, hfl, han, hau, hf⟩ := drawn_bundle h0 hl hvs anchor
      (⟨proof.toList, (⟨0⟩ : SigningKey .binding).sign P (std default) (default : Bytes 32).toList⟩ :
        Authorized)
    refine ⟨b, (e _).2 ⟨flags, ?_⟩, hfl, han, by rw [hau], hf⟩
    simp only [Gen.mem_bind_yields (yrun hg), exists_eq_left]
    rw [Gen.ret_mem_bind]
    refine ⟨acts, h2, ?_⟩
    simp only [Gen.mem_bind_yields hb, Gen.mem_bind_yields hk,
        Gen.mem_bind_yields Gen.yields_anything, true_and, Gen.mem_run]
    exact ⟨anchor, ⟨0⟩, default, proof, default, hb'.symm⟩

/-- **C100** (zero actions). Both generators panic on every use if asked for zero actions. -/
theorem C100_zero_actions (P : Prims) (G : Point) (std : Bytes 32 → Bytes 80) :
    Spec.AlwaysPanics (arbUnauthorizedBundle P G 0) ∧ Spec.AlwaysPanics (arbBundle P G std 0) := by
  have hb : ∀ {T A : Type} (flags : Flags) (anchor : Fp) (auth : T),
      Spec.AlwaysPanics (Gen.run (bundleOf (A := A) [] flags anchor auth)) := fun _ _ _ o => by
    rw [Gen.mem_run]; rfl
  constructor
  · refine alwaysPanics_bind yields_arbFlags ⟨⟨true, true⟩, trivial⟩ fun flags => ?_
    refine zero_actions _ flags ?_
    exact alwaysPanics_bind C99_values.2.1 ⟨0, trivial⟩ fun anchor => hb _ _ _
  · refine alwaysPanics_bind yields_arbFlags ⟨⟨true, true⟩, trivial⟩ fun flags => ?_
    refine zero_actions _ flags ?_
    refine alwaysPanics_bind C99_values.2.1 ⟨0, trivial⟩ fun anchor => ?_
    refine alwaysPanics_bind (C99_keys .binding).2.1 ⟨⟨0⟩, trivial⟩ fun sk => ?_
    refine alwaysPanics_bind Gen.yields_anything ⟨default, trivial⟩ fun seed => ?_
    refine alwaysPanics_bind Gen.yields_anything ⟨Bytes.replicate 1973 0, trivial⟩ fun proof => ?_
    exact alwaysPanics_bind Gen.yields_anything ⟨default, trivial⟩ fun sighash => hb _ _ _

/-- **C100** (balance). What follows for each of these bundles: the value balance is in range, it has
the sign that the flags permit, and the value commitments add up to exactly the commitment to the
balance with trapdoor zero. -/
theorem C100_balance {T A : Type} (P : Prims) (n : ℕ) (vs : List (ℕ × ℕ)) (b : Bundle T A ValueSum)
    (h : Spec.FakeBundle P n vs b) :
    ValueInRange b.valueBalance.inner ∧
    (b.flags.spendsEnabled = false → b.valueBalance.inner ≤ 0) ∧
    (b.flags.outputsEnabled = false → 0 ≤ b.valueBalance.inner) ∧
    (b.actions.map fun a => a.cvNet.inner).sum =
      ((b.valueBalance.inner : ℤ) : Fq) • Constants.valueCommitV := by
  obtain ⟨⟨hl, hb, hs, ho⟩, ha, hv⟩ := h
  have hz : ∀ f : ℕ × ℕ → ℕ, (∀ v ∈ vs, f v = 0) → (vs.map fun v => (f v : ℤ)).sum = 0 := by
    intro f hf
    refine List.sum_eq_zero fun x hx => ?_
    obtain ⟨v, h1, rfl⟩ := List.mem_map.1 hx
    rw [hf v h1]; rfl
  have hnn : ∀ f : ℕ × ℕ → ℕ, 0 ≤ (vs.map fun v => (f v : ℤ)).sum := fun f =>
    List.sum_nonneg fun x hx => by
      obtain ⟨v, -, rfl⟩ := List.mem_map.1 hx
      exact Int.natCast_nonneg _
  refine ⟨?_, ?_, ?_, ?_⟩
  · rw [hv, ← sum_sub]
    rcases Nat.eq_zero_or_pos n with rfl | h0
    · rw [List.length_eq_zero_iff.1 hl]; simp [ValueInRange]
    · have hsb := sum_bounds (c := (2 ^ 64 - 1) / n) vs (fun v hv' => by
        obtain ⟨h1, h2⟩ := hb v hv'
        rw [Nat.le_div_iff_mul_le h0, Nat.le_div_iff_mul_le h0]
        constructor <;> nlinarith)
      have h3 : vs.length * ((2 ^ 64 - 1) / n) ≤ 2 ^ 64 - 1 := by rw [hl]; exact Nat.mul_div_le _ _
      have h4 : ((vs.length * ((2 ^ 64 - 1) / n) : ℕ) : ℤ) ≤ 2 ^ 64 - 1 := by
        have := Int.ofNat_le.2 h3
        norm_num at this ⊢
        omega
      unfold ValueInRange
      constructor <;> omega
  · intro hf
    rw [hv, hz Prod.fst (hs hf)]
    have := hnn Prod.snd
    omega
  · intro hf
    rw [hv, hz Prod.snd (ho hf)]
    have := hnn Prod.fst
    omega
  · rw [hv, ← sum_sub]
    generalize b.actions = l at ha
    clear hl hb hs ho hv hz hnn
    induction ha with
    | nil => simp
    | cons h _ ih =>
      simp only [List.map_cons, List.sum_cons, ih, h.cvNet, ← add_smul]
      congr 1
      push_cast
      ring

/-- Under `P0` no bytes and no note are exceptional: `arb_bundle` never panics, and it yields a bundle of
two actions that spends 5 and 7, creates 3 and 0 and has balance 9. -/
example (std : Bytes 32 → Bytes 80) :
    .panic ∉ arbBundle Examples.P0 Constants.spendAuthG std 2 ∧
    ∃ b, .ret b ∈ arbBundle Examples.P0 Constants.spendAuthG std 2 ∧ b.actions.length = 2 ∧
      b.flags = ⟨true, true⟩ ∧ b.valueBalance.inner = 9 := by
  obtain ⟨cm, -, hcm⟩ := Examples.noteCommit_P0
  obtain ⟨-, h2, h3⟩ := C100_bundle Examples.P0 Constants.spendAuthG std 2 (by decide) (by decide)
  constructor
  · intro h
    rcases h2 h with ⟨b, hb⟩ | ⟨note, -, hn⟩
    · rw [Examples.askScalar_P0] at hb; exact one_ne_zero hb
    · have : Spec.commitmentOf Examples.P0 note = some cm := hcm _ _ _ _ _
      rw [this] at hn; simp at hn
  · obtain ⟨a, ha⟩ := Examples.someAddress_P0
    obtain ⟨b, hb, hf, -, -, hfb⟩ := h3 ⟨true, true⟩ 0 (Bytes.replicate 1973 0) [(5, 3), (7, 0)]
      ⟨rfl, by decide, by simp, by simp⟩ (by
        intro v hv
        refine ⟨⟨a, ⟨UInt64.ofNat v.2⟩, extractP ((2 : Fq) • Constants.spendAuthG), default⟩, ?_, ha,
          ⟨2, rfl⟩, cm, hcm _ _ _ _ _⟩
        simp only [List.mem_cons, List.not_mem_nil, or_false] at hv
        rcases hv with rfl | rfl <;> rfl)
    exact ⟨b, hb, by rw [← hfb.actions.length_eq]; rfl, hf, by rw [hfb.balance]; rfl⟩

end Orchard
