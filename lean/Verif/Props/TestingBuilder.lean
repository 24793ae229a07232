import Verif.Lemmas.TestingBuilder

/-!
# Property C101: bundles generated with the builder
-/

namespace Orchard

open RedPallas Testing

/-! ### C101: the inputs -/

/-- **C101** (inputs). `arb_bundle_inputs` draws 1 to 29 notes and 1 to 29 outputs, for addresses of
arbitrary keys and with positive values that cannot overflow in total.  What it makes of them has the
path of each note in the tree of the notes up to this one, and as anchor the root of the tree of all
notes.  All such notes and outputs with all seeds occur.  It panics exactly if a drawn note has no
commitment (or on bytes with `ask = 0`). -/
theorem C101_inputs (P : Prims) (G : Point) (sk : SpendingKey) :
    (∀ x, .ret x ∈ arbBundleInputs P G sk → ∃ seed notes outputs, Spec.DrawnInputs P G notes outputs ∧
      Spec.InputsOf P sk seed notes outputs x) ∧
    (∀ seed notes outputs, Spec.DrawnInputs P G notes outputs →
      (∀ n ∈ notes, ∃ cm, Spec.commitmentOf P n = some cm) →
      ∃ x, .ret x ∈ arbBundleInputs P G sk ∧ Spec.InputsOf P sk seed notes outputs x) ∧
    (∀ notes outputs, Spec.DrawnInputs P G notes outputs →
      (∃ n ∈ notes, Spec.commitmentOf P n = none) → .panic ∈ arbBundleInputs P G sk) ∧
    (.panic ∈ arbBundleInputs P G sk → Spec.Exceptional P) := by
  have hany := Gen.yields_anything (α := Bytes 32)
  have back : ∀ seed notes outputs, Spec.DrawnInputs P G notes outputs →
      (do
        let x ← appendNotes P [] [] notes
        let anchor ← frontierRoot P x.1
        pure ⟨seed, sk, anchor, x.2, outputs⟩ : Outcome ArbitraryBundleInputs) ∈
        arbBundleInputs P G sk := by
    intro seed notes outputs h
    obtain ⟨h1, h2, h3, h4⟩ := h
    have l1 : 1 ≤ notes.length ∧ notes.length < 30 := by
      obtain ⟨a, b, -⟩ := h3; rw [List.length_map] at a b; exact ⟨a, b⟩
    have l2 : 1 ≤ outputs.length ∧ outputs.length < 30 := by
      obtain ⟨a, b, -⟩ := h4; rw [List.length_map] at a b; exact ⟨a, b⟩
    rw [mem_arbBundleInputs]
    refine ⟨notes.length, l1, outputs.length, l2, ?_⟩
    rw [Gen.mem_bind]
    refine Or.inr ⟨notes, (mem_notes l1).2 ⟨rfl, h1, h3⟩, ?_⟩
    rw [Gen.mem_bind]
    refine Or.inr ⟨outputs, (mem_outputs l2).2 ⟨rfl, h2, h4⟩, ?_⟩
    rw [Gen.mem_bind_yields hany]
    exact ⟨seed, trivial, rfl⟩
  have hlen : ∀ {notes outputs}, Spec.DrawnInputs P G notes outputs → notes.length ≤ 2 ^ 32 := by
    intro notes outputs h
    have := h.noteValues.2.1
    rw [List.length_map] at this
    omega
  refine ⟨?_, ?_, ?_, ?_⟩
  · intro x hx
    rw [mem_arbBundleInputs] at hx
    obtain ⟨n, hn, m, hm, hx⟩ := hx
    rw [Gen.ret_mem_bind] at hx
    obtain ⟨notes, h1, hx⟩ := hx
    rw [Gen.ret_mem_bind] at hx
    obtain ⟨outputs, h2, hx⟩ := hx
    rw [Gen.mem_bind_yields hany] at hx
    obtain ⟨seed, -, hx⟩ := hx
    rw [Gen.mem_run] at hx
    obtain ⟨-, a1, a2⟩ := (mem_notes hn).1 h1
    obtain ⟨-, b1, b2⟩ := (mem_outputs hm).1 h2
    have hd : Spec.DrawnInputs P G notes outputs := ⟨a1, b1, a2, b2⟩
    exact ⟨seed, notes, outputs, hd, (makeInputs (hlen hd) _ rfl).1 x hx.symm⟩
  · intro seed notes outputs h hc
    obtain ⟨k1, k2, -⟩ := makeInputs (P := P) (sk := sk) (seed := seed) (outputs := outputs) (hlen h) _ rfl
    obtain ⟨x, hx⟩ := k2 hc
    refine ⟨x, ?_, k1 x hx⟩
    have := back seed notes outputs h
    rw [hx] at this; exact this
  · intro notes outputs h hc
    obtain ⟨k1, -, -⟩ := makeInputs (P := P) (sk := sk) (seed := default) (outputs := outputs) (hlen h) _ rfl
    have hb := back default notes outputs h
    cases ho : (do
        let x ← appendNotes P [] [] notes
        let anchor ← frontierRoot P x.1
        pure ⟨default, sk, anchor, x.2, outputs⟩ : Outcome ArbitraryBundleInputs) with
    | panic => rw [ho] at hb; exact hb
    | ret x =>
      obtain ⟨-, -, -, -, cmxs, hf, -⟩ := k1 x ho
      obtain ⟨n, hn, hnone⟩ := hc
      obtain ⟨cm, hcm⟩ := forall₂_left (p := fun n => ∃ cm, Spec.commitmentOf P n = some cm) hf
        (fun a b h => ⟨h.choose, h.choose_spec.1⟩) n hn
      rw [hnone] at hcm; simp at hcm
  · intro hx
    rw [mem_arbBundleInputs] at hx
    obtain ⟨n, hn, m, hm, hx⟩ := hx
    rw [Gen.panic_mem_bind] at hx
    rcases hx with hx | ⟨notes, h1, hx⟩
    · have := Gen.panic_mem_vec hx
      rw [mem_inputNote hn.1 hn.2] at this
      obtain ⟨v, -, h⟩ := this
      exact Or.inl ((C99_note P G v).2 h)
    rw [Gen.panic_mem_bind] at hx
    rcases hx with hx | ⟨outputs, h2, hx⟩
    · have := Gen.panic_mem_vec hx
      rw [mem_inputOutput hm.1 hm.2] at this
      rcases this with ⟨h, -⟩ | ⟨p, h, -⟩
      · exact Or.inl ((C99_address P).2 h)
      · simp at h
    rw [Gen.mem_bind_yields hany] at hx
    obtain ⟨seed, -, hx⟩ := hx
    rw [Gen.mem_run] at hx
    obtain ⟨-, a1, a2⟩ := (mem_notes hn).1 h1
    obtain ⟨-, b1, b2⟩ := (mem_outputs hm).1 h2
    have hd : Spec.DrawnInputs P G notes outputs := ⟨a1, b1, a2, b2⟩
    obtain ⟨n, hm, hc⟩ := (makeInputs (hlen hd) _ rfl).2.2 hx.symm
    exact Or.inr ⟨n, (a1 n hm).1, hc⟩

/-- **C101** (several notes). With two or more notes the path of the first note leads to the anchor only
if the hash of the tree collides on two given nodes: the tree of the first commitment alone and the
tree of all commitments then have equal nodes with different children, which is an explicit
discrete-logarithm relation. -/
theorem C101_several_notes (P : Prims) (sk : SpendingKey) (seed : Bytes 32) (notes : List Note)
    (outputs : List (Address × NoteValue)) (x : ArbitraryBundleInputs)
    (hx : Spec.InputsOf P sk seed notes outputs x) (h2 : 2 ≤ notes.length)
    (hp : ∀ p ∈ x.notes, ∃ cm, Spec.commitmentOf P p.1 = some cm ∧
      Spec.PathRoot P p.2.position.toNat p.2.authPath (extractP cm) x.anchor) :
    ∃ cmxs : List Fp,
      List.Forall₂ (fun n c => ∃ cm, Spec.commitmentOf P n = some cm ∧ c = extractP cm) notes cmxs ∧
      ∃ l < 32,
        let y := (l, Spec.node P (Spec.padLeaves (cmxs.take 1)) l 0,
          Spec.node P (Spec.padLeaves (cmxs.take 1)) l 1)
        let y' := (l, Spec.node P (Spec.padLeaves cmxs) l 0, Spec.node P (Spec.padLeaves cmxs) l 1)
        y ≠ y' ∧ Spec.merkleCRH P y.1 y.2.1 y.2.2 = Spec.merkleCRH P y'.1 y'.2.1 y'.2.2 ∧
        ∃ L ∈ merkleCandidates y y', L.2.2 = 0 ∧ L.IsRelation P Constants.qMerkleCrh 0 := by
  obtain ⟨-, -, -, hnotes, cmxs, hf, hanchor, hpath⟩ := hx
  refine ⟨cmxs, hf, ?_⟩
  have hroot : Spec.treeRoot P (cmxs.take 1) = Spec.treeRoot P cmxs := by
    cases hm : x.notes with
    | nil => rw [hm] at hnotes; rw [← hnotes] at h2; simp at h2
    | cons p ps =>
      have hp0 := hpath 0 p (by rw [hm]; rfl)
      obtain ⟨cm, hcm, hr⟩ := hp p (by rw [hm]; simp)
      have hr' := (pathRoot_iff P p.2 _ _).2 hr
      have hq := pathIn_root hp0
      have hleaf : Spec.padLeaves (cmxs.take (0 + 1)) 0 = extractP cm := by
        rw [hm] at hnotes
        rw [← hnotes] at hf
        cases hf with
        | cons h _ =>
          obtain ⟨cm', h1, rfl⟩ := h
          rw [hcm, Option.some.injEq] at h1
          subst h1; rfl
      rw [hleaf, hr', hanchor, Outcome.ret.injEq] at hq
      exact hq.symm
  have hdiff : Spec.node P (Spec.padLeaves (cmxs.take 1)) 0 1 ≠ Spec.node P (Spec.padLeaves cmxs) 0 1 := by
    exact second_leaf hf h2
  have key : ∀ h, h ≤ 32 → Spec.node P (Spec.padLeaves (cmxs.take 1)) h 0 =
      Spec.node P (Spec.padLeaves cmxs) h 0 → (h = 0 ∨ ∃ l < h,
        (Spec.node P (Spec.padLeaves (cmxs.take 1)) l 0, Spec.node P (Spec.padLeaves (cmxs.take 1)) l 1) ≠
          (Spec.node P (Spec.padLeaves cmxs) l 0, Spec.node P (Spec.padLeaves cmxs) l 1) ∧
        Spec.node P (Spec.padLeaves (cmxs.take 1)) (l + 1) 0 =
          Spec.node P (Spec.padLeaves cmxs) (l + 1) 0) := by
    intro h
    induction h with
    | zero => intro _ _; exact Or.inl rfl
    | succ h ih =>
      intro hl he
      right
      by_cases hc : (Spec.node P (Spec.padLeaves (cmxs.take 1)) h 0,
          Spec.node P (Spec.padLeaves (cmxs.take 1)) h 1) =
          (Spec.node P (Spec.padLeaves cmxs) h 0, Spec.node P (Spec.padLeaves cmxs) h 1)
      · rcases ih (by omega) (congrArg Prod.fst hc) with rfl | ⟨l, h1, h2⟩
        · exact absurd (congrArg Prod.snd hc) hdiff
        · exact ⟨l, by omega, h2⟩
      · exact ⟨h, by omega, hc, he⟩
  rcases key 32 le_rfl hroot with h | ⟨l, hl, h1, h2⟩
  · simp at h
  · have hne : (l, Spec.node P (Spec.padLeaves (cmxs.take 1)) l 0,
        Spec.node P (Spec.padLeaves (cmxs.take 1)) l 1) ≠
        (l, Spec.node P (Spec.padLeaves cmxs) l 0, Spec.node P (Spec.padLeaves cmxs) l 1) :=
      fun h => h1 (congrArg Prod.snd h)
    exact ⟨l, hl, hne, h2, merkle_relation (by simp only; omega) (by simp only; omega) hne h2⟩

/-! ### C101: building -/

/-- A Merkle path of a witness of the bundle, requested or dummy, has a Sinsemilla exception, which is an
explicit discrete-logarithm relation (as in C66). -/
def Spec.PathException {V : Type} (P : Prims) (b : UnauthorizedBundle V) : Prop :=
  ∃ c ∈ b.authorization.proof.circuits,
    ∃ x ∈ pathInputs P c.pos.toNat 0 c.path (extractP c.cmOld),
      sinsemillaHashToPoint P Constants.qMerkleCrh (merkleBits x.1 x.2.1 x.2.2) = none ∧
      ∃ L ∈ botCandidates (chunks (merkleBits x.1 x.2.1 x.2.2)),
        L.IsRelation P Constants.qMerkleCrh 0

section

variable {V : Type} {P : Prims} {G : Point} {tryFrom : I64 → Option V} {sk : SpendingKey}
  {x : ArbitraryBundleInputs}

/-- **C101** (inputs that cannot be used). If a note or an output is not for the key, or a path does not
lead to the anchor, or the balance is not a value of the caller's type, then building panics. -/
theorem C101_unusable_panics (hx : .ret x ∈ arbBundleInputs P G sk) (hsk : Spec.ValidSk P sk.bytes)
    (prover : List Circuit → List (List Fp) → Except ProofError (List UInt8)) (draws : BuildDraws)
    (srng : SignRng) (hk : Spec.NoZeroKeys P draws) (he : Spec.EnoughDraws P draws)
    (hu : ¬ Spec.Usable P tryFrom x) : intoBundle P tryFrom prover draws srng x = .panic := by
  obtain ⟨seed, notes, outputs, hd, hin⟩ := (C101_inputs P G sk).1 x hx
  obtain ⟨i1, i2, i3, i4, i5⟩ := inputs_facts hd hin
  rcases intoBundle_front (tryFrom := tryFrom) (prover := prover) (draws := draws) (srng := srng)
    (hin.sk_eq ▸ hsk) i1 i2 with ⟨⟨g1, g2⟩, ss, os, k1, k2, k3, e⟩ | ⟨-, e⟩
  · obtain ⟨-, -, -, c4, -, -⟩ := C13_outcome (tryFrom := tryFrom) (anchor := x.anchor)
      (ty := BundleType.DEFAULT) (outputs := os) (fun s hs => (k3 s hs).1) hk he
    obtain ⟨t1, t2⟩ := totals k1 k2
    have hb : bundle P tryFrom draws x.anchor BundleType.DEFAULT ss os = .err (.valueSum .overflow) := by
      refine c4.2 ⟨by simp [BundleType.DEFAULT, BundleType.flags, Flags.ENABLED], ?_,
        by simp [BundleType.DEFAULT, BundleType.flags, Flags.ENABLED], _, defaultActions ?_, Or.inr ?_⟩
      · rintro ⟨s, hs, ha⟩
        have hm : (s.note, s.merklePath) ∈ x.notes := k1 ▸ List.mem_map_of_mem hs
        exact ha (Or.inr (g1 _ hm).2)
      · rw [← List.length_map (as := ss) (fun s => (s.note, s.merklePath)), k1]; exact i3
      · intro i hi
        cases ht : tryFrom i with
        | none => rfl
        | some v =>
          refine absurd ⟨fun p hp => (g1 p hp).1, fun p hp => (g1 p hp).2, g2, i, v, ?_, ht⟩ hu
          rw [hi, t1, t2]
    rw [e, hb]; rfl
  · exact e

/-- **C101** (returned bundles are valid). With a complete proof system every bundle that
`arb_bundle_with_key` returns comes from inputs that can be used and is valid for the message of zeros,
unless a Merkle path of the bundle has a Sinsemilla exception. -/
theorem C101_returned_valid (hP : P.hashToCurve keyDiversificationPersonalization [] ≠ 0)
    (into : V → I64) (hconv : ∀ i v, tryFrom i = some v → into v = i) (hsk : Spec.ValidSk P sk.bytes)
    (prover : Bytes 32 → List Circuit → List (List Fp) → Except ProofError (List UInt8))
    (verifier : List (List Fp) → List UInt8 → Bool)
    (hps : Spec.CompleteProofSystem P prover verifier) (std : Bytes 32 → BuildDraws × SignRng)
    (b : AuthorizedBundle V) (hb : .ret b ∈ arbBundleWithKey P G tryFrom prover std sk) :
    ∃ x, .ret x ∈ arbBundleInputs P G sk ∧ Spec.Usable P tryFrom x ∧
      (Spec.BundleValid P verifier into b (Bytes.replicate 32 0) ∨
        ∃ ss os u m, ss.map (fun s : SpendInfo => (s.note, s.merklePath)) = x.notes ∧
          os.map (fun o : OutputInfo => (o.recipient, o.value)) = x.outputAmounts ∧
          bundle P tryFrom (std x.rngSeed).1 x.anchor BundleType.DEFAULT ss os = .ok (some (u, m)) ∧
          Spec.PathException P u) := by
  unfold arbBundleWithKey at hb
  rw [Gen.ret_mem_bind] at hb
  obtain ⟨x, hx, hb⟩ := hb
  refine ⟨x, hx, ?_⟩
  obtain ⟨seed, notes, outputs, hd, hin⟩ := (C101_inputs P G sk).1 x hx
  obtain ⟨i1, i2, i3, i4, i5⟩ := inputs_facts hd hin
  have hb : intoBundle P tryFrom (prover x.rngSeed) (std x.rngSeed).1 (std x.rngSeed).2 x = .ok b := by
    rcases hb with ⟨a, h1, h2⟩ | ⟨-, h2⟩
    · cases h2; exact h1
    · cases h2
  have hsk' : Spec.ValidSk P x.sk.bytes := hin.sk_eq ▸ hsk
  obtain ⟨-, ask, a1, a2⟩ := sk_spec (P := P) hsk'
  rcases intoBundle_front (tryFrom := tryFrom) (prover := prover x.rngSeed) (draws := (std x.rngSeed).1)
    (srng := (std x.rngSeed).2) hsk' i1 i2 with ⟨⟨g1, g2⟩, ss, os, k1, k2, k3, e⟩ | ⟨-, e⟩
  · rw [e] at hb
    cases hbu : bundle P tryFrom (std x.rngSeed).1 x.anchor BundleType.DEFAULT ss os with
    | err _ => rw [hbu] at hb; cases hb
    | panic => rw [hbu] at hb; cases hb
    | more => rw [hbu] at hb; cases hb
    | ok built =>
      rw [hbu] at hb
      obtain ⟨⟨u, m⟩, b1, rfl, h1, h2⟩ := (finishInto_ok a1).1 hb
      obtain ⟨t1, t2⟩ := totals k1 k2
      obtain ⟨i, j1, j2, -⟩ := C10_value_balance hbu
      refine ⟨⟨fun p hp => (g1 p hp).1, fun p hp => (g1 p hp).2, g2, i, _, by rw [j1, t1, t2], j2⟩, ?_⟩
      have hrk : ∀ a ∈ u.actions, a.rk.point ≠ 0 := by
        intro a ha h0
        rw [(C21_create_proof (prover x.rngSeed) u).1.2 ⟨a, ha, h0⟩] at h1
        cases h1
      rcases C66_honest_bundle_accepted hP into hconv hbu (fun s hs => (k3 s hs).1) (by
          intro o ho
          have hm : (o.recipient, o.value) ∈ x.outputAmounts := k2 ▸ List.mem_map_of_mem ho
          obtain ⟨scope, hs⟩ := g2 _ hm
          exact owned_pkd_ne_zero hP hsk'.2 hs) hrk prover verifier hps
        (fun ps => ps.all fun y => verifier y.1 y.2) (fun _ => rfl) [ask] (by
          intro s hs
          refine ⟨ask, by simp, ?_⟩
          rw [(k3 s hs).2]; exact a2) x.rngSeed (std x.rngSeed).2 (Bytes.replicate 32 0) with
        ⟨b1', b', v, q1, q2, q3, -⟩ | hx
      · left
        rw [h1] at q1; cases q1
        rw [h2] at q2; cases q2
        exact q3
      · exact Or.inr ⟨ss, os, u, m, k1, k2, hbu, hx⟩
  · rw [e] at hb; cases hb

/-- **C101** (usable inputs). On inputs that can be used, with a complete proof system, enough draws, no
drawn key with `ask = 0` and no `rk` that is the identity, `into_bundle` returns a bundle (and does not
panic), unless a Merkle path of the bundle has a Sinsemilla exception.  By `C101_returned_valid` the
bundle is valid. -/
theorem C101_usable (hP : P.hashToCurve keyDiversificationPersonalization [] ≠ 0)
    (into : V → I64) (hconv : ∀ i v, tryFrom i = some v → into v = i) (hsk : Spec.ValidSk P sk.bytes)
    (prover : Bytes 32 → List Circuit → List (List Fp) → Except ProofError (List UInt8))
    (verifier : List (List Fp) → List UInt8 → Bool)
    (hps : Spec.CompleteProofSystem P prover verifier) (std : Bytes 32 → BuildDraws × SignRng)
    (hx : .ret x ∈ arbBundleInputs P G sk) (hu : Spec.Usable P tryFrom x)
    (hk : Spec.NoZeroKeys P (std x.rngSeed).1) (he : Spec.EnoughDraws P (std x.rngSeed).1)
    (hz : Spec.NoZeroRk P (std x.rngSeed).1 sk.bytes) :
    (∃ b, intoBundle P tryFrom (prover x.rngSeed) (std x.rngSeed).1 (std x.rngSeed).2 x = .ok b ∧
      .ret b ∈ arbBundleWithKey P G tryFrom prover std sk ∧
      Spec.BundleValid P verifier into b (Bytes.replicate 32 0)) ∨
    ∃ ss os u m, ss.map (fun s : SpendInfo => (s.note, s.merklePath)) = x.notes ∧
      os.map (fun o : OutputInfo => (o.recipient, o.value)) = x.outputAmounts ∧
      bundle P tryFrom (std x.rngSeed).1 x.anchor BundleType.DEFAULT ss os = .ok (some (u, m)) ∧
      Spec.PathException P u := by
  obtain ⟨seed, notes, outputs, hd, hin⟩ := (C101_inputs P G sk).1 x hx
  obtain ⟨i1, i2, i3, i4, i5⟩ := inputs_facts hd hin
  have hsk' : Spec.ValidSk P x.sk.bytes := hin.sk_eq ▸ hsk
  obtain ⟨-, ask, a1, a2⟩ := sk_spec (P := P) hsk'
  rcases intoBundle_front (tryFrom := tryFrom) (prover := prover x.rngSeed) (draws := (std x.rngSeed).1)
    (srng := (std x.rngSeed).2) hsk' i1 i2 with ⟨⟨g1, g2⟩, ss, os, k1, k2, k3, e⟩ | ⟨h, -⟩
  · obtain ⟨t1, t2⟩ := totals k1 k2
    have hl : 1 ≤ ss.length := by
      rw [← List.length_map (as := ss) (fun s => (s.note, s.merklePath)), k1]; exact i3
    obtain ⟨-, -, -, -, -, c6⟩ := C13_outcome (tryFrom := tryFrom) (anchor := x.anchor)
      (ty := BundleType.DEFAULT) (outputs := os) (fun s hs => (k3 s hs).1) hk he
    obtain ⟨⟨u, m⟩, hbu⟩ := c6.2 ⟨by simp [BundleType.DEFAULT, BundleType.flags, Flags.ENABLED], by
        rintro ⟨s, hs, ha⟩
        have hm : (s.note, s.merklePath) ∈ x.notes := k1 ▸ List.mem_map_of_mem hs
        exact ha (Or.inr (g1 _ hm).2),
      by simp [BundleType.DEFAULT, BundleType.flags, Flags.ENABLED], by
        rintro ⟨n, hn, h | h⟩
        · rw [defaultActions hl, Option.some.injEq] at hn
          exact h (plannedNets_ok (by omega) (by omega) (by rw [t1]; exact i4) (by rw [t2]; exact i5))
        · obtain ⟨i, v, j1, j2⟩ := hu.balance
          rw [h i (by rw [j1, t1, t2])] at j2
          exact absurd j2 (by simp), by
        rw [defaultActions hl, Ne, Option.some.injEq]; omega⟩
    have hrk := rk_ne_zero hbu (fun s hs => (k3 s hs).2) (hin.sk_eq ▸ hz)
    rcases C66_honest_bundle_accepted hP into hconv hbu (fun s hs => (k3 s hs).1) (by
        intro o ho
        have hm : (o.recipient, o.value) ∈ x.outputAmounts := k2 ▸ List.mem_map_of_mem ho
        obtain ⟨scope, hs⟩ := g2 _ hm
        exact owned_pkd_ne_zero hP hsk'.2 hs) hrk prover verifier hps
      (fun ps => ps.all fun y => verifier y.1 y.2) (fun _ => rfl) [ask] (by
        intro s hs
        refine ⟨ask, by simp, ?_⟩
        rw [(k3 s hs).2]; exact a2) x.rngSeed (std x.rngSeed).2 (Bytes.replicate 32 0) with
      ⟨b1, b', v, q1, q2, q3, -⟩ | hx
    · left
      have hok : intoBundle P tryFrom (prover x.rngSeed) (std x.rngSeed).1 (std x.rngSeed).2 x =
          .ok b' := by
        rw [e, hbu]
        exact (finishInto_ok a1).2 ⟨(u, m), b1, rfl, q1, q2⟩
      refine ⟨b', hok, ?_, q3⟩
      unfold arbBundleWithKey
      rw [Gen.ret_mem_bind]
      exact ⟨x, hx, Or.inl ⟨b', hok, rfl⟩⟩
    · exact Or.inr ⟨ss, os, u, m, k1, k2, hbu, hx⟩
  · exact absurd ⟨fun p hp => ⟨hu.notes p hp, hu.paths p hp⟩, hu.outputs⟩ h

/-- **C101** (panics). For all keys, whatever the random values and the prover, `arb_bundle_with_key` can
panic: "an arbitrary valid bundle" is not always produced. -/
theorem C101_panics (hsk : Spec.ValidSk P sk.bytes)
    (prover : Bytes 32 → List Circuit → List (List Fp) → Except ProofError (List UInt8))
    (std : Bytes 32 → BuildDraws × SignRng) :
    .panic ∈ arbBundleWithKey P G tryFrom prover std sk ∧
    .panic ∈ arbBuilderBundle P G tryFrom prover std := by
  have key : .panic ∈ arbBundleWithKey P G tryFrom prover std sk := by
    obtain ⟨a, -, ha⟩ := addressAt_owned (P := P) (fvk := Spec.fvkOf P sk.bytes) hsk.2 default .external
    have hsome : Spec.SomeAddress P a := ⟨sk.bytes, hsk, ha⟩
    let n : Note := ⟨a, ⟨0x7ffffffffffffffe⟩, extractP ((0 : Fq) • G), default⟩
    have hd : Spec.DrawnInputs P G [n, n] [(a, ⟨1⟩), (a, ⟨1⟩)] := by
      refine ⟨?_, ?_, ?_, ?_⟩
      · intro m hm
        have : m = n := by simpa using hm
        rw [this]; exact ⟨hsome, 0, rfl⟩
      · intro p hp
        have : p = (a, ⟨1⟩) := by simpa using hp
        rw [this]; exact hsome
      · refine ⟨by simp, by simp, ?_⟩
        intro v hv
        have : v = ⟨0x7ffffffffffffffe⟩ := by simpa [n] using hv
        rw [this]
        simp only [List.length_map, List.length_cons, List.length_nil]
        decide
      · refine ⟨by simp, by simp, ?_⟩
        intro v hv
        have : v = ⟨1⟩ := by simpa using hv
        rw [this]
        simp only [List.length_map, List.length_cons, List.length_nil]
        decide
    obtain ⟨-, c2, c3, -⟩ := C101_inputs P G sk
    unfold arbBundleWithKey
    rw [Gen.panic_mem_bind]
    cases hc : Spec.commitmentOf P n with
    | none => exact Or.inl (c3 _ _ hd ⟨n, by simp, hc⟩)
    | some cm =>
      right
      obtain ⟨x, hx, hin⟩ := c2 default _ _ hd (by
        intro m hm
        have : m = n := by simpa using hm
        rw [this]; exact ⟨cm, hc⟩)
      obtain ⟨i1, i2, i3, i4, i5⟩ := inputs_facts hd hin
      refine ⟨x, hx, Or.inr ⟨?_, rfl⟩⟩
      rcases intoBundle_front (tryFrom := tryFrom) (prover := prover x.rngSeed)
        (draws := (std x.rngSeed).1) (srng := (std x.rngSeed).2) (hin.sk_eq ▸ hsk) i1 i2 with
        ⟨-, ss, os, k1, k2, k3, e⟩ | ⟨-, e⟩
      · obtain ⟨t1, t2⟩ := totals k1 k2
        have hn2 : x.notes.map (fun p => p.1.value) = [n.value, n.value] := by
          have := congrArg (List.map Note.value) hin.notes_eq
          rw [List.map_map] at this
          exact this
        have hs : ss.length = 2 := by
          have := congrArg List.length hn2
          rw [List.length_map, ← k1, List.length_map] at this
          exact this
        have ho : os.length = 2 := by
          have := congrArg List.length (k2.trans hin.outputs_eq)
          rw [List.length_map] at this
          exact this
        obtain ⟨er, he⟩ := bundle_overflow (tryFrom := tryFrom) (draws := (std x.rngSeed).1)
          (anchor := x.anchor) (fun s hs => (k3 s hs).1) hs ho (by
            rw [t1, t2, hn2, hin.outputs_eq]
            simp only [n, List.map_cons, List.map_nil]
            decide)
        rw [e, he]; rfl
      · exact e
  refine ⟨key, ?_⟩
  unfold arbBuilderBundle
  rw [Gen.panic_mem_bind]
  exact Or.inr ⟨sk, ((C99_spending_key P).1 sk).2 hsk, key⟩

end

/-! ### Cases for C101 -/

namespace Examples

/-- Under `P0` every spending key owns an address. -/
theorem address_P0 (sk : SpendingKey) : ∃ a, Spec.SomeAddress P0 a ∧
    Spec.OwnedInScope P0 (Spec.fvkOf P0 sk.bytes) .external a := by
  obtain ⟨a, -, ha⟩ := addressAt_owned (P := P0) (fvk := Spec.fvkOf P0 sk.bytes) (validSk_P0 _).2
    default .external
  exact ⟨a, ⟨sk.bytes, validSk_P0 _, ha⟩, ha⟩

/-- Under `P0` inputs of one note and one output of given small values are generated, and they can be used
if the balance is accepted. -/
theorem inputs_P0 (sk : SpendingKey) (v w : UInt64) (hv : 0 < v.toNat ∧ v.toNat < 100)
    (hw : 0 < w.toNat ∧ w.toNat < 100) : ∃ x,
    .ret x ∈ arbBundleInputs P0 Constants.spendAuthG sk ∧
    Spec.totalOf (x.notes.map fun p => p.1.value) = v.toNat ∧
    Spec.totalOf (x.outputAmounts.map Prod.snd) = w.toNat ∧
    ∀ (V : Type) (tryFrom : I64 → Option V), (∃ (i : I64) (u : V), i.val = (v.toNat : ℤ) - w.toNat ∧
      tryFrom i = some u) → Spec.Usable P0 tryFrom x := by
  obtain ⟨a, ha, ho⟩ := address_P0 sk
  obtain ⟨cm, -, hcm⟩ := noteCommit_P0
  let n : Note := ⟨a, ⟨v⟩, extractP ((2 : Fq) • Constants.spendAuthG), default⟩
  have hc : Spec.commitmentOf P0 n = some cm := hcm _ _ _ _ _
  have hd : Spec.DrawnInputs P0 Constants.spendAuthG [n] [(a, ⟨w⟩)] := by
    refine ⟨?_, ?_, ?_, ?_⟩
    · intro m hm; rw [List.mem_singleton.1 hm]; exact ⟨ha, 2, rfl⟩
    · intro p hp; rw [List.mem_singleton.1 hp]; exact ha
    · refine ⟨by simp, by simp, fun u hu => ?_⟩
      have : u = ⟨v⟩ := by simpa [n] using hu
      rw [this]
      simp only [List.length_map, List.length_cons, List.length_nil]
      omega
    · refine ⟨by simp, by simp, fun u hu => ?_⟩
      have : u = ⟨w⟩ := by simpa using hu
      rw [this]
      simp only [List.length_map, List.length_cons, List.length_nil]
      omega
  obtain ⟨x, hx, hin⟩ := (C101_inputs P0 Constants.spendAuthG sk).2.1 default _ _ hd (by
    intro m hm; rw [List.mem_singleton.1 hm]; exact ⟨cm, hc⟩)
  have t1 : Spec.totalOf (x.notes.map fun p => p.1.value) = v.toNat := by
    have : x.notes.map (fun p => p.1.value) = [⟨v⟩] := by
      have := congrArg (List.map Note.value) hin.notes_eq
      rw [List.map_map] at this
      exact this
    rw [this]; simp [Spec.totalOf, Spec.intValue]
  have t2 : Spec.totalOf (x.outputAmounts.map Prod.snd) = w.toNat := by
    rw [hin.outputs_eq]; simp [Spec.totalOf, Spec.intValue]
  have hmem : ∀ p ∈ x.notes, p.1 = n := by
    intro p hp
    have : p.1 ∈ [n] := hin.notes_eq ▸ List.mem_map_of_mem hp
    exact List.mem_singleton.1 this
  refine ⟨x, hx, t1, t2, fun V tryFrom hb => ⟨?_, ?_, ?_, ?_⟩⟩
  · intro p hp; rw [hmem p hp, hin.sk_eq]; exact ⟨_, ho⟩
  · intro p hp
    rw [hmem p hp]
    refine ⟨cm, hc, ?_⟩
    obtain ⟨cmxs, hf, hanc, hpath⟩ := hin.tree
    obtain ⟨i, hi⟩ := List.mem_iff_getElem?.1 hp
    have hl : x.notes.length = 1 := by
      have := congrArg List.length hin.notes_eq
      rw [List.length_map] at this; exact this
    have hi0 : i = 0 := by
      have := (List.getElem?_eq_some_iff.1 hi).1
      omega
    subst hi0
    have hq := pathIn_root (hpath 0 p hi)
    cases hf with
    | cons h hf =>
      cases hf
      obtain ⟨cm', h1, rfl⟩ := h
      rw [hc, Option.some.injEq] at h1
      subst h1
      rw [← pathRoot_iff, hanc]
      exact hq
  · intro p hp
    rw [hin.outputs_eq] at hp
    rw [List.mem_singleton.1 hp, hin.sk_eq]; exact ⟨_, ho⟩
  · rw [t1, t2]; exact hb

/-- Under `P0` and with a proof system that is complete, a note of value 5 and an output of value 3 meet all
hypotheses of `C101_usable`, and a valid bundle with balance 2 is returned; a note of value 1 and an
output of value 3 make building panic if negative balances are refused. -/
example (sk : SpendingKey) :
    (∃ b : AuthorizedBundle I64, .ret b ∈ arbBundleWithKey P0 Constants.spendAuthG some
        (fun _ _ _ => .ok [1, 2, 3]) (fun _ => (rng0 path0, ⟨fun _ => default⟩)) sk ∧
      Spec.BundleValid P0 (fun _ _ => true) id b (Bytes.replicate 32 0)) ∧
    ∃ x, .ret x ∈ arbBundleInputs P0 Constants.spendAuthG sk ∧
      intoBundle P0 (fun i : I64 => if 0 ≤ i.val then some i else none) (fun _ _ => .ok [1, 2, 3])
        (rng0 path0) ⟨fun _ => default⟩ x = .panic := by
  obtain ⟨hk, he⟩ := rng_ok (rng := rng0 path0) (fun _ => rfl) (fun _ => rfl) (fun _ => rfl)
    (fun _ => rfl)
  constructor
  · obtain ⟨x, hx, -, -, hu⟩ := inputs_P0 sk 5 3 (by decide) (by decide)
    rcases C101_usable (P := P0) (G := Constants.spendAuthG) (tryFrom := some) (sk := sk) (x := x)
      (by exact genG_ne_zero) id (by intro i v h; cases h; rfl) (validSk_P0 _)
      (fun _ _ _ => .ok [1, 2, 3]) (fun _ _ => true) (fun _ _ _ _ => ⟨_, rfl, rfl⟩)
      (fun _ => (rng0 path0, ⟨fun _ => default⟩)) hx (hu _ _ ⟨⟨2, by decide⟩, _, by decide, rfl⟩) hk he (by
        intro i
        have h0 : ((rng0 path0).action i).alpha = 0 := rfl
        rw [h0, Orchard.zero_smul, add_zero]
        refine ⟨(validSk_P0 _).2.1, fun j b _ => ?_⟩
        rw [add_zero]
        exact (validSk_P0 _).2.1) with ⟨b, -, h1, h2⟩ | ⟨ss, os, u, m, -, -, -, c, -, y, -, hn, -⟩
    · exact ⟨b, h1, h2⟩
    · obtain ⟨A, hA, -⟩ := hash_P0 (Q := Constants.qMerkleCrh)
        (msg := merkleBits y.1 y.2.1 y.2.2) (by simp [domainPoints]) (by simp)
      rw [hn] at hA; simp at hA
  · obtain ⟨x, hx, t1, t2, -⟩ := inputs_P0 sk 1 3 (by decide) (by decide)
    refine ⟨x, hx, C101_unusable_panics hx (validSk_P0 _) _ _ _ hk he ?_⟩
    rintro ⟨-, -, -, i, v, h1, h2⟩
    rw [t1, t2] at h1
    have : i.val = -2 := by rw [h1]; decide
    rw [this] at h2
    simp at h2

/-- Under `P0` the hash of the tree is constant. -/
theorem merkleCRH_P0 (l l' : ℕ) (a b a' b' : Fp) :
    Spec.merkleCRH P0 l a b = Spec.merkleCRH P0 l' a' b' := by
  unfold Spec.merkleCRH
  rw [hash_P0_const (msg' := leBits 10 l' ++ leBits 255 a'.val ++ leBits 255 b'.val) (by simp)]

/-- Under `P0` the inputs of two notes meet the hypotheses of `C101_several_notes`: the hash of the
tree is constant there. -/
example (sk : SpendingKey) : ∃ (notes : List Note) (outputs : List (Address × NoteValue))
    (x : ArbitraryBundleInputs), Spec.InputsOf P0 sk default notes outputs x ∧ notes.length = 2 ∧
    ∀ p ∈ x.notes, ∃ cm, Spec.commitmentOf P0 p.1 = some cm ∧
      Spec.PathRoot P0 p.2.position.toNat p.2.authPath (extractP cm) x.anchor := by
  obtain ⟨a, ha, ho⟩ := address_P0 sk
  obtain ⟨cm, -, hcm⟩ := noteCommit_P0
  let n : Note := ⟨a, ⟨7⟩, extractP ((2 : Fq) • Constants.spendAuthG), default⟩
  have hc : Spec.commitmentOf P0 n = some cm := hcm _ _ _ _ _
  obtain ⟨k1, k2, -⟩ := makeInputs (P := P0) (sk := sk) (seed := default) (notes := [n, n])
    (outputs := [(a, ⟨1⟩)]) (by simp) _ rfl
  obtain ⟨x, hx⟩ := k2 (by
    intro m hm
    have : m = n := by simpa using hm
    rw [this]; exact ⟨cm, hc⟩)
  have hin := k1 x hx
  refine ⟨_, _, x, hin, rfl, fun p hp => ?_⟩
  have hpn : p.1 = n := by
    have : p.1 ∈ [n, n] := hin.notes_eq ▸ List.mem_map_of_mem hp
    simpa using this
  obtain ⟨cmxs, hf, hanc, hpath⟩ := hin.tree
  obtain ⟨i, hi⟩ := List.mem_iff_getElem?.1 hp
  have hq := pathIn_root (hpath i p hi)
  rw [hpn]
  refine ⟨cm, hc, ?_⟩
  rw [← pathRoot_iff, hanc]
  have hleaf : Spec.padLeaves (cmxs.take (i + 1)) i = extractP cm := by
    have hlt : i < [n, n].length := by
      have := (List.getElem?_eq_some_iff.1 hi).1
      have hl := congrArg List.length hin.notes_eq
      rw [List.length_map] at hl
      omega
    have hlt' : i < cmxs.length := hf.length_eq ▸ hlt
    have hg := hf.get hlt hlt'
    obtain ⟨cm', h1, h2⟩ := hg
    have hni : [n, n].get ⟨i, hlt⟩ = n := by
      exact List.eq_of_mem_replicate (n := 2) (List.get_mem [n, n] ⟨i, hlt⟩)
    rw [hni, hc, Option.some.injEq] at h1
    subst h1
    unfold Spec.padLeaves
    rw [List.getD_eq_getElem?_getD, List.getElem?_take, if_pos (by omega),
      List.getElem?_eq_getElem hlt']
    exact h2
  rw [hleaf] at hq
  rw [hq]
  have hconst : ∀ l l' : List Fp, Spec.treeRoot P0 l = Spec.treeRoot P0 l' := by
    intro l l'
    unfold Spec.treeRoot
    exact merkleCRH_P0 _ _ _ _ _ _
  rw [hconst _ cmxs]

end Examples

end Orchard
