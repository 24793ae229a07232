import Verif.Lemmas.Batch
import Verif.Props.Bundle
import Verif.Props.Value

/-!
# Property C57: batch validation (and C04 for whole bundles)
-/

namespace Orchard

open RedPallas

/-- **C04** (bundles). The binding validating key of a bundle never panics, and if the actions'
commitments open to net values `l` and a signing key `bsk` for it is known, then the bundle's value
balance is the sum of the net values over the integers, or a discrete-logarithm relation is
exhibited. -/
theorem C04_bundle_balance {T A V : Type} (into : V → I64) (b : Bundle T A V)
    (l : List (ValueSum × ValueCommitTrapdoor)) (hlen : l.length ≤ 2 ^ 190)
    (hl : ∀ a ∈ l, ValueInRange a.1.inner)
    (hc : l.map (fun a => ValueCommitment.derive a.1 a.2) = (b.actions.map Action.cvNet).map some) :
    ∃ bvk, b.bindingValidatingKey into = .ret bvk ∧
      ∀ bsk : SigningKey .binding, bsk.vk = bvk →
        (into b.valueBalance).val = (l.map fun a => a.1.inner).sum ∨
        DLogRelation (((l.map fun a => a.1.inner).sum - (into b.valueBalance).val : ℤ) : Fq)
          ((l.map fun a => a.2.inner).sum - bsk.s) Constants.valueCommitV Constants.valueCommitR := by
  have h := bindingValidatingKey_eq into b
  refine ⟨_, h, fun bsk hbsk => ?_⟩
  have hr := (into b.valueBalance).range
  have hv := ValueCommitment.derive_eq (v := ValueSum.fromRaw (into b.valueBalance))
    ⟨by simp only [ValueSum.fromRaw]; omega, by simp only [ValueSum.fromRaw]; omega⟩
    ValueCommitTrapdoor.zero
  refine C04_balance_binding l hlen hl _ hc _ _ hv bsk.s ?_
  have : (bsk.vk).point = _ := congrArg VerificationKey.point hbsk
  unfold SigningKey.vk at this
  simp only [basepoint] at this
  rw [this]
  unfold ValueCommitment.sub
  simp only [ValueCommitment.sum_inner, List.map_map]
  simp [ValueCommitTrapdoor.zero, ValueSum.fromRaw, Orchard.zero_smul]
  rfl

/-- Adding bundles one after the other to a validator. -/
noncomputable def addAll {V : Type} (P : Prims) (into : V → I64) (v : BatchValidator) :
    List (AuthorizedBundle V × Bytes 32) → Outcome BatchValidator
  | [] => .ret v
  | x :: l => do
    let v' ← v.addBundle P into x.1 x.2
    addAll P into v' l

/-! ### Shape of the queue -/

/-- Signature items of one bundle. -/
noncomputable def bundleItems {V : Type} (P : Prims) (into : V → I64)
    (x : AuthorizedBundle V × Bytes 32) : List BatchItem :=
  x.1.actions.map (fun a => a.rk.createBatchItem P a.authorization x.2.toList) ++
    [(⟨Spec.bindingKey into x.1⟩ : VerificationKey .binding).createBatchItem P
      x.1.authorization.bindingSignature x.2.toList]

theorem addBundle_eq {V : Type} (P : Prims) (into : V → I64) (v : BatchValidator)
    (b : AuthorizedBundle V) (sighash : Bytes 32) :
    v.addBundle P into b sighash = (b.toInstances.mapM Instance.toHalo2).bind fun xs =>
      .ret ⟨v.proofs ++ [(xs, b.authorization.proof)],
        v.signatures ++ bundleItems P into (b, sighash)⟩ := by
  unfold BatchValidator.addBundle
  rw [bindingValidatingKey_eq, Outcome.ret_bind]
  simp only [bundleItems, List.append_assoc]
  rfl

theorem mapM_outcome_panic_iff {X Y : Type} {f : X → Outcome Y} {l : List X} :
    l.mapM f = .panic ↔ ∃ x ∈ l, f x = .panic := by
  refine ⟨?_, mapM_panic⟩
  induction l with
  | nil => intro h; simp at h
  | cons a l ih =>
    intro h
    rw [List.mapM_cons] at h
    cases hf : f a with
    | panic => exact ⟨a, List.mem_cons_self, hf⟩
    | ret y =>
      rw [hf, Outcome.ret_bind] at h
      cases hl : l.mapM f with
      | panic =>
        obtain ⟨x, hx, hp⟩ := ih hl
        exact ⟨x, List.mem_cons_of_mem _ hx, hp⟩
      | ret ys => rw [hl] at h; simp at h

theorem toInstances_panic_iff {T A V : Type} (b : Bundle T A V) :
    b.toInstances.mapM Instance.toHalo2 = .panic ↔ ∃ a ∈ b.actions, a.rk.point = 0 := by
  rw [mapM_outcome_panic_iff]
  unfold Bundle.toInstances
  constructor
  · rintro ⟨i, hi, hp⟩
    obtain ⟨a, ha, rfl⟩ := List.mem_map.1 hi
    exact ⟨a, ha, (C27_defined _).1.1 hp⟩
  · rintro ⟨a, ha, h0⟩
    exact ⟨_, List.mem_map.2 ⟨a, ha, rfl⟩, (C27_defined _).1.2 h0⟩

/-- **C57** (queueing). `add_bundle` panics exactly if some `rk` of the bundle is the identity. -/
theorem C57_add_panics_iff {V : Type} (P : Prims) (into : V → I64) (v : BatchValidator)
    (b : AuthorizedBundle V) (sighash : Bytes 32) :
    v.addBundle P into b sighash = .panic ↔ ∃ a ∈ b.actions, a.rk.point = 0 := by
  rw [addBundle_eq, ← toInstances_panic_iff]
  cases b.toInstances.mapM Instance.toHalo2 with
  | panic => simp [Outcome.bind]
  | ret xs => simp [Outcome.bind]

theorem addAll_spec {V : Type} {P : Prims} {into : V → I64} {v v' : BatchValidator}
    {l : List (AuthorizedBundle V × Bytes 32)} (h : addAll P into v l = .ret v') :
    v'.signatures = v.signatures ++ l.flatMap (bundleItems P into) ∧
    ∃ xs : List (List (List Fp)), l.map (fun x => x.1.toInstances.mapM Instance.toHalo2) =
        xs.map Outcome.ret ∧
      v'.proofs = v.proofs ++ (xs.zip (l.map fun x => x.1.authorization.proof)) := by
  induction l generalizing v with
  | nil =>
    simp only [addAll, Outcome.ret.injEq] at h
    subst h
    exact ⟨by simp, [], rfl, by simp⟩
  | cons x l ih =>
    unfold addAll at h
    rw [addBundle_eq] at h
    cases hx : x.1.toInstances.mapM Instance.toHalo2 with
    | panic => rw [hx] at h; simp [Outcome.bind] at h
    | ret xs =>
      rw [hx] at h
      simp only [Outcome.bind, Outcome.ret_bind] at h
      obtain ⟨h1, ys, h2, h3⟩ := ih h
      refine ⟨by rw [h1]; simp, xs :: ys, by rw [List.map_cons, List.map_cons, hx, h2], ?_⟩
      rw [h3]
      simp

theorem bundleItems_valid {V : Type} {P : Prims} {into : V → I64}
    {x : AuthorizedBundle V × Bytes 32} :
    ItemsValid (bundleItems P into x) ↔
      (∀ a ∈ x.1.actions, a.rk.verify P x.2.toList a.authorization = true) ∧
      (⟨Spec.bindingKey into x.1⟩ : VerificationKey .binding).verify P x.2.toList
        x.1.authorization.bindingSignature = true := by
  unfold ItemsValid bundleItems
  constructor
  · intro h
    refine ⟨fun a ha => ?_, ?_⟩
    · exact createBatchItem_valid.1 (h _ (List.mem_append_left _ (List.mem_map.2 ⟨a, ha, rfl⟩)))
    · exact createBatchItem_valid.1 (h _ (List.mem_append_right _ (List.mem_singleton.2 rfl)))
  · rintro ⟨h1, h2⟩ i hi
    rcases List.mem_append.1 hi with hi | hi
    · obtain ⟨a, ha, rfl⟩ := List.mem_map.1 hi
      exact createBatchItem_valid.2 (h1 a ha)
    · rw [List.mem_singleton.1 hi]
      exact createBatchItem_valid.2 h2

theorem proofs_valid {V : Type} {verifier : List (List Fp) → List UInt8 → Bool}
    {l : List (AuthorizedBundle V × Bytes 32)} {xs : List (List (List Fp))}
    (h : l.map (fun x => x.1.toInstances.mapM Instance.toHalo2) = xs.map Outcome.ret) :
    (xs.zip (l.map fun x => x.1.authorization.proof)).all (fun y => verifier y.1 y.2) = true ↔
      ∀ x ∈ l, x.1.verifyProof verifier = .ret true := by
  induction l generalizing xs with
  | nil => 
    cases xs with
    | nil => simp
    | cons y xs => simp at h
  | cons x l ih =>
    cases xs with
    | nil => simp at h
    | cons y xs =>
      simp only [List.map_cons, List.cons.injEq] at h
      have ih := ih h.2
      simp only [List.map_cons, List.zip_cons_cons, List.all_cons, Bool.and_eq_true, ih,
        List.forall_mem_cons]
      have : x.1.verifyProof verifier = .ret (verifier y x.1.authorization.proof) := by
        unfold Bundle.verifyProof proofVerify
        rw [h.1]; rfl
      rw [this]
      simp

/-- All queued items and proofs are valid exactly if all bundles are. -/
theorem queue_valid {V : Type} {P : Prims} {into : V → I64}
    {verifier : List (List Fp) → List UInt8 → Bool} {l : List (AuthorizedBundle V × Bytes 32)}
    {v : BatchValidator} (h : addAll P into .new l = .ret v) :
    (ItemsValid v.signatures ∧ v.proofs.all (fun y => verifier y.1 y.2) = true) ↔
      ∀ x ∈ l, Spec.BundleValid P verifier into x.1 x.2 := by
  obtain ⟨h1, xs, h2, h3⟩ := addAll_spec h
  simp only [BatchValidator.new, List.nil_append] at h1 h3
  rw [h1, h3, proofs_valid h2]
  have : ItemsValid (l.flatMap (bundleItems P into)) ↔
      ∀ x ∈ l, ItemsValid (bundleItems P into x) := by
    unfold ItemsValid
    simp only [List.mem_flatMap, forall_exists_index, and_imp]
    exact ⟨fun h x hx i hi => h i x hx hi, fun h i x hx hi => h x hx i hi⟩
  rw [this]
  constructor
  · rintro ⟨g1, g2⟩ x hx
    obtain ⟨k1, k2⟩ := bundleItems_valid.1 (g1 x hx)
    exact ⟨k1, k2, g2 x hx⟩
  · intro g
    exact ⟨fun x hx => bundleItems_valid.2 ⟨(g x hx).1, (g x hx).2.1⟩, fun x hx => (g x hx).2.2⟩

/-! ### C57 -/

/-- **C57** (completeness). If every bundle added is valid, the batch is accepted whatever the random
scalars.  (`hfin`: `finalize` accepts exactly if each queued proof verifies.) -/
theorem C57_valid_accepted {V : Type} (P : Prims) (into : V → I64)
    (verifier : List (List Fp) → List UInt8 → Bool)
    (finalize : List (List (List Fp) × List UInt8) → Bool)
    (hfin : ∀ ps, finalize ps = ps.all fun y => verifier y.1 y.2)
    (l : List (AuthorizedBundle V × Bytes 32)) (v : BatchValidator)
    (hv : addAll P into .new l = .ret v)
    (hvalid : ∀ x ∈ l, Spec.BundleValid P verifier into x.1 x.2) (z : List Fq) :
    v.validate finalize z = true := by
  obtain ⟨h1, h2⟩ := (queue_valid hv).2 hvalid
  unfold BatchValidator.validate
  rw [batchVerify_of_valid h1, hfin, h2]
  simp

/-- **C57** (soundness, counting). If some bundle added is not valid, then, the scalars of the `n`
queued signatures being drawn from any finite set `Z`, at most a fraction `1/|Z|` of the draws makes
the batch accepted. -/
theorem C57_invalid_rejected {V : Type} (P : Prims) (into : V → I64)
    (verifier : List (List Fp) → List UInt8 → Bool)
    (finalize : List (List (List Fp) × List UInt8) → Bool)
    (hfin : ∀ ps, finalize ps = ps.all fun y => verifier y.1 y.2)
    (l : List (AuthorizedBundle V × Bytes 32)) (v : BatchValidator)
    (hv : addAll P into .new l = .ret v)
    (hinvalid : ∃ x ∈ l, ¬ Spec.BundleValid P verifier into x.1 x.2)
    (n : ℕ) (hn : v.signatures.length = n) (Z : Finset Fq) :
    ((Fintype.piFinset fun _ : Fin n => Z).filter
      fun z => v.validate finalize (List.ofFn z) = true).card * Z.card ≤ Z.card ^ n := by
  have hq : ¬ (ItemsValid v.signatures ∧ v.proofs.all (fun y => verifier y.1 y.2) = true) := by
    rw [queue_valid hv]
    push Not
    exact hinvalid
  have hne : v.signatures.isEmpty = false := by
    obtain ⟨x, hx, -⟩ := hinvalid
    rw [(addAll_spec hv).1, List.isEmpty_eq_false_iff]
    simp only [BatchValidator.new, List.nil_append]
    intro h0
    have := List.flatMap_eq_nil_iff.1 h0 x hx
    simp [bundleItems] at this
  by_cases hp : v.proofs.all (fun y => verifier y.1 y.2) = true
  · have hi : ¬ ItemsValid v.signatures := fun h => hq ⟨h, hp⟩
    obtain ⟨i, hi⟩ := batchVerify_subsingleton hn hi
    apply card_of_subsingleton Z i
    intro z x y hx hy
    have key : ∀ w, v.validate finalize w = true → batchVerify v.signatures w = true := by
      intro w hw
      unfold BatchValidator.validate at hw
      rw [hne] at hw
      by_contra hb
      simp [hb] at hw
    exact hi z x y (key _ hx) (key _ hy)
  · have : ∀ w, ¬ v.validate finalize w = true := by
      intro w hw
      unfold BatchValidator.validate at hw
      rw [hne, hfin] at hw
      simp [hp] at hw
    simp [this]

/-- **C57** (exactness). A batch is accepted for all random scalars exactly if all bundles are
valid. -/
theorem C57_accepted_iff {V : Type} (P : Prims) (into : V → I64)
    (verifier : List (List Fp) → List UInt8 → Bool)
    (finalize : List (List (List Fp) × List UInt8) → Bool)
    (hfin : ∀ ps, finalize ps = ps.all fun y => verifier y.1 y.2)
    (l : List (AuthorizedBundle V × Bytes 32)) (v : BatchValidator)
    (hv : addAll P into .new l = .ret v) :
    (∀ z, z.length = v.signatures.length → v.validate finalize z = true) ↔
      ∀ x ∈ l, Spec.BundleValid P verifier into x.1 x.2 := by
  constructor
  · intro h
    by_contra hc
    push Not at hc
    have := C57_invalid_rejected P into verifier finalize hfin l v hv hc _ rfl {0, 1}
    have hcard : ({0, 1} : Finset Fq).card = 2 := by
      rw [Finset.card_pair]; decide +kernel
    rw [hcard, Finset.filter_true_of_mem (fun z _ => h _ (by simp)), Fintype.card_piFinset_const,
      hcard] at this
    have : 0 < 2 ^ v.signatures.length := by positivity
    omega
  · intro h z _
    exact C57_valid_accepted P into verifier finalize hfin l v hv h z

/-- **C57** (empty batch). The empty batch is valid. -/
theorem C57_empty (finalize : List (List (List Fp) × List UInt8) → Bool) (z : List Fq) :
    BatchValidator.new.validate finalize z = true := rfl

/-- **C57** (order). Adding the same bundles in another order succeeds too, and the two batches give
the same verdict for correspondingly reordered scalars. -/
theorem C57_order {V : Type} (P : Prims) (into : V → I64)
    (verifier : List (List Fp) → List UInt8 → Bool)
    (finalize : List (List (List Fp) × List UInt8) → Bool)
    (hfin : ∀ ps, finalize ps = ps.all fun y => verifier y.1 y.2)
    (l l' : List (AuthorizedBundle V × Bytes 32)) (hl : l.Perm l') (v : BatchValidator)
    (hv : addAll P into .new l = .ret v) :
    ∃ v', addAll P into .new l' = .ret v' ∧
      ∀ z : List Fq, z.length = v.signatures.length → ∃ z' : List Fq, z'.Perm z ∧
        v'.validate finalize z' = v.validate finalize z := by
  have hpan : ∀ (l : List (AuthorizedBundle V × Bytes 32)) (w : BatchValidator),
      (∃ v', addAll P into w l = .ret v') ↔ ∀ x ∈ l, ¬ ∃ a ∈ x.1.actions, a.rk.point = 0 := by
    intro l
    induction l with
    | nil => intro w; simp [addAll]
    | cons x l ih =>
      intro w
      unfold addAll
      cases hx : w.addBundle P into x.1 x.2 with
      | panic =>
        have := (C57_add_panics_iff P into w x.1 x.2).1 hx
        simp only [Outcome.panic_bind, reduceCtorEq, exists_false, false_iff]
        intro h
        exact h x List.mem_cons_self this
      | ret w' =>
        have : ¬ ∃ a ∈ x.1.actions, a.rk.point = 0 := by
          intro h
          rw [(C57_add_panics_iff P into w x.1 x.2).2 h] at hx
          simp at hx
        rw [Outcome.ret_bind, ih, List.forall_mem_cons]
        exact ⟨fun h => ⟨this, h⟩, fun h => h.2⟩
  have h' := (hpan l' .new).2 fun x hx => (hpan l .new).1 ⟨v, hv⟩ x (hl.mem_iff.2 hx)
  obtain ⟨v', hv'⟩ := h'
  refine ⟨v', hv', fun z hz => ?_⟩
  obtain ⟨s1, xs, s2, s3⟩ := addAll_spec hv
  obtain ⟨t1, ys, t2, t3⟩ := addAll_spec hv'
  simp only [BatchValidator.new, List.nil_append] at s1 s3 t1 t3
  have hperm : v.signatures.Perm v'.signatures := by
    rw [s1, t1]; exact hl.flatMap_right _
  -- pair the scalars with the items, and reorder the pairs
  have hex : ∃ z' : List Fq, z'.Perm z ∧ z'.length = v'.signatures.length ∧
      (z.zip v.signatures).Perm (z'.zip v'.signatures) := by
    have hgen : ∀ {A : Type} {s s' : List A} (_ : s.Perm s') (z : List Fq), z.length = s.length →
        ∃ z' : List Fq, z'.Perm z ∧ z'.length = s'.length ∧ (z.zip s).Perm (z'.zip s') := by
      intro A s s' hs
      induction hs with
      | nil => intro z hz; exact ⟨z, List.Perm.refl _, hz, by simp⟩
      | cons x _ ih =>
        intro z hz
        cases z with
        | nil => simp at hz
        | cons w z =>
          obtain ⟨z', h1, h2, h3⟩ := ih z (by simpa using hz)
          exact ⟨w :: z', h1.cons w, by simp [h2], by simpa using h3.cons (w, x)⟩
      | swap x y s =>
        intro z hz
        match z, hz with
        | w1 :: w2 :: z, hz =>
          exact ⟨w2 :: w1 :: z, List.Perm.swap _ _ _, by simpa using hz,
            by simpa using List.Perm.swap _ _ _⟩
      | trans _ _ ih1 ih2 =>
        intro z hz
        obtain ⟨z', h1, h2, h3⟩ := ih1 z hz
        obtain ⟨z'', k1, k2, k3⟩ := ih2 z' h2
        exact ⟨z'', k1.trans h1, k2, h3.trans k3⟩
    exact hgen hperm z hz
  obtain ⟨z', hz', hlen', hzip⟩ := hex
  refine ⟨z', hz', ?_⟩
  have hbv : batchVerify v'.signatures z' = batchVerify v.signatures z := by
    have hchar : ∀ (s : List BatchItem) (z : List Fq), z.length = s.length →
        (batchVerify s z = true ↔ (∀ x ∈ z.zip s, (x.2.decode).isSome) ∧
          ((z.zip s).map fun x => x.1 • ((x.2.decode).elim 0 BatchTerm.err)).sum = 0) := by
      intro s z hz
      have hmem : (∀ x ∈ z.zip s, (x.2.decode).isSome) ↔ ∀ i ∈ s, i.decode.isSome := by
        rw [← List.map_snd_zip (l₁ := z) (l₂ := s) (by omega)]
        simp only [List.mem_map, forall_exists_index, and_imp, forall_apply_eq_imp_iff₂]
        rw [List.map_snd_zip (by omega)]
      rw [batchVerify_iff, hmem]
      have hsum : ∀ (ts : List BatchTerm), s.map BatchItem.decode = ts.map some →
          ((z.zip ts).map fun x => x.1 • x.2.err) =
          ((z.zip s).map fun x => x.1 • ((x.2.decode).elim 0 BatchTerm.err)) := by
        clear hmem hz
        induction s generalizing z with
        | nil =>
          intro ts h
          cases ts with
          | nil => simp
          | cons t ts => simp at h
        | cons i s ih =>
          intro ts h
          cases ts with
          | nil => simp at h
          | cons t ts =>
            simp only [List.map_cons, List.cons.injEq] at h
            cases z with
            | nil => simp
            | cons w z =>
              simp only [List.zip_cons_cons, List.map_cons, ih z ts h.2, h.1, Option.elim_some]
      constructor
      · rintro ⟨ts, h1, h2⟩
        have hm := mapM_option_spec h1
        refine ⟨?_, by rw [← hsum ts hm]; exact h2⟩
        intro i hi
        have : i.decode ∈ ts.map some := by rw [← hm]; exact List.mem_map_of_mem hi
        obtain ⟨t, -, ht⟩ := List.mem_map.1 this
        rw [← ht]; rfl
      · rintro ⟨h1, h2⟩
        have : ∃ ts : List BatchTerm, s.map BatchItem.decode = ts.map some := by
          clear hsum h2 hmem hz
          induction s with
          | nil => exact ⟨[], rfl⟩
          | cons i s ih =>
            obtain ⟨ts, hts⟩ := ih fun j hj => h1 j (List.mem_cons_of_mem _ hj)
            obtain ⟨t, ht⟩ := Option.isSome_iff_exists.1 (h1 i List.mem_cons_self)
            exact ⟨t :: ts, by rw [List.map_cons, List.map_cons, ht, hts]⟩
        obtain ⟨ts, hts⟩ := this
        exact ⟨ts, mapM_option_of_map hts, by rw [hsum ts hts]; exact h2⟩
    rw [Bool.eq_iff_iff, hchar _ _ hlen', hchar _ _ hz]
    have e1 := (hzip.map fun x => x.1 • ((x.2.decode).elim 0 BatchTerm.err)).sum_eq
    rw [e1]
    constructor
    · rintro ⟨h1, h2⟩; exact ⟨fun x hx => h1 x (hzip.mem_iff.1 hx), h2⟩
    · rintro ⟨h1, h2⟩; exact ⟨fun x hx => h1 x (hzip.mem_iff.2 hx), h2⟩
  have hpr : finalize v'.proofs = finalize v.proofs := by
    rw [hfin, hfin, Bool.eq_iff_iff, s3, t3, proofs_valid s2, proofs_valid t2]
    exact ⟨fun h x hx => h x (hl.mem_iff.1 hx), fun h x hx => h x (hl.mem_iff.2 hx)⟩
  have hem : v'.signatures.isEmpty = v.signatures.isEmpty := by
    rw [Bool.eq_iff_iff, List.isEmpty_iff, List.isEmpty_iff]
    exact ⟨fun h => by rw [h] at hperm; exact hperm.eq_nil,
      fun h => by rw [h] at hperm; exact hperm.symm.eq_nil⟩
  unfold BatchValidator.validate
  rw [hem, hbv, hpr]

/-! ### A concrete batch -/

/-- A bundle with one action, correctly signed for the given sighash: `rk = [3] G`, `cv_net = [5] R`,
value balance zero; and a proof accepted by the verifier that accepts just this proof. -/
def exampleAuthorized (P : Prims) (sighash : Bytes 32) : AuthorizedBundle I64 :=
  { actions := [{ exampleAction ((⟨3⟩ : SigningKey .spendAuth).sign P (Bytes.ofNat 80 1) sighash.toList) with
      rk := (⟨3⟩ : SigningKey .spendAuth).vk, cvNet := ⟨(5 : Fq) • Constants.valueCommitR⟩ }]
    nonempty := by simp
    flags := .ENABLED
    valueBalance := ⟨0, by norm_num, by norm_num⟩
    anchor := 3
    authorization := ⟨[1, 2, 3], (⟨5⟩ : SigningKey .binding).sign P (Bytes.ofNat 80 2) sighash.toList⟩ }

theorem exampleAuthorized_rk (P : Prims) (sighash : Bytes 32) :
    ∀ a ∈ (exampleAuthorized P sighash).actions, a.rk.point ≠ 0 := by
  intro a ha
  rw [show (exampleAuthorized P sighash).actions = [_] from rfl, List.mem_singleton] at ha
  subst ha
  intro h
  rcases (smul_eq_zero_iff').1 h with h | h
  · exact absurd h (by decide +kernel)
  · exact basepoint_ne_zero _ h

/-- The hypotheses of the theorems of C57 are met: two valid bundles can be queued. -/
example (P : Prims) (s s' : Bytes 32) : ∃ v,
    addAll P id .new [(exampleAuthorized P s, s), (exampleAuthorized P s', s')] = .ret v ∧
    v.signatures.length = 4 ∧
    Spec.BundleValid P (fun _ proof => proof = [1, 2, 3]) id (exampleAuthorized P s) s := by
  have hno : ∀ (v : BatchValidator) (s : Bytes 32), ∃ v', v.addBundle P id (exampleAuthorized P s) s =
      .ret v' ∧ v'.signatures.length = v.signatures.length + 2 := by
    intro v s
    cases h : v.addBundle P id (exampleAuthorized P s) s with
    | panic =>
      obtain ⟨a, ha, h0⟩ := (C57_add_panics_iff _ _ _ _ _).1 h
      exact absurd h0 (exampleAuthorized_rk P s a ha)
    | ret v' =>
      refine ⟨v', rfl, ?_⟩
      have := (addAll_spec (l := [(exampleAuthorized P s, s)]) (P := P) (into := id) (v := v) (v' := v')
        (by unfold addAll; rw [h]; rfl)).1
      rw [this]
      simp [bundleItems, exampleAuthorized]
  obtain ⟨v1, h1, l1⟩ := hno .new s
  obtain ⟨v2, h2, l2⟩ := hno v1 s'
  refine ⟨v2, ?_, by rw [l2, l1]; rfl, ?_, ?_, ?_⟩
  · unfold addAll
    rw [h1, Outcome.ret_bind]
    unfold addAll
    rw [h2, Outcome.ret_bind]
    rfl
  · intro a ha
    rw [show (exampleAuthorized P s).actions = [_] from rfl, List.mem_singleton] at ha
    subst ha
    exact verify_sign _ _ _ _
  · have : (⟨Spec.bindingKey id (exampleAuthorized P s)⟩ : VerificationKey .binding) =
        (⟨5⟩ : SigningKey .binding).vk := by
      unfold Spec.bindingKey SigningKey.vk exampleAuthorized
      simp [Orchard.zero_smul, basepoint]
    rw [this]
    exact verify_sign _ _ _ _
  · unfold Bundle.verifyProof proofVerify
    cases h : (exampleAuthorized P s).toInstances.mapM Instance.toHalo2 with
    | panic =>
      obtain ⟨a, ha, h0⟩ := (toInstances_panic_iff _).1 h
      exact absurd h0 (exampleAuthorized_rk P s a ha)
    | ret xs => simp [exampleAuthorized]

end Orchard
