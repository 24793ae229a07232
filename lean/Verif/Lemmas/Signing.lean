import Verif.Spec.Signing
import Verif.Props.Bundle
import Verif.Lemmas.RedPallas

/-! # Lemmas on mapping authorisations and on the signing steps -/

namespace Orchard

open RedPallas

/-! ### Mapping -/

theorem mapAuthorization_spec {T A U B V R : Type} (b : Bundle T A V) (r : R)
    (f : R → T → A → B × R) (g : R → T → U × R) :
    Spec.Reauthorized b (mapState (fun r a => f r b.authorization a) r (Spec.slots b)).1
      (g (mapState (fun r a => f r b.authorization a) r (Spec.slots b)).2 b.authorization).1
      (b.mapAuthorization r f g).1 ∧
    (b.mapAuthorization r f g).2 =
      (g (mapState (fun r a => f r b.authorization a) r (Spec.slots b)).2 b.authorization).2 := by
  have hacts : ∀ (r : R) (l : List (Action A)),
      (mapState (fun r (a : Action A) => ((a.map (fun _ => (f r b.authorization a.authorization).1),
        (f r b.authorization a.authorization).2) : Action B × R)) r l).1.map Spec.actionEffects =
          l.map Spec.actionEffects ∧
      (mapState (fun r (a : Action A) => ((a.map (fun _ => (f r b.authorization a.authorization).1),
        (f r b.authorization a.authorization).2) : Action B × R)) r l).1.map Action.authorization =
        (mapState (fun r a => f r b.authorization a) r (l.map Action.authorization)).1 ∧
      (mapState (fun r (a : Action A) => ((a.map (fun _ => (f r b.authorization a.authorization).1),
        (f r b.authorization a.authorization).2) : Action B × R)) r l).2 =
        (mapState (fun r a => f r b.authorization a) r (l.map Action.authorization)).2 := by
    intro r l
    induction l generalizing r with
    | nil => exact ⟨rfl, rfl, rfl⟩
    | cons a l ih =>
      obtain ⟨h1, h2, h3⟩ := ih (f r b.authorization a.authorization).2
      simp only [mapState, List.map_cons]
      refine ⟨?_, ?_, h3⟩
      · rw [h1]; rfl
      · rw [h2]; rfl
  obtain ⟨h1, h2, h3⟩ := hacts r b.actions
  unfold Bundle.mapAuthorization Spec.slots
  simp only
  rw [h3]
  exact ⟨⟨h1, h2, rfl, rfl, rfl, rfl⟩, rfl⟩

section Reauth

variable {T A U B V : Type} {b : Bundle T A V} {auths : List B} {t : U} {b' : Bundle U B V}

theorem Reauth.length (h : Spec.Reauthorized b auths t b') : b'.actions.length = b.actions.length := by
  have := congrArg List.length h.1
  simpa using this

/-- The `i`-th actions of the two bundles. -/
theorem Reauth.get (h : Spec.Reauthorized b auths t b') {i : ℕ} {a' : Action B}
    (ha : b'.actions[i]? = some a') :
    ∃ a, b.actions[i]? = some a ∧ Spec.actionEffects a' = Spec.actionEffects a ∧
      auths[i]? = some a'.authorization := by
  have h1 := congrArg (fun l => l[i]?) h.1
  have h2 := congrArg (fun l => l[i]?) h.2.1
  simp only [List.getElem?_map, ha, Option.map_some] at h1 h2
  cases hb : b.actions[i]? with
  | none => rw [hb] at h1; simp at h1
  | some a =>
    rw [hb] at h1
    simp only [Option.map_some, Option.some.injEq] at h1
    exact ⟨a, rfl, h1, h2.symm⟩

theorem Reauth.effects (h : Spec.Reauthorized b auths t b') (into : V → I64) :
    Spec.effects into b' = Spec.effects into b := by
  unfold Spec.effects
  rw [h.1, h.2.2.1, h.2.2.2.1, h.2.2.2.2.1]

theorem bindingKey_of_effects {T A V T' A' V' : Type} {into : V → I64} {into' : V' → I64}
    {b : Bundle T A V} {b' : Bundle T' A' V'} (h : Spec.effects into' b' = Spec.effects into b) :
    Spec.bindingKey into' b' = Spec.bindingKey into b := by
  have h1 := congrArg (fun e => e.actions.map Spec.ActionEffects.cv) h
  have h2 := congrArg Spec.BundleEffects.valueBalance h
  simp only [Spec.effects, List.map_map] at h1 h2
  have e1 : ∀ {A : Type}, (Spec.ActionEffects.cv ∘ Spec.actionEffects : Action A → Point) =
    fun a => a.cvNet.inner := rfl
  rw [e1, e1] at h1
  unfold Spec.bindingKey
  rw [h1, h2]

theorem Reauth.toInstances (h : Spec.Reauthorized b auths t b') :
    b'.toInstances = b.toInstances := by
  have e : ∀ {A : Type} (fl : Flags) (an : Fp),
      (fun a : Action A => a.toInstance fl an) =
      (fun e : Spec.ActionEffects => (⟨an, ⟨e.cv⟩, e.nf, ⟨e.rk⟩, e.cmx, fl.spendsEnabled,
        fl.outputsEnabled⟩ : Instance)) ∘ Spec.actionEffects := by
    intro A fl an; rfl
  unfold Bundle.toInstances
  rw [h.2.2.1, h.2.2.2.2.1, e, e, ← List.map_map, ← List.map_map, h.1]

theorem Reauth.trans {C W : Type} {cs : List C} {w : W} {b'' : Bundle W C V}
    (h : Spec.Reauthorized b auths t b') (h' : Spec.Reauthorized b' cs w b'') :
    Spec.Reauthorized b cs w b'' :=
  ⟨h'.1.trans h.1, h'.2.1, h'.2.2.1.trans h.2.2.1, h'.2.2.2.1.trans h.2.2.2.1,
    h'.2.2.2.2.1.trans h.2.2.2.2.1, h'.2.2.2.2.2⟩

end Reauth

theorem reauth_refl {T A V : Type} (b : Bundle T A V) :
    Spec.Reauthorized b (Spec.slots b) b.authorization b := ⟨rfl, rfl, rfl, rfl, rfl, rfl⟩

theorem eq_of_reauth_self {T A V : Type} {b b' : Bundle T A V}
    (h : Spec.Reauthorized b (Spec.slots b) b.authorization b') : b' = b :=
  Reauthorized.unique h (reauth_refl b)

/-! ### Slots that draw from the generator -/

theorem mapState_draw {A B : Type} (p : A → Bool) (f : SignRng → A → B × SignRng)
    (sig : A → Bytes 80 → B) (keep : A → B)
    (hf : ∀ r a, f r a = if p a then (sig a r.next.1, r.next.2) else (keep a, r)) (r : SignRng)
    (l : List A) :
    (∀ i, (mapState f r l).1[i]? = (l[i]?).map fun a =>
      if p a then sig a (r.block ((l.take i).countP p)) else keep a) ∧
    ∀ n, (mapState f r l).2.block n = r.block (n + l.countP p) := by
  induction l generalizing r with
  | nil => exact ⟨fun i => by simp [mapState], fun n => by simp [mapState]⟩
  | cons a l ih =>
    simp only [mapState, hf]
    by_cases hp : p a = true
    · simp only [hp, if_true]
      obtain ⟨h1, h2⟩ := ih r.next.2
      refine ⟨fun i => ?_, fun n => ?_⟩
      · cases i with
        | zero => simp [SignRng.next, hp]
        | succ i =>
          rw [List.getElem?_cons_succ, h1]
          simp only [List.getElem?_cons_succ, List.take_succ_cons, List.countP_cons, hp, if_true]
          rfl
      · rw [h2, List.countP_cons, hp, if_pos rfl]
        show r.block _ = r.block _
        congr 1
    · simp only [hp]
      obtain ⟨h1, h2⟩ := ih r
      refine ⟨fun i => ?_, fun n => ?_⟩
      · cases i with
        | zero => simp [hp]
        | succ i =>
          rw [List.getElem?_cons_succ]
          simp only [Bool.false_eq_true, if_false]
          rw [h1]
          simp only [List.getElem?_cons_succ, List.take_succ_cons, List.countP_cons, hp]
          simp
      · simp only [Bool.false_eq_true, if_false]
        rw [h2, List.countP_cons]
        simp [hp]

/-! ### Counting slots -/

theorem mapState_count {A : Type} (p : A → Bool) (f : ℕ → A → A × ℕ) (new : A)
    (hf : ∀ n a, f n a = if p a then (new, n + 1) else (a, n)) (n : ℕ) (l : List A) :
    mapState f n l = (l.map fun a => if p a then new else a, n + l.countP p) := by
  induction l generalizing n with
  | nil => rfl
  | cons a l ih =>
    simp only [mapState, hf, List.map_cons, List.countP_cons]
    by_cases hp : p a = true
    · simp only [hp, if_true, ih]
      congr 1; omega
    · simp only [hp, ih, Bool.false_eq_true, if_false]
      congr 1

theorem map_eq_set_of_unique {A : Type} {p : A → Bool} {new : A} {l : List A} {i : ℕ} {a : A}
    (hi : l[i]? = some a) (hp : p a = true)
    (hu : ∀ j a', l[j]? = some a' → p a' = true → j = i) :
    (l.map fun a => if p a then new else a) = l.set i new := by
  apply List.ext_getElem?
  intro k
  rw [List.getElem?_map, List.getElem?_set]
  have hil : i < l.length := (List.getElem?_eq_some_iff.1 hi).1
  by_cases hk : i = k
  · subst hk
    rw [hi, Option.map_some, if_pos hp, if_pos rfl, if_pos hil]
  · rw [if_neg hk]
    cases hl : l[k]? with
    | none => simp
    | some a' =>
      have : p a' ≠ true := fun h => hk (hu k a' hl h).symm
      simp [this]

theorem countP_eq_zero_iff' {A : Type} {p : A → Bool} {l : List A} :
    l.countP p = 0 ↔ ∀ (j : ℕ) (a' : A), l[j]? = some a' → p a' ≠ true := by
  rw [List.countP_eq_zero]
  constructor
  · intro h j a' hj
    exact h a' (List.mem_of_getElem? hj)
  · intro h a ha
    obtain ⟨j, hj⟩ := List.mem_iff_getElem?.1 ha
    exact h j a hj

theorem countP_eq_one_iff' {A : Type} {p : A → Bool} {l : List A} :
    l.countP p = 1 ↔ ∃ (i : ℕ) (a : A), l[i]? = some a ∧ p a = true ∧
      ∀ (j : ℕ) (a' : A), l[j]? = some a' → p a' = true → j = i := by
  induction l with
  | nil => simp
  | cons x l ih =>
    rw [List.countP_cons]
    by_cases hp : p x = true
    · rw [if_pos hp]
      have : l.countP p + 1 = 1 ↔ l.countP p = 0 := by omega
      rw [this, countP_eq_zero_iff']
      constructor
      · intro h
        refine ⟨0, x, rfl, hp, fun j a' hj ha' => ?_⟩
        cases j with
        | zero => rfl
        | succ j => exact absurd ha' (h j a' (by simpa using hj))
      · rintro ⟨i, a, hi, ha, hu⟩ j a' hj ha'
        have e0 := hu 0 x rfl hp
        have e1 := hu (j + 1) a' (by simpa using hj) ha'
        omega
    · rw [if_neg hp, Nat.add_zero, ih]
      constructor
      · rintro ⟨i, a, hi, ha, hu⟩
        refine ⟨i + 1, a, by simpa using hi, ha, fun j a' hj ha' => ?_⟩
        cases j with
        | zero => simp only [List.getElem?_cons_zero, Option.some.injEq] at hj; subst hj; exact absurd ha' hp
        | succ j => rw [hu j a' (by simpa using hj) ha']
      · rintro ⟨i, a, hi, ha, hu⟩
        cases i with
        | zero => simp only [List.getElem?_cons_zero, Option.some.injEq] at hi; subst hi; exact absurd ha hp
        | succ i =>
          refine ⟨i, a, by simpa using hi, ha, fun j a' hj ha' => ?_⟩
          have := hu (j + 1) a' (by simpa using hj) ha'
          omega

theorem exists_two_of_countP {A : Type} {p : A → Bool} {l : List A} (h0 : l.countP p ≠ 0)
    (h1 : l.countP p ≠ 1) : ∃ (i j : ℕ) (a a' : A), i ≠ j ∧ l[i]? = some a ∧ p a = true ∧ l[j]? = some a' ∧
      p a' = true := by
  rw [Ne, countP_eq_zero_iff'] at h0
  push Not at h0
  obtain ⟨i, a, hi, ha⟩ := h0
  rw [Ne, countP_eq_one_iff'] at h1
  push Not at h1
  obtain ⟨j, a', hj, ha', hne⟩ := h1 i a hi ha
  exact ⟨i, j, a, a', Ne.symm hne, hi, ha, hj, ha'⟩

/-! ### New authorisations -/

theorem exists_reauthorized {T A U B V : Type} (b : Bundle T A V) (auths : List B) (t : U)
    (hl : auths.length = b.actions.length) : ∃ b', Spec.Reauthorized b auths t b' := by
  have hex : ∀ (l : List (Action A)) (auths : List B), auths.length = l.length →
      ∃ as : List (Action B), as.map Spec.actionEffects = l.map Spec.actionEffects ∧
        as.map Action.authorization = auths := by
    intro l
    induction l with
    | nil => intro auths h; cases auths with
      | nil => exact ⟨[], rfl, rfl⟩
      | cons => simp at h
    | cons y l ih =>
      intro auths h
      cases auths with
      | nil => simp at h
      | cons z auths =>
        obtain ⟨as, g1, g2⟩ := ih auths (by simpa using h)
        exact ⟨y.map (fun _ => z) :: as, by rw [List.map_cons, List.map_cons, g1]; rfl,
          by rw [List.map_cons, g2]; rfl⟩
  obtain ⟨as, h1, h2⟩ := hex b.actions auths hl
  have hne : as ≠ [] := by
    intro h0
    rw [h0] at h1
    exact b.nonempty (List.map_eq_nil_iff.1 h1.symm)
  exact ⟨⟨as, hne, b.flags, b.valueBalance, b.anchor, t⟩, h1, h2, rfl, rfl, rfl, rfl⟩

theorem finalize_steps {l : List MaybeSigned} {sigs : List (Signature .spendAuth)} {r r' : Unit} :
    Spec.Steps (fun r a x r' => ((MaybeSigned.finalize a, r) :
      Except BuildError (Signature .spendAuth) × Unit) = (.ok x, r')) r l sigs r' ↔
    l = sigs.map MaybeSigned.signature := by
  constructor
  · intro h
    generalize hr : r = r0 at h
    induction h with
    | nil => rfl
    | @cons _ _ _ m x as bs h1 h2 ih =>
      simp only [Prod.mk.injEq] at h1
      cases m with
      | signingMetadata p => simp [MaybeSigned.finalize] at h1
      | signature s =>
        simp only [MaybeSigned.finalize, Except.ok.injEq] at h1
        rw [h1.1, ih rfl]; rfl
  · rintro rfl
    induction sigs with
    | nil => exact .nil _
    | cons s sigs ih => exact .cons (r' := ()) rfl ih

theorem id_steps {A E : Type} {l l' : List A} {r r' : Unit} :
    Spec.Steps (fun r a x r' => ((.ok a, r) : Except E A × Unit) = (.ok x, r')) r l l' r' ↔ l' = l := by
  constructor
  · intro h
    generalize hr : r = r0 at h
    induction h with
    | nil => rfl
    | cons h1 h2 ih =>
      simp only [Prod.mk.injEq, Except.ok.injEq] at h1
      rw [h1.1, ih rfl]
  · rintro rfl
    induction l' with
    | nil => exact .nil _
    | cons s sigs ih => exact .cons (r' := ()) rfl ih

/-! ### The steps -/

theorem openFor_iff {ask : SpendAuthorizingKey} {parts : SigningParts} :
    Spec.OpenFor ask (.signingMetadata parts) ↔ parts.ak = ask.vk := by
  constructor
  · rintro ⟨_, h, h'⟩
    cases h
    cases hak : parts.ak
    rw [hak] at h'
    simp only at h'
    rw [h']; rfl
  · intro h
    exact ⟨parts, rfl, by rw [h]; rfl⟩

/-- The signature `sign` puts into an open slot. -/
def slotSignature (P : Prims) (ask : SpendAuthorizingKey) (sighash : Bytes 32) (m : MaybeSigned)
    (rnd : Bytes 80) : MaybeSigned :=
  match m with
  | .signingMetadata parts => .signature ((ask.randomize parts.alpha).sign P rnd sighash.toList)
  | .signature s => .signature s

theorem sign_spec {Pf V : Type} (P : Prims) (b : SigningBundle Pf V) (rng : SignRng)
    (ask : SpendAuthorizingKey) :
    ∃ l, Spec.Reauthorized b l b.authorization (b.sign P rng ask).1 ∧
      (∀ i, l[i]? = ((Spec.slots b)[i]?).map fun m =>
        if Spec.OpenFor ask m then slotSignature P ask b.authorization.sigs.sighash m
          (rng.block (((Spec.slots b).take i).countP fun m => decide (Spec.OpenFor ask m))) else m) ∧
      ∀ n, (b.sign P rng ask).2.block n =
        rng.block (n + (Spec.slots b).countP fun m => decide (Spec.OpenFor ask m)) := by
  unfold Bundle.sign
  simp only
  obtain ⟨h1, h2⟩ := mapAuthorization_spec b rng
    (fun rng part maybe => Bundle.signSlot P ask ask.vk part.sigs.sighash rng maybe)
    (fun rng part => (part, rng))
  have h3 := mapState_draw (fun m => decide (Spec.OpenFor ask m))
    (fun rng maybe => Bundle.signSlot P ask ask.vk b.authorization.sigs.sighash rng maybe)
    (slotSignature P ask b.authorization.sigs.sighash) id (by
      intro r m
      cases m with
      | signature s =>
        have : ¬ Spec.OpenFor ask (.signature s) := by rintro ⟨_, h, -⟩; cases h
        simp [this, Bundle.signSlot]
      | signingMetadata parts =>
        by_cases h : parts.ak = ask.vk
        · have h' := openFor_iff.2 h
          simp only [Bundle.signSlot, h, h', decide_true, if_true]
          rfl
        · have h' : ¬ Spec.OpenFor ask (.signingMetadata parts) := fun h' => h (openFor_iff.1 h')
          simp [Bundle.signSlot, h, h']) rng (Spec.slots b)
  refine ⟨_, h1, fun i => ?_, fun n => ?_⟩
  · rw [h3.1]
    simp only [decide_eq_true_eq, id]
  · rw [h2, ← h3.2]

/-- What `prepare` puts into a slot. -/
def preparedSlot (P : Prims) (sighash : Bytes 32) (m : SigningMetadata) (rnd : Bytes 80) :
    MaybeSigned :=
  match m.dummyAsk with
  | some ask => .signature ((ask.randomize m.parts.alpha).sign P rnd sighash.toList)
  | none => .signingMetadata m.parts

theorem prepare_spec {Pf V : Type} (P : Prims)
    (b : Bundle (InProgress Pf Unauthorized) SigningMetadata V) (rng : SignRng)
    (sighash : Bytes 32) :
    ∃ l, Spec.Reauthorized b l ⟨b.authorization.proof,
        ⟨b.authorization.sigs.bsk.sign P
          (rng.block ((Spec.slots b).countP fun m => m.dummyAsk.isSome)) sighash.toList, sighash⟩⟩
        (b.prepare P rng sighash).1 ∧
      (∀ i, l[i]? = ((Spec.slots b)[i]?).map fun m => preparedSlot P sighash m
          (rng.block (((Spec.slots b).take i).countP fun m => m.dummyAsk.isSome))) ∧
      ∀ n, (b.prepare P rng sighash).2.block n =
        rng.block (n + 1 + (Spec.slots b).countP fun m => m.dummyAsk.isSome) := by
  unfold Bundle.prepare
  obtain ⟨h1, h2⟩ := mapAuthorization_spec b rng
    (fun rng _ m => Bundle.prepareSlot P sighash rng m)
    (fun rng auth => ((⟨auth.proof, ⟨auth.sigs.bsk.sign P rng.next.1 sighash.toList, sighash⟩⟩ :
      InProgress Pf PartiallyAuthorized), rng.next.2))
  have h3 := mapState_draw (fun m : SigningMetadata => m.dummyAsk.isSome)
    (fun rng m => Bundle.prepareSlot P sighash rng m)
    (preparedSlot P sighash) (fun m => .signingMetadata m.parts) (by
      intro r m
      cases h : m.dummyAsk with
      | none => simp [Bundle.prepareSlot, h]
      | some ask => simp [preparedSlot, Bundle.prepareSlot, h]) rng (Spec.slots b)
  have hb := h3.2 0
  rw [Nat.zero_add] at hb
  refine ⟨(mapState (fun rng m => Bundle.prepareSlot P sighash rng m) rng (Spec.slots b)).1, ?_,
    fun i => ?_, fun n => ?_⟩
  · rw [← hb]
    exact h1
  · rw [h3.1]
    congr 1
    funext m
    unfold preparedSlot
    cases h : m.dummyAsk with
    | none => simp
    | some ask => simp
  · refine Eq.trans (congrArg (fun r => SignRng.block r n) h2) ?_
    exact h3.2 (n + 1)

theorem validFor_iff {P : Prims} {sighash : Bytes 32} {l : List MaybeSigned}
    {sig : Signature .spendAuth} {i : ℕ} :
    Spec.ValidFor P sighash l sig i ↔ ∃ parts, l[i]? = some (.signingMetadata parts) ∧
      (VerificationKey.randomize parts.ak parts.alpha).verify P sighash.toList sig = true := Iff.rfl

/-- Whether an external signature is for a slot. -/
noncomputable def isFor (P : Prims) (sighash : Bytes 32) (sig : Signature .spendAuth)
    (m : MaybeSigned) : Bool :=
  match m with
  | .signingMetadata parts =>
    (VerificationKey.randomize parts.ak parts.alpha).verify P sighash.toList sig
  | .signature _ => false

theorem validFor_iff_isFor {P : Prims} {sighash : Bytes 32} {l : List MaybeSigned}
    {sig : Signature .spendAuth} {i : ℕ} :
    Spec.ValidFor P sighash l sig i ↔ ∃ m, l[i]? = some m ∧ isFor P sighash sig m = true := by
  rw [validFor_iff]
  constructor
  · rintro ⟨parts, h1, h2⟩
    exact ⟨_, h1, h2⟩
  · rintro ⟨m, h1, h2⟩
    cases m with
    | signature s => simp [isFor] at h2
    | signingMetadata parts => exact ⟨parts, h1, h2⟩

theorem appendSignature_spec {Pf V : Type} (P : Prims) (b : SigningBundle Pf V)
    (sig : Signature .spendAuth) :
    ∃ b', Spec.Reauthorized b ((Spec.slots b).map fun m =>
        if isFor P b.authorization.sigs.sighash sig m then .signature sig else m) b.authorization b' ∧
      b.appendSignature P sig =
        match (Spec.slots b).countP (isFor P b.authorization.sigs.sighash sig) with
        | 0 => .error .invalidExternalSignature
        | 1 => .ok b'
        | _ => .error .duplicateSignature := by
  unfold Bundle.appendSignature
  simp only
  obtain ⟨h1, h2⟩ := mapAuthorization_spec b (0 : ℕ)
    (fun validFor part maybe => Bundle.appendSlot P sig part.sigs.sighash validFor maybe)
    (fun validFor part => (part, validFor))
  have h3 := mapState_count (isFor P b.authorization.sigs.sighash sig)
    (fun validFor maybe => Bundle.appendSlot P sig b.authorization.sigs.sighash validFor maybe)
    (.signature sig) (by
      intro n m
      cases m with
      | signature s => simp [isFor, Bundle.appendSlot]
      | signingMetadata parts => rfl) 0 (Spec.slots b)
  simp only [h3, Nat.zero_add] at h1 h2
  refine ⟨_, h1, ?_⟩
  rw [h2]
  generalize (Spec.slots b).countP _ = n
  rcases n with - | - | n <;> rfl

end Orchard
