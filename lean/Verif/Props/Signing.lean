import Verif.Lemmas.Signing
import Verif.Props.Build
import Verif.Props.Batch

/-!
# Properties C16 to C21: proving, signing and finalising a bundle
-/

namespace Orchard

open RedPallas

section

variable {Pf V : Type}

/-! ### C16: finalisation -/

/-- **C16.** Finalising never panics.  It succeeds exactly if every action carries a signature; then the
`i`-th action of the authorised bundle carries the `i`-th signature, the binding signature and the
proof are the recorded ones, and all else is unchanged.  Otherwise it reports `MissingSignatures`. -/
theorem C16_finalize (b : SigningBundle (List UInt8) V) :
    (∀ b', b.finalize = .ret (.ok b') ↔
      ∃ sigs, Spec.slots b = sigs.map MaybeSigned.signature ∧
        Spec.Reauthorized b sigs ⟨b.authorization.proof, b.authorization.sigs.bindingSignature⟩ b') ∧
    ((∃ b', b.finalize = .ret (.ok b')) ↔ ∀ a ∈ b.actions, Spec.IsSigned a.authorization) ∧
    ((∃ a ∈ b.actions, ¬ Spec.IsSigned a.authorization) →
      b.finalize = .ret (.error .missingSignatures)) := by
  have key : ∀ b', b.finalize = .ret (.ok b') ↔
      ∃ sigs, Spec.slots b = sigs.map MaybeSigned.signature ∧
        Spec.Reauthorized b sigs ⟨b.authorization.proof, b.authorization.sigs.bindingSignature⟩ b' := by
    intro b'
    unfold Bundle.finalize
    have hs := C26_success b () () (fun r _ maybe => (MaybeSigned.finalize maybe, r))
      (fun r part => ((.ok ⟨part.proof, part.sigs.bindingSignature⟩ : Except BuildError Authorized), r)) b'
    constructor
    · intro h
      obtain ⟨sigs, r', t, h1, h2, h3⟩ := hs.1 (Prod.ext h rfl)
      refine ⟨sigs, finalize_steps.1 h1, ?_⟩
      simp only [Prod.mk.injEq, Except.ok.injEq] at h2
      rw [h2.1]
      exact h3
    · rintro ⟨sigs, h1, h2⟩
      have := hs.2 ⟨sigs, (), _, finalize_steps.2 h1, rfl, h2⟩
      rw [this]
  have key2 : (∃ b', b.finalize = .ret (.ok b')) ↔ ∀ a ∈ b.actions, Spec.IsSigned a.authorization := by
    constructor
    · rintro ⟨b', h⟩ a ha
      obtain ⟨sigs, h1, -⟩ := (key b').1 h
      have : a.authorization ∈ Spec.slots b := List.mem_map_of_mem ha
      rw [h1, List.mem_map] at this
      obtain ⟨s, -, hs⟩ := this
      exact ⟨s, hs.symm⟩
    · intro h
      have : ∃ sigs : List (Signature .spendAuth), Spec.slots b = sigs.map MaybeSigned.signature := by
        unfold Spec.slots
        generalize b.actions = l at h
        induction l with
        | nil => exact ⟨[], rfl⟩
        | cons a l ih =>
          obtain ⟨sigs, hs⟩ := ih (fun a ha => h a (List.mem_cons_of_mem _ ha))
          obtain ⟨s, hs'⟩ := h a List.mem_cons_self
          exact ⟨s :: sigs, by rw [List.map_cons, List.map_cons, hs, hs']⟩
      obtain ⟨sigs, hs⟩ := this
      have hl := congrArg List.length hs
      simp only [Spec.slots, List.length_map] at hl
      obtain ⟨b', hb'⟩ := exists_reauthorized b sigs
        (⟨b.authorization.proof, b.authorization.sigs.bindingSignature⟩ : Authorized) hl.symm
      exact ⟨b', (key b').2 ⟨sigs, hs, hb'⟩⟩
  refine ⟨key, key2, fun h => ?_⟩
  have hnp : b.finalize ≠ .panic := C26_never_panics _ _ _ _
  cases hf : b.finalize with
  | panic => exact absurd hf hnp
  | ret r =>
    cases r with
    | ok b' =>
      obtain ⟨a, ha, hn⟩ := h
      exact absurd (key2.1 ⟨b', hf⟩ a ha) hn
    | error e =>
      unfold Bundle.finalize at hf
      rcases (C26_failure b () () _ _ e).1 (Prod.ext hf rfl) with
        ⟨l1, a, l2, auths, r', -, -, h3⟩ | ⟨auths, r', -, h2⟩
      · cases a with
        | signature s => simp [MaybeSigned.finalize] at h3
        | signingMetadata p =>
          simp only [MaybeSigned.finalize, Prod.mk.injEq, Except.error.injEq] at h3
          rw [← h3.1]
      · simp at h2

/-! ### C18: signing with a key -/

/-- **C18.** `sign` with a key puts a signature made with the randomised key over the bundle's sighash
into exactly the slots that are open for it (not signed yet, and with the key's validating key), leaves
every other slot as it was, and keeps everything else.  The signatures use successive blocks of the
generator, each block once, and the generator is left after the blocks used. -/
theorem C18_sign (P : Prims) (b : SigningBundle Pf V) (rng : SignRng) (ask : SpendAuthorizingKey) :
    ∃ slots', Spec.Reauthorized b slots' b.authorization (b.sign P rng ask).1 ∧
      slots'.length = (Spec.slots b).length ∧
      (∀ (i : ℕ) (m : MaybeSigned), (Spec.slots b)[i]? = some m → ¬ Spec.OpenFor ask m →
        slots'[i]? = some m) ∧
      (∀ (i : ℕ) (parts : SigningParts), (Spec.slots b)[i]? = some (.signingMetadata parts) →
        parts.ak.point = ask.s • Constants.spendAuthG →
        slots'[i]? = some (.signature (SigningKey.sign P (⟨ask.s + parts.alpha⟩ : SigningKey .spendAuth)
          (rng.block (((Spec.slots b).take i).countP fun m => decide (Spec.OpenFor ask m)))
          b.authorization.sigs.sighash.toList))) ∧
      ∀ n, (b.sign P rng ask).2.block n =
        rng.block (n + (Spec.slots b).countP fun m => decide (Spec.OpenFor ask m)) := by
  obtain ⟨l, h1, h2, h3⟩ := sign_spec P b rng ask
  refine ⟨l, h1, ?_, ?_, ?_, h3⟩
  · rw [← h1.2.1]
    simp only [Spec.slots, List.length_map]
    exact Reauth.length h1
  · intro i m hm ho
    rw [h2, hm, Option.map_some, if_neg ho]
  · intro i parts hm hp
    rw [h2, hm, Option.map_some, if_pos ⟨parts, rfl, hp⟩]
    rfl

/-- Signing with a list of keys, one after the other. -/
def signAll (P : Prims) (s : SigningBundle Pf V × SignRng) (keys : List SpendAuthorizingKey) :
    SigningBundle Pf V × SignRng :=
  keys.foldl (fun s ask => s.1.sign P s.2 ask) s

/-- **C18** (idempotence). Signing again with the same key, with any generator, changes nothing and
draws nothing. -/
theorem C18_idempotent (P : Prims) (b : SigningBundle Pf V) (rng rng' : SignRng)
    (ask : SpendAuthorizingKey) :
    ((b.sign P rng ask).1.sign P rng' ask).1 = (b.sign P rng ask).1 ∧
    ∀ n, ((b.sign P rng ask).1.sign P rng' ask).2.block n = rng'.block n := by
  obtain ⟨l, h1, h2, -⟩ := sign_spec P b rng ask
  generalize hc : (b.sign P rng ask).1 = c at *
  obtain ⟨l', h1', h2', h3'⟩ := sign_spec P c rng' ask
  have hsl : Spec.slots c = l := h1.2.1
  have hno : ∀ (i : ℕ) (m : MaybeSigned), (Spec.slots c)[i]? = some m → ¬ Spec.OpenFor ask m := by
    intro i m hm
    rw [hsl, h2] at hm
    cases hb : (Spec.slots b)[i]? with
    | none => rw [hb] at hm; simp at hm
    | some m0 =>
      rw [hb, Option.map_some, Option.some.injEq] at hm
      by_cases ho : Spec.OpenFor ask m0
      · rw [if_pos ho] at hm
        obtain ⟨parts, rfl, -⟩ := ho
        rw [← hm]
        rintro ⟨_, h, -⟩
        cases h
      · rw [if_neg ho] at hm
        rw [← hm]; exact ho
  have hl' : l' = Spec.slots c := by
    apply List.ext_getElem?
    intro i
    rw [h2']
    cases hm : (Spec.slots c)[i]? with
    | none => rfl
    | some m => rw [Option.map_some, if_neg (hno i m hm)]
  rw [hl'] at h1'
  refine ⟨eq_of_reauth_self h1', fun n => ?_⟩
  rw [h3']
  have : (Spec.slots c).countP (fun m => decide (Spec.OpenFor ask m)) = 0 :=
    countP_eq_zero_iff'.2 fun j a hj => by simpa using hno j a hj
  rw [this]; rfl

/-- **C18** (all keys). After signing with a list of keys, a slot is signed exactly if it was signed
before or was open for one of the keys; slots signed before keep their signature, and slots not signed
keep their data. -/
theorem C18_signed_set (P : Prims) (b : SigningBundle Pf V) (rng : SignRng)
    (keys : List SpendAuthorizingKey) (i : ℕ) (m : MaybeSigned) (hm : (Spec.slots b)[i]? = some m) :
    ∃ m', (Spec.slots (signAll P (b, rng) keys).1)[i]? = some m' ∧
      (Spec.IsSigned m' ↔ Spec.IsSigned m ∨ ∃ ask ∈ keys, Spec.OpenFor ask m) ∧
      (Spec.IsSigned m ∨ ¬ Spec.IsSigned m' → m' = m) := by
  induction keys generalizing b rng m with
  | nil => exact ⟨m, hm, by simp, fun _ => rfl⟩
  | cons ask keys ih =>
    obtain ⟨l, h1, h2, -⟩ := sign_spec P b rng ask
    have hsl : Spec.slots (b.sign P rng ask).1 = l := h1.2.1
    have hi := h2 i
    rw [hm, Option.map_some, ← hsl] at hi
    have e : signAll P (b, rng) (ask :: keys) =
      signAll P ((b.sign P rng ask).1, (b.sign P rng ask).2) keys := rfl
    rw [e]
    obtain ⟨m', g1, g2, g3⟩ := ih _ (b.sign P rng ask).2 _ hi
    refine ⟨m', g1, ?_, ?_⟩
    · rw [g2]
      by_cases ho : Spec.OpenFor ask m
      · rw [if_pos ho]
        obtain ⟨parts, rfl, hp⟩ := ho
        constructor
        · intro _; exact .inr ⟨ask, List.mem_cons_self, parts, rfl, hp⟩
        · intro _; exact .inl ⟨_, rfl⟩
      · rw [if_neg ho]
        constructor
        · rintro (h | ⟨k, hk, h⟩)
          · exact .inl h
          · exact .inr ⟨k, List.mem_cons_of_mem _ hk, h⟩
        · rintro (h | ⟨k, hk, h⟩)
          · exact .inl h
          · rcases List.mem_cons.1 hk with rfl | hk
            · exact absurd h ho
            · exact .inr ⟨k, hk, h⟩
    · intro h
      by_cases ho : Spec.OpenFor ask m
      · exfalso
        have hns : ¬ Spec.IsSigned m := by
          obtain ⟨parts, rfl, hp⟩ := ho
          rintro ⟨s, hs⟩; cases hs
        rcases h with h | h
        · exact hns h
        · apply h
          rw [g2]
          left
          rw [if_pos ho]
          obtain ⟨parts, rfl, hp⟩ := ho
          exact ⟨_, rfl⟩
      · rw [if_neg ho] at g3
        exact g3 h

/-- **C18** (order). The set of signed actions does not depend on the order of the keys, on
repetitions, or on the generator. -/
theorem C18_order_independent (P : Prims) (b : SigningBundle Pf V) (rng rng' : SignRng)
    (keys keys' : List SpendAuthorizingKey) (hk : ∀ k, k ∈ keys ↔ k ∈ keys') (i : ℕ) :
    (∃ m, (Spec.slots (signAll P (b, rng) keys).1)[i]? = some m ∧ Spec.IsSigned m) ↔
    ∃ m, (Spec.slots (signAll P (b, rng') keys').1)[i]? = some m ∧ Spec.IsSigned m := by
  have hlen : ∀ (keys : List SpendAuthorizingKey) (s : SigningBundle Pf V × SignRng),
      (Spec.slots (signAll P s keys).1).length = (Spec.slots s.1).length := by
    intro keys
    induction keys with
    | nil => intro s; rfl
    | cons k keys ih =>
      intro s
      obtain ⟨l, h1, -⟩ := C18_sign P s.1 s.2 k
      have := ih (s.1.sign P s.2 k)
      refine this.trans ?_
      simp only [Spec.slots, List.length_map]
      exact Reauth.length h1
  cases hm : (Spec.slots b)[i]? with
  | none =>
    have hge := List.getElem?_eq_none_iff.1 hm
    have e : ∀ rng keys, (Spec.slots (signAll P (b, rng) keys).1)[i]? = none := by
      intro rng keys
      rw [List.getElem?_eq_none_iff, hlen]; exact hge
    rw [e, e]
  | some m =>
    obtain ⟨m1, a1, a2, -⟩ := C18_signed_set P b rng keys i m hm
    obtain ⟨m2, b1, b2, -⟩ := C18_signed_set P b rng' keys' i m hm
    rw [a1, b1]
    simp only [Option.some.injEq, exists_eq_left', a2, b2, hk]

/-! ### C19: external signatures -/

theorem appendSignature_cases (P : Prims) (b : SigningBundle Pf V) (sig : Signature .spendAuth) :
    let sighash := b.authorization.sigs.sighash
    (∃ b' i, Spec.ValidFor P sighash (Spec.slots b) sig i ∧
      (∀ j, Spec.ValidFor P sighash (Spec.slots b) sig j → j = i) ∧
      Spec.Reauthorized b ((Spec.slots b).set i (.signature sig)) b.authorization b' ∧
      b.appendSignature P sig = .ok b') ∨
    ((∀ i, ¬ Spec.ValidFor P sighash (Spec.slots b) sig i) ∧
      b.appendSignature P sig = .error .invalidExternalSignature) ∨
    (∃ i j, i ≠ j ∧ Spec.ValidFor P sighash (Spec.slots b) sig i ∧
      Spec.ValidFor P sighash (Spec.slots b) sig j ∧
      b.appendSignature P sig = .error .duplicateSignature) := by
  intro sighash
  obtain ⟨b', h1, h2⟩ := appendSignature_spec P b sig
  by_cases c0 : (Spec.slots b).countP (isFor P sighash sig) = 0
  · right; left
    refine ⟨fun i hi => ?_, ?_⟩
    · obtain ⟨m, hm, hv⟩ := validFor_iff_isFor.1 hi
      exact countP_eq_zero_iff'.1 c0 i m hm hv
    · rw [h2]
      simp only [show (Spec.slots b).countP (isFor P b.authorization.sigs.sighash sig) = 0 from c0]
  by_cases c1 : (Spec.slots b).countP (isFor P sighash sig) = 1
  · left
    obtain ⟨i, m, hm, hv, hu⟩ := countP_eq_one_iff'.1 c1
    refine ⟨b', i, validFor_iff_isFor.2 ⟨m, hm, hv⟩, ?_, ?_, ?_⟩
    · intro j hj
      obtain ⟨m', hm', hv'⟩ := validFor_iff_isFor.1 hj
      exact hu j m' hm' hv'
    · rw [← map_eq_set_of_unique hm hv hu]
      exact h1
    · rw [h2]
      simp only [show (Spec.slots b).countP (isFor P b.authorization.sigs.sighash sig) = 1 from c1]
  · right; right
    obtain ⟨i, j, m, m', hne, hi, hv, hj, hv'⟩ := exists_two_of_countP c0 c1
    refine ⟨i, j, hne, validFor_iff_isFor.2 ⟨m, hi, hv⟩, validFor_iff_isFor.2 ⟨m', hj, hv'⟩, ?_⟩
    rw [h2]
    generalize (Spec.slots b).countP _ = n at c0 c1
    rcases n with - | - | n
    · exact absurd rfl c0
    · exact absurd rfl c1
    · rfl

/-- **C19.** `append_signatures` does exactly what the specification says: in order, each signature is
attached to the one open slot it is valid for; it fails with `InvalidExternalSignature` at the first
signature valid for no open slot and with `DuplicateSignature` at the first valid for several. -/
theorem C19_append_signatures (P : Prims) (b : SigningBundle Pf V)
    (sigs : List (Signature .spendAuth)) :
    (∀ b', b.appendSignatures P sigs = .ok b' ↔
      ∃ l, Spec.Appends P b.authorization.sigs.sighash (Spec.slots b) sigs (.ok l) ∧
        Spec.Reauthorized b l b.authorization b') ∧
    ∀ e, b.appendSignatures P sigs = .error e ↔
      Spec.Appends P b.authorization.sigs.sighash (Spec.slots b) sigs (.error e) := by
  induction sigs generalizing b with
  | nil =>
    refine ⟨fun b' => ?_, fun e => ?_⟩
    · constructor
      · intro h
        have : b = b' := by
          have h' : (Except.ok b : Except BuildError _) = .ok b' := h
          cases h'; rfl
        rw [← this]
        exact ⟨_, .done _, reauth_refl b⟩
      · rintro ⟨l, h1, h2⟩
        cases h1
        rw [eq_of_reauth_self h2]; rfl
    · constructor
      · intro h
        have h' : (Except.ok b : Except BuildError _) = .error e := h
        cases h'
      · intro h; cases h
  | cons sig sigs ih =>
    have hcons : b.appendSignatures P (sig :: sigs) =
        (b.appendSignature P sig).bind fun b => b.appendSignatures P sigs := rfl
    rw [hcons]
    rcases appendSignature_cases P b sig with
      ⟨c, i, h1, h2, h3, h4⟩ | ⟨h1, h2⟩ | ⟨i, j, hne, h1, h2, h3⟩
    · rw [h4]
      simp only [Except.bind]
      obtain ⟨i1, i2⟩ := ih c
      have hsl : Spec.slots c = (Spec.slots b).set i (.signature sig) := h3.2.1
      have hau : c.authorization = b.authorization := h3.2.2.2.2.2
      rw [hsl, hau] at i1 i2
      refine ⟨fun b' => ?_, fun e => ?_⟩
      · rw [i1]
        constructor
        · rintro ⟨l, g1, g2⟩
          exact ⟨l, .attach i h1 h2 g1, Reauth.trans h3 g2⟩
        · rintro ⟨l, g1, g2⟩
          cases g1 with
          | attach k k1 k2 k3 =>
            have : k = i := h2 k k1
            subst this
            refine ⟨l, k3, ?_⟩
            exact ⟨g2.1.trans h3.1.symm, g2.2.1, g2.2.2.1.trans h3.2.2.1.symm,
              g2.2.2.2.1.trans h3.2.2.2.1.symm, g2.2.2.2.2.1.trans h3.2.2.2.2.1.symm, g2.2.2.2.2.2⟩
      · rw [i2]
        constructor
        · intro g; exact .attach i h1 h2 g
        · intro g
          cases g with
          | attach k k1 k2 k3 =>
            have : k = i := h2 k k1
            subst this
            exact k3
          | invalid k => exact absurd h1 (k i)
          | duplicate k1 k2 hne g1 g2 => exact absurd ((h2 k1 g1).trans (h2 k2 g2).symm) hne
    · rw [h2]
      simp only [Except.bind]
      refine ⟨fun b' => ?_, fun e => ?_⟩
      · constructor
        · intro h; cases h
        · rintro ⟨l, g, -⟩
          cases g with
          | attach k k1 => exact absurd k1 (h1 k)
      · constructor
        · intro h; cases h; exact .invalid h1
        · intro g
          cases g with
          | attach k k1 => exact absurd k1 (h1 k)
          | invalid => rfl
          | duplicate k1 k2 hne g1 g2 => exact absurd g1 (h1 k1)
    · rw [h3]
      simp only [Except.bind]
      refine ⟨fun b' => ?_, fun e => ?_⟩
      · constructor
        · intro h; cases h
        · rintro ⟨l, g, -⟩
          cases g with
          | attach k k1 k2 => exact absurd ((k2 i h1).trans (k2 j h2).symm) hne
      · constructor
        · intro h; cases h; exact .duplicate i j hne h1 h2
        · intro g
          cases g with
          | attach k k1 k2 => exact absurd ((k2 i h1).trans (k2 j h2).symm) hne
          | invalid k => exact absurd h1 (k i)
          | duplicate => rfl

/-! ### C17: only valid signatures are attached -/

/-- Invariant of signing: attached signatures verify, and open slots hold what `rk` is made from. -/
structure SigningInv (P : Prims) (into : V → I64) (sighash : Bytes 32) (b : SigningBundle Pf V) :
    Prop where
  hash : b.authorization.sigs.sighash = sighash
  signed : ∀ a ∈ b.actions, ∀ sig, a.authorization = .signature sig →
    a.rk.verify P sighash.toList sig = true
  unsigned : ∀ a ∈ b.actions, ∀ parts, a.authorization = .signingMetadata parts →
    a.rk = VerificationKey.randomize parts.ak parts.alpha
  binding : (⟨Spec.bindingKey into b⟩ : VerificationKey .binding).verify P sighash.toList
    b.authorization.sigs.bindingSignature = true

theorem SigningInv.step {P : Prims} {into : V → I64} {sighash : Bytes 32} {b b' : SigningBundle Pf V}
    {l : List MaybeSigned} (hb : SigningInv P into sighash b)
    (h : Spec.Reauthorized b l b.authorization b')
    (hl : ∀ (i : ℕ) (a : Action MaybeSigned) (m : MaybeSigned), b.actions[i]? = some a →
      l[i]? = some m → m = a.authorization ∨
        ∃ sig, m = .signature sig ∧ a.rk.verify P sighash.toList sig = true) :
    SigningInv P into sighash b' := by
  have hrk : ∀ {a a' : Action MaybeSigned}, Spec.actionEffects a' = Spec.actionEffects a →
      a'.rk = a.rk := by
    intro a a' h
    have := congrArg Spec.ActionEffects.rk h
    simp only [Spec.actionEffects] at this
    cases h1 : a'.rk; cases h2 : a.rk
    rw [h1, h2] at this
    simp only at this
    rw [this]
  refine ⟨by rw [h.2.2.2.2.2]; exact hb.hash, ?_, ?_, ?_⟩
  · intro a' ha' sig hs
    obtain ⟨i, hi⟩ := List.mem_iff_getElem?.1 ha'
    obtain ⟨a, g1, g2, g3⟩ := Reauth.get h hi
    rw [hrk g2]
    rcases hl i a _ g1 g3 with h1 | ⟨s, h1, h2⟩
    · exact hb.signed a (List.mem_of_getElem? g1) sig (by rw [← h1, hs])
    · rw [hs] at h1
      cases h1; exact h2
  · intro a' ha' parts hs
    obtain ⟨i, hi⟩ := List.mem_iff_getElem?.1 ha'
    obtain ⟨a, g1, g2, g3⟩ := Reauth.get h hi
    rw [hrk g2]
    rcases hl i a _ g1 g3 with h1 | ⟨s, h1, h2⟩
    · exact hb.unsigned a (List.mem_of_getElem? g1) parts (by rw [← h1, hs])
    · rw [hs] at h1
      cases h1
  · rw [h.2.2.2.2.2, bindingKey_of_effects (Reauth.effects h into)]
    exact hb.binding

theorem SigningInv.sign {P : Prims} {into : V → I64} {sighash : Bytes 32} {b : SigningBundle Pf V}
    (hb : SigningInv P into sighash b) (rng : SignRng) (ask : SpendAuthorizingKey) :
    SigningInv P into sighash (b.sign P rng ask).1 := by
  obtain ⟨l, h1, h2, -⟩ := sign_spec P b rng ask
  refine hb.step h1 fun i a m hi hm => ?_
  have hs : (Spec.slots b)[i]? = some a.authorization := by
    rw [Spec.slots, List.getElem?_map, hi, Option.map_some]
  rw [h2, hs, Option.map_some, Option.some.injEq] at hm
  by_cases ho : Spec.OpenFor ask a.authorization
  · right
    rw [if_pos ho] at hm
    cases ha : a.authorization with
    | signature s => rw [ha] at ho; obtain ⟨_, h, -⟩ := ho; cases h
    | signingMetadata parts =>
      rw [ha] at ho hm
      refine ⟨_, hm.symm, ?_⟩
      rw [hb.unsigned a (List.mem_of_getElem? hi) parts ha, openFor_iff.1 ho, ← randomize_vk, hb.hash]
      exact verify_sign _ _ _ _
  · left
    rw [if_neg ho] at hm
    exact hm.symm

theorem SigningInv.append {P : Prims} {into : V → I64} {sighash : Bytes 32}
    {sigs : List (Signature .spendAuth)} {b b' : SigningBundle Pf V}
    (hb : SigningInv P into sighash b) (h : b.appendSignatures P sigs = .ok b') :
    SigningInv P into sighash b' := by
  induction sigs generalizing b with
  | nil =>
    have h' : (Except.ok b : Except BuildError _) = .ok b' := h
    cases h'; exact hb
  | cons sig sigs ih =>
    have hcons : b.appendSignatures P (sig :: sigs) =
        (b.appendSignature P sig).bind fun b => b.appendSignatures P sigs := rfl
    rw [hcons] at h
    rcases appendSignature_cases P b sig with
      ⟨c, i, h1, h2, h3, h4⟩ | ⟨-, h2⟩ | ⟨-, -, -, -, -, h3⟩
    · rw [h4] at h
      refine ih (b := c) (hb.step h3 fun j a m hj hm => ?_) h
      rw [List.getElem?_set] at hm
      by_cases hij : i = j
      · subst hij
        right
        rw [if_pos rfl] at hm
        split_ifs at hm
        cases hm
        obtain ⟨parts, g1, g2⟩ := validFor_iff.1 h1
        rw [Spec.slots, List.getElem?_map, hj, Option.map_some, Option.some.injEq] at g1
        refine ⟨_, rfl, ?_⟩
        rw [hb.unsigned a (List.mem_of_getElem? hj) parts g1, ← hb.hash]
        exact g2
      · left
        rw [if_neg hij, Spec.slots, List.getElem?_map, hj, Option.map_some, Option.some.injEq] at hm
        exact hm.symm
    · rw [h2] at h; cases h
    · rw [h3] at h; cases h

theorem SigningInv.calls {P : Prims} {into : V → I64} {sighash : Bytes 32}
    {cs : List Bundle.SigningCall} {b b' : SigningBundle Pf V}
    (hb : SigningInv P into sighash b) (h : b.signingCalls P cs = .ok b') :
    SigningInv P into sighash b' := by
  induction cs generalizing b with
  | nil =>
    have h' : (Except.ok b : Except BuildError _) = .ok b' := h
    cases h'; exact hb
  | cons c cs ih =>
    have hcons : b.signingCalls P (c :: cs) =
        (b.signingCall P c).bind fun b => b.signingCalls P cs := rfl
    rw [hcons] at h
    cases hc : b.signingCall P c with
    | error e => rw [hc] at h; cases h
    | ok b1 =>
      rw [hc] at h
      refine ih (b := b1) ?_ h
      cases c with
      | sign rng ask =>
        have h' : (Except.ok (b.sign P rng ask).1 : Except BuildError _) = .ok b1 := hc
        cases h'
        exact hb.sign rng ask
      | append sigs => exact hb.append hc

theorem SigningInv.prepare {P : Prims} {into : V → I64} {sighash : Bytes 32}
    {b : Bundle (InProgress Pf Unauthorized) SigningMetadata V} (hb : Spec.Signable into b)
    (rng : SignRng) : SigningInv P into sighash (b.prepare P rng sighash).1 := by
  obtain ⟨l, h1, h2, -⟩ := prepare_spec P b rng sighash
  have get : ∀ a' ∈ (b.prepare P rng sighash).1.actions, ∃ (rnd : Bytes 80) (a : Action SigningMetadata),
      a ∈ b.actions ∧ a'.rk = a.rk ∧ a'.authorization = preparedSlot P sighash a.authorization rnd := by
    intro a' ha'
    obtain ⟨i, hi⟩ := List.mem_iff_getElem?.1 ha'
    obtain ⟨a, g1, g2, g3⟩ := Reauth.get h1 hi
    rw [h2, Spec.slots, List.getElem?_map, g1, Option.map_some, Option.map_some, Option.some.injEq] at g3
    refine ⟨_, a, List.mem_of_getElem? g1, ?_, g3.symm⟩
    have := congrArg Spec.ActionEffects.rk g2
    simp only [Spec.actionEffects] at this
    cases h1 : a'.rk; cases h2 : a.rk
    rw [h1, h2] at this
    simp only at this
    rw [this]
  have hrk : ∀ a ∈ b.actions, a.rk =
      VerificationKey.randomize a.authorization.parts.ak a.authorization.parts.alpha := by
    intro a ha
    have := hb.rk a ha
    cases h : a.rk
    rw [h] at this
    simp only at this
    rw [this]; rfl
  refine ⟨by rw [h1.2.2.2.2.2], ?_, ?_, ?_⟩
  · intro a' ha' sig hs
    obtain ⟨rnd, a, ha, e1, e2⟩ := get a' ha'
    unfold preparedSlot at e2
    cases hd : a.authorization.dummyAsk with
    | none => rw [hs] at e2; simp only [hd] at e2; cases e2
    | some ask =>
      rw [hs] at e2
      simp only [hd] at e2
      cases e2
      have hak : a.authorization.parts.ak = ask.vk := by
        have := hb.dummy a ha ask hd
        cases h : a.authorization.parts.ak
        rw [h] at this
        simp only at this
        rw [this]; rfl
      rw [e1, hrk a ha, hak, ← randomize_vk]
      exact verify_sign _ _ _ _
  · intro a' ha' parts hs
    obtain ⟨rnd, a, ha, e1, e2⟩ := get a' ha'
    unfold preparedSlot at e2
    cases hd : a.authorization.dummyAsk with
    | some ask => rw [hs] at e2; simp only [hd] at e2; cases e2
    | none =>
      rw [hs] at e2
      simp only [hd] at e2
      cases e2
      rw [e1, hrk a ha]
  · rw [h1.2.2.2.2.2, bindingKey_of_effects (Reauth.effects h1 into), ← hb.bsk]
    exact verify_sign _ _ _ _

/-- **C17** (any history). Whatever calls of `sign` (any keys, any generators) and
`append_signatures` (any bytes as signatures) follow a `prepare`: all signatures attached to actions
verify under the actions' `rk` for the sighash given to `prepare`, and the binding signature verifies
under the bundle's binding validating key. -/
theorem C17_history (P : Prims) (into : V → I64)
    (b : Bundle (InProgress Pf Unauthorized) SigningMetadata V) (hb : Spec.Signable into b)
    (rng : SignRng) (sighash : Bytes 32) (cs : List Bundle.SigningCall) (s : SigningBundle Pf V)
    (h : (b.prepare P rng sighash).1.signingCalls P cs = .ok s) :
    Spec.SignaturesValid P into sighash s := by
  have := (SigningInv.prepare (P := P) (sighash := sighash) hb rng).calls h
  exact ⟨this.signed, this.binding⟩

/-- **C17** (builder). Bundles from the builder meet the hypothesis of `C17_history` (for a value type
whose conversions are inverse to each other). -/
theorem C17_built_signable (P : Prims) (tryFrom : I64 → Option V) (into : V → I64)
    (hconv : ∀ i v, tryFrom i = some v → into v = i) (rng : BuildDraws) (anchor : Fp)
    (ty : BundleType) (spends : List SpendInfo) (hs : ∀ s ∈ spends, s.dummySk = none)
    (outputs : List OutputInfo) (b : UnauthorizedBundle V) (m : BundleMetadata)
    (h : bundle P tryFrom rng anchor ty spends outputs = .ok (some (b, m))) :
    Spec.Signable into b := by
  obtain ⟨i, h1, h2, h3⟩ := C12_binding_key h
  obtain ⟨rows, hp⟩ := C08_each_once h
  have hrow : ∀ a ∈ b.actions, ∃ r ∈ rows, Spec.Realises P r a := by
    intro a ha
    obtain ⟨k, hk⟩ := List.mem_iff_getElem?.1 ha
    have hf := hp.explains.1
    obtain ⟨hk', -⟩ := List.getElem?_eq_some_iff.1 hk
    have hk2 : k < rows.length := by rw [hf.length_eq]; exact hk'
    refine ⟨rows[k], List.getElem_mem hk2, ?_⟩
    have := hf.get hk2 hk'
    rw [List.getElem?_eq_getElem hk'] at hk
    simp only [Option.some.injEq] at hk
    rw [← hk]
    exact this
  refine ⟨?_, ?_, ?_⟩
  · intro a ha
    obtain ⟨r, -, hr⟩ := hrow a ha
    rw [hr.parts]; exact hr.rk
  · intro a ha ask hask
    obtain ⟨r, hrm, hr⟩ := hrow a ha
    cases hd : r.spend.dummySk with
    | none => rw [hr.noDummyKey hd] at hask; cases hask
    | some sk =>
      obtain ⟨ask', e1, e2⟩ := hr.dummyKey sk hd
      rw [e1, Option.some.injEq] at hask
      subst hask
      obtain ⟨dS, g1, -, g3⟩ := hp.spends
      have hmem : r.spend ∈ spends ++ dS := g1.mem_iff.1 (List.mem_map_of_mem hrm)
      rcases List.mem_append.1 hmem with hm | hm
      · rw [hs _ hm] at hd; cases hd
      · obtain ⟨j, hj⟩ := List.mem_iff_getElem?.1 hm
        obtain ⟨-, -, -, -, -, -, -, -, sk', k1, -, ask'', k2, k3, -⟩ := g3 j _ hj
        rw [hd, Option.some.injEq] at k1
        subst k1
        rw [e2, Outcome.ret.injEq] at k2
        subst k2
        rw [hr.parts, k3]; rfl
  · rw [h3]
    unfold Spec.bindingKey
    rw [hconv i _ h2]

/-! ### C20: one-shot signing -/

/-- **C20.** `apply_signatures` never panics; it succeeds exactly if for every action without a dummy
key one of the given keys is that of the action's validating key, and reports `MissingSignatures`
otherwise. -/
theorem C20_apply_signatures (P : Prims)
    (b : Bundle (InProgress (List UInt8) Unauthorized) SigningMetadata V) (rng : SignRng)
    (sighash : Bytes 32) (keys : List SpendAuthorizingKey) :
    ((∃ b', b.applySignatures P rng sighash keys = .ret (.ok b')) ↔
      ∀ a ∈ b.actions, a.authorization.dummyAsk = none →
        ∃ ask ∈ keys, a.authorization.parts.ak.point = ask.s • Constants.spendAuthG) ∧
    (¬ (∃ b', b.applySignatures P rng sighash keys = .ret (.ok b')) →
      b.applySignatures P rng sighash keys = .ret (.error .missingSignatures)) := by
  have e : b.applySignatures P rng sighash keys =
    (signAll P (b.prepare P rng sighash) keys).1.finalize := rfl
  rw [e]
  obtain ⟨l, h1, h2, -⟩ := prepare_spec P b rng sighash
  have hsl : Spec.slots (b.prepare P rng sighash).1 = l := h1.2.1
  generalize (b.prepare P rng sighash) = c at *
  obtain ⟨c, rng1⟩ := c
  have hlen : ∀ (keys : List SpendAuthorizingKey) (s : SigningBundle (List UInt8) V × SignRng),
      (Spec.slots (signAll P s keys).1).length = (Spec.slots s.1).length := by
    intro keys
    induction keys with
    | nil => intro s; rfl
    | cons k keys ih =>
      intro s
      obtain ⟨l, h1, -⟩ := C18_sign P s.1 s.2 k
      refine (ih (s.1.sign P s.2 k)).trans ?_
      simp only [Spec.slots, List.length_map]
      exact Reauth.length h1
  have hl0 : l.length = b.actions.length := by
    rw [← hsl, Spec.slots, List.length_map]; exact Reauth.length h1
  obtain ⟨f1, f2, f3⟩ := C16_finalize (signAll P (c, rng1) keys).1
  have key : (∀ a ∈ (signAll P (c, rng1) keys).1.actions, Spec.IsSigned a.authorization) ↔
      ∀ a ∈ b.actions, a.authorization.dummyAsk = none →
        ∃ ask ∈ keys, a.authorization.parts.ak.point = ask.s • Constants.spendAuthG := by
    have slot : ∀ (i : ℕ) (a : Action SigningMetadata), b.actions[i]? = some a →
        ∃ m', (Spec.slots (signAll P (c, rng1) keys).1)[i]? = some m' ∧
          (Spec.IsSigned m' ↔ (a.authorization.dummyAsk = none →
            ∃ ask ∈ keys, a.authorization.parts.ak.point = ask.s • Constants.spendAuthG)) := by
      intro i a hi
      have hm := h2 i
      rw [Spec.slots, List.getElem?_map, hi, Option.map_some, Option.map_some] at hm
      rw [← hsl] at hm
      obtain ⟨m', k1, k2, -⟩ := C18_signed_set P c rng1 keys i _ hm
      refine ⟨m', k1, ?_⟩
      rw [k2]
      unfold preparedSlot
      cases hd : a.authorization.dummyAsk with
      | some ask =>
        simp only [reduceCtorEq, false_implies, iff_true]
        exact .inl ⟨_, rfl⟩
      | none =>
        simp only [forall_const]
        constructor
        · rintro (⟨s, h⟩ | ⟨ask, h, parts, hp, hq⟩)
          · cases h
          · cases hp
            exact ⟨ask, h, hq⟩
        · rintro ⟨ask, h, hq⟩
          exact .inr ⟨ask, h, _, rfl, hq⟩
    constructor
    · intro h a ha
      obtain ⟨i, hi⟩ := List.mem_iff_getElem?.1 ha
      obtain ⟨m', k1, k2⟩ := slot i a hi
      rw [Spec.slots, List.getElem?_map] at k1
      cases ha' : (signAll P (c, rng1) keys).1.actions[i]? with
      | none => rw [ha'] at k1; cases k1
      | some a' =>
        rw [ha', Option.map_some, Option.some.injEq] at k1
        rw [← k2, ← k1]
        exact h a' (List.mem_of_getElem? ha')
    · intro h a' ha'
      obtain ⟨i, hi⟩ := List.mem_iff_getElem?.1 ha'
      have hil := (List.getElem?_eq_some_iff.1 hi).1
      have hl := hlen keys (c, rng1)
      simp only [hsl, hl0] at hl
      rw [Spec.slots, List.length_map] at hl
      have hib : i < b.actions.length := by rw [← hl]; exact hil
      obtain ⟨m', k1, k2⟩ := slot i _ (List.getElem?_eq_getElem hib)
      rw [Spec.slots, List.getElem?_map, hi, Option.map_some, Option.some.injEq] at k1
      rw [k1, k2]
      exact h _ (List.getElem_mem hib)
  refine ⟨f2.trans key, fun h => ?_⟩
  apply f3
  by_contra hc
  push Not at hc
  exact h (f2.2 hc)

/-! ### C21: authorising never changes effects -/

/-- **C21** (proving). `create_proof` panics exactly if some action's `rk` is the identity; otherwise
it gives the prover's error, or the bundle with exactly the prover's proof for the recorded circuits
and for the public inputs of the bundle's actions (in order) in place of the circuits. -/
theorem C21_create_proof {S A : Type}
    (prover : List Circuit → List (List Fp) → Except ProofError (List UInt8))
    (b : Bundle (InProgress Unproven S) A V) :
    (b.createProof prover = .panic ↔ ∃ a ∈ b.actions, a.rk.point = 0) ∧
    (∀ e, b.createProof prover = .err e ↔ ∃ xs e', b.toInstances.mapM Instance.toHalo2 = .ret xs ∧
      prover b.authorization.proof.circuits xs = .error e' ∧ e = .proof e') ∧
    (∀ b', b.createProof prover = .ok b' ↔ ∃ xs proof,
      b.toInstances.mapM Instance.toHalo2 = .ret xs ∧
      prover b.authorization.proof.circuits xs = .ok proof ∧
      Spec.Reauthorized b (Spec.slots b) ⟨proof, b.authorization.sigs⟩ b') ∧
    b.createProof prover ≠ .more := by
  have hi : (b.actions.map fun a => a.toInstance b.flags b.anchor) = b.toInstances := rfl
  unfold Bundle.createProof
  simp only [hi]
  cases hx : b.toInstances.mapM Instance.toHalo2 with
  | panic =>
    have hpc : ∀ cs, proofCreate prover cs b.toInstances = .panic := by
      intro cs; unfold proofCreate; rw [hx]; rfl
    have hm := (toInstances_panic_iff b).1 hx
    have hf := (C26_failure b () () (fun r (_ : InProgress Unproven S) (a : A) => ((.ok a, r) :
        Except Stop A × Unit)) (fun r auth => (Bundle.proveStep prover b.toInstances auth, r)) Stop.panic).2
      (.inr ⟨Spec.slots b, (), id_steps.2 rfl, by simp only [Bundle.proveStep, hpc]⟩)
    rw [hf]
    simp only [Bundle.stopped, true_iff, reduceCtorEq, false_and, exists_false, not_false_eq_true,
      ne_eq, and_true, implies_true]
    exact hm
  | ret xs =>
    have hpc : ∀ cs, proofCreate prover cs b.toInstances = .ret (prover cs xs) := by
      intro cs; unfold proofCreate; rw [hx]; rfl
    have hm : ¬ ∃ a ∈ b.actions, a.rk.point = 0 := by
      intro h
      have := (toInstances_panic_iff b).2 h
      rw [hx] at this; cases this
    cases hp : prover b.authorization.proof.circuits xs with
    | error e0 =>
      have hf := (C26_failure b () () (fun r (_ : InProgress Unproven S) (a : A) => ((.ok a, r) :
          Except Stop A × Unit)) (fun r auth => (Bundle.proveStep prover b.toInstances auth, r))
          (Stop.err (.proof e0))).2
        (.inr ⟨Spec.slots b, (), id_steps.2 rfl, by simp only [Bundle.proveStep, hpc, hp]⟩)
      rw [hf]
      refine ⟨by simp only [Bundle.stopped, reduceCtorEq, false_iff]; exact hm, fun e => ?_, fun b' => ?_, by simp [Bundle.stopped]⟩
      · simp only [Bundle.stopped, Run.err.injEq, Outcome.ret.injEq]
        constructor
        · rintro rfl; exact ⟨xs, e0, rfl, hp, rfl⟩
        · rintro ⟨xs', e', rfl, h1, rfl⟩
          rw [hp] at h1; cases h1; rfl
      · simp only [Bundle.stopped, reduceCtorEq, Outcome.ret.injEq, false_iff]
        rintro ⟨xs', pr, rfl, h1, -⟩
        rw [hp] at h1; cases h1
    | ok pr =>
      obtain ⟨b1, hb1⟩ := exists_reauthorized b (Spec.slots b)
        (⟨pr, b.authorization.sigs⟩ : InProgress (List UInt8) S) (by simp [Spec.slots])
      have hf := (C26_success b () () (fun r (_ : InProgress Unproven S) (a : A) => ((.ok a, r) :
          Except Stop A × Unit)) (fun r auth => (Bundle.proveStep prover b.toInstances auth, r)) b1).2
        ⟨Spec.slots b, (), _, id_steps.2 rfl, by simp only [Bundle.proveStep, hpc, hp], hb1⟩
      rw [hf]
      refine ⟨by simp only [Bundle.stopped, reduceCtorEq, false_iff]; exact hm, fun e => ?_, fun b' => ?_, by simp [Bundle.stopped]⟩
      · simp only [Bundle.stopped, reduceCtorEq, Outcome.ret.injEq, false_iff]
        rintro ⟨xs', pr, rfl, h1, -⟩
        rw [hp] at h1; cases h1
      · simp only [Bundle.stopped, Run.ok.injEq, Outcome.ret.injEq]
        constructor
        · rintro rfl; exact ⟨xs, pr, rfl, hp, hb1⟩
        · rintro ⟨xs', pr', rfl, h1, h2⟩
          rw [hp] at h1; cases h1
          exact Reauthorized.unique hb1 h2

/-- The effecting data of a bundle in any phase. -/
def phaseEffects (into : V → I64) : Spec.Phase V → Spec.BundleEffects
  | .built b => Spec.effects into b
  | .proven b => Spec.effects into b
  | .preparedUnproven b => Spec.effects into b
  | .prepared b => Spec.effects into b
  | .authorized b => Spec.effects into b

theorem calls_reauth {P : Prims} {cs : List Bundle.SigningCall} {b b' : SigningBundle Pf V}
    (h : b.signingCalls P cs = .ok b') :
    ∃ l, Spec.Reauthorized b l b.authorization b' := by
  induction cs generalizing b with
  | nil =>
    have h' : (Except.ok b : Except BuildError _) = .ok b' := h
    cases h'; exact ⟨_, reauth_refl _⟩
  | cons c cs ih =>
    have hcons : b.signingCalls P (c :: cs) =
        (b.signingCall P c).bind fun b => b.signingCalls P cs := rfl
    rw [hcons] at h
    cases hc : b.signingCall P c with
    | error e => rw [hc] at h; cases h
    | ok b1 =>
      rw [hc] at h
      have h1 : ∃ l, Spec.Reauthorized b l b.authorization b1 := by
        cases c with
        | sign rng ask =>
          have h' : (Except.ok (b.sign P rng ask).1 : Except BuildError _) = .ok b1 := hc
          cases h'
          obtain ⟨l, h1, -⟩ := sign_spec P b rng ask
          exact ⟨l, h1⟩
        | append sigs =>
          obtain ⟨l, -, h1⟩ := ((C19_append_signatures P b sigs).1 b1).1 hc
          exact ⟨l, h1⟩
      obtain ⟨l1, h1⟩ := h1
      obtain ⟨l2, h2⟩ := ih h
      exact ⟨l2, by rw [← h1.2.2.2.2.2]; exact Reauth.trans h1 h2⟩

theorem single_call {P : Prims} {c : Bundle.SigningCall} {b b' : SigningBundle Pf V}
    (h : b.signingCall P c = .ok b') : b.signingCalls P [c] = .ok b' := by
  have : b.signingCalls P [c] = (b.signingCall P c).bind fun b => .ok b := rfl
  rw [this, h]; rfl

theorem signAll_eq_calls {P : Prims} (s : SigningBundle Pf V × SignRng)
    (keys : List SpendAuthorizingKey) :
    ∃ cs, s.1.signingCalls P cs = .ok (signAll P s keys).1 := by
  induction keys generalizing s with
  | nil => exact ⟨[], rfl⟩
  | cons k keys ih =>
    obtain ⟨cs, h⟩ := ih (s.1.sign P s.2 k)
    exact ⟨.sign s.2 k :: cs, h⟩

theorem step_effects {P : Prims} {into : V → I64} {Rnd : Type}
    {prover : Rnd → List Circuit → List (List Fp) → Except ProofError (List UInt8)}
    {sighash : Bytes 32} {x y : Spec.Phase V} (h : Spec.PhaseStep P prover sighash x y) :
    phaseEffects into y = phaseEffects into x := by
  cases h with
  | prove rnd h =>
    obtain ⟨_, _, -, -, h1⟩ := ((C21_create_proof _ _).2.2.1 _).1 h
    exact Reauth.effects h1 into
  | proveLater rnd h =>
    obtain ⟨_, _, -, -, h1⟩ := ((C21_create_proof _ _).2.2.1 _).1 h
    exact Reauth.effects h1 into
  | prepareUnproven rng =>
    obtain ⟨l, h1, -⟩ := prepare_spec P _ rng sighash
    exact Reauth.effects h1 into
  | prepare rng =>
    obtain ⟨l, h1, -⟩ := prepare_spec P _ rng sighash
    exact Reauth.effects h1 into
  | callUnproven c h =>
    obtain ⟨l, h1⟩ := calls_reauth (single_call h)
    exact Reauth.effects h1 into
  | call c h =>
    obtain ⟨l, h1⟩ := calls_reauth (single_call h)
    exact Reauth.effects h1 into
  | finalize h =>
    obtain ⟨l, -, h1⟩ := ((C16_finalize _).1 _).1 h
    exact Reauth.effects h1 into
  | apply rng keys h =>
    obtain ⟨l, h1, -⟩ := prepare_spec P _ rng sighash
    obtain ⟨cs, h2⟩ := signAll_eq_calls (P := P) (Bundle.prepare P _ rng sighash) keys
    obtain ⟨l2, h2⟩ := calls_reauth h2
    obtain ⟨l3, -, h3⟩ := ((C16_finalize _).1 _).1 h
    exact (Reauth.effects h3 into).trans ((Reauth.effects h2 into).trans (Reauth.effects h1 into))

/-- **C21** (any history). Whatever steps of proving, preparing, signing, appending and finalising
lead from one phase of a bundle to another, the effecting data (nullifiers, `rk`s, `cmx`s,
ciphertexts and value commitments of all actions in order, flags, balance and anchor) are the
same. -/
theorem C21_effects (P : Prims) (into : V → I64) {Rnd : Type}
    (prover : Rnd → List Circuit → List (List Fp) → Except ProofError (List UInt8))
    (sighash : Bytes 32) (x y : Spec.Phase V)
    (h : Relation.ReflTransGen (Spec.PhaseStep P prover sighash) x y) :
    phaseEffects into y = phaseEffects into x := by
  induction h with
  | refl => rfl
  | tail _ h ih => exact (step_effects h).trans ih

/-- **C21** (transaction id). The commitment of the authorised bundle is that of the bundle the
builder made. -/
theorem C21_commitment (P : Prims) (into : V → I64) {Rnd : Type}
    (prover : Rnd → List Circuit → List (List Fp) → Except ProofError (List UInt8))
    (sighash : Bytes 32) (b : UnauthorizedBundle V) (b' : AuthorizedBundle V)
    (h : Relation.ReflTransGen (Spec.PhaseStep P prover sighash) (.built b) (.authorized b')) :
    b'.commitment P into = b.commitment P into :=
  C23_depends_on_effects P into into b' b (C21_effects P into prover sighash _ _ h)

/-! ### C17: authorised bundles are valid -/

/-- Invariant of all phases of the life of the bundle `b0`. -/
def PhaseInv (P : Prims) (into : V → I64) {Rnd : Type}
    (prover : Rnd → List Circuit → List (List Fp) → Except ProofError (List UInt8))
    (sighash : Bytes 32) (b0 : UnauthorizedBundle V) : Spec.Phase V → Prop
  | .built b => Spec.Signable into b ∧
      b.authorization.proof.circuits = b0.authorization.proof.circuits ∧ b.toInstances = b0.toInstances
  | .proven b => Spec.Signable into b ∧ Spec.ProvenFor prover b0 b.authorization.proof ∧
      b.toInstances = b0.toInstances
  | .preparedUnproven b => SigningInv P into sighash b ∧
      b.authorization.proof.circuits = b0.authorization.proof.circuits ∧ b.toInstances = b0.toInstances
  | .prepared b => SigningInv P into sighash b ∧ Spec.ProvenFor prover b0 b.authorization.proof ∧
      b.toInstances = b0.toInstances
  | .authorized b => (∀ a ∈ b.actions, a.rk.verify P sighash.toList a.authorization = true) ∧
      (⟨Spec.bindingKey into b⟩ : VerificationKey .binding).verify P sighash.toList
        b.authorization.bindingSignature = true ∧ Spec.ProvenFor prover b0 b.authorization.proof ∧
      b.toInstances = b0.toInstances

theorem finalize_valid {P : Prims} {into : V → I64} {sighash : Bytes 32}
    {b : SigningBundle (List UInt8) V} {b' : AuthorizedBundle V} (hb : SigningInv P into sighash b)
    (h : b.finalize = .ret (.ok b')) :
    (∀ a ∈ b'.actions, a.rk.verify P sighash.toList a.authorization = true) ∧
      (⟨Spec.bindingKey into b'⟩ : VerificationKey .binding).verify P sighash.toList
        b'.authorization.bindingSignature = true ∧
      b'.authorization.proof = b.authorization.proof ∧ b'.toInstances = b.toInstances := by
  obtain ⟨sigs, h0, h1⟩ := ((C16_finalize _).1 _).1 h
  refine ⟨?_, ?_, by rw [h1.2.2.2.2.2], Reauth.toInstances h1⟩
  · intro a' ha'
    obtain ⟨i, hi⟩ := List.mem_iff_getElem?.1 ha'
    obtain ⟨a, g1, g2, g3⟩ := Reauth.get h1 hi
    have hs : (Spec.slots b)[i]? = some a.authorization := by
      rw [Spec.slots, List.getElem?_map, g1, Option.map_some]
    rw [h0, List.getElem?_map, g3, Option.map_some, Option.some.injEq] at hs
    have hv := hb.signed a (List.mem_of_getElem? g1) _ hs.symm
    have := congrArg Spec.ActionEffects.rk g2
    simp only [Spec.actionEffects] at this
    have e : a'.rk = a.rk := by
      cases h1 : a'.rk; cases h2 : a.rk
      rw [h1, h2] at this
      simp only at this
      rw [this]
    rw [e]; exact hv
  · rw [h1.2.2.2.2.2, bindingKey_of_effects (Reauth.effects h1 into)]
    exact hb.binding

theorem Signable.of_reauth {into : V → I64} {Pf Pf' : Type}
    {b : Bundle (InProgress Pf Unauthorized) SigningMetadata V} {t : InProgress Pf' Unauthorized}
    {b' : Bundle (InProgress Pf' Unauthorized) SigningMetadata V}
    (h : Spec.Reauthorized b (Spec.slots b) t b') (ht : t.sigs = b.authorization.sigs)
    (hb : Spec.Signable into b) : Spec.Signable into b' := by
  have get : ∀ a' ∈ b'.actions, a' ∈ b.actions := by
    intro a' ha'
    obtain ⟨i, hi⟩ := List.mem_iff_getElem?.1 ha'
    obtain ⟨a, g1, g2, g3⟩ := Reauth.get h hi
    rw [Spec.slots, List.getElem?_map, g1, Option.map_some, Option.some.injEq] at g3
    rw [Action.ext_effects g2 g3.symm]
    exact List.mem_of_getElem? g1
  refine ⟨fun a ha => hb.rk a (get a ha), fun a ha => hb.dummy a (get a ha), ?_⟩
  rw [h.2.2.2.2.2, ht, bindingKey_of_effects (Reauth.effects h into)]
  exact hb.bsk

theorem step_inv {P : Prims} {into : V → I64} {Rnd : Type}
    {prover : Rnd → List Circuit → List (List Fp) → Except ProofError (List UInt8)}
    {sighash : Bytes 32} {b0 : UnauthorizedBundle V} {x y : Spec.Phase V}
    (h : Spec.PhaseStep P prover sighash x y) (hx : PhaseInv P into prover sighash b0 x) :
    PhaseInv P into prover sighash b0 y := by
  cases h with
  | prove rnd h =>
    obtain ⟨xs, pr, h1, h2, h3⟩ := ((C21_create_proof _ _).2.2.1 _).1 h
    obtain ⟨g1, g2, g3⟩ := hx
    refine ⟨Signable.of_reauth h3 rfl g1, ⟨rnd, xs, ?_, ?_⟩, (Reauth.toInstances h3).trans g3⟩
    · rw [← g3]; exact h1
    · rw [h3.2.2.2.2.2, ← g2]; exact h2
  | @proveLater b b' rnd h =>
    obtain ⟨xs, pr, h1, h2, h3⟩ := ((C21_create_proof _ _).2.2.1 _).1 h
    obtain ⟨g1, g2, g3⟩ := hx
    refine ⟨?_, ⟨rnd, xs, ?_, ?_⟩, (Reauth.toInstances h3).trans g3⟩
    · have get : ∀ a' ∈ b'.actions, a' ∈ b.actions := by
        intro a' ha'
        obtain ⟨i, hi⟩ := List.mem_iff_getElem?.1 ha'
        obtain ⟨a, k1, k2, k3⟩ := Reauth.get h3 hi
        rw [Spec.slots, List.getElem?_map, k1, Option.map_some, Option.some.injEq] at k3
        rw [Action.ext_effects k2 k3.symm]
        exact List.mem_of_getElem? k1
      refine ⟨by rw [h3.2.2.2.2.2]; exact g1.hash, fun a ha => g1.signed a (get a ha),
        fun a ha => g1.unsigned a (get a ha), ?_⟩
      rw [h3.2.2.2.2.2, bindingKey_of_effects (Reauth.effects h3 into)]
      exact g1.binding
    · rw [← g3]; exact h1
    · rw [h3.2.2.2.2.2, ← g2]; exact h2
  | prepareUnproven rng =>
    obtain ⟨l, h1, -⟩ := prepare_spec P _ rng sighash
    obtain ⟨g1, g2, g3⟩ := hx
    refine ⟨SigningInv.prepare g1 rng, ?_, (Reauth.toInstances h1).trans g3⟩
    rw [h1.2.2.2.2.2]; exact g2
  | prepare rng =>
    obtain ⟨l, h1, -⟩ := prepare_spec P _ rng sighash
    obtain ⟨g1, g2, g3⟩ := hx
    refine ⟨SigningInv.prepare g1 rng, ?_, (Reauth.toInstances h1).trans g3⟩
    rw [h1.2.2.2.2.2]; exact g2
  | @callUnproven b b' c h =>
    have h' : b.signingCalls P [c] = .ok b' := single_call h
    obtain ⟨l, h1⟩ := calls_reauth h'
    obtain ⟨g1, g2, g3⟩ := hx
    refine ⟨g1.calls h', ?_, (Reauth.toInstances h1).trans g3⟩
    rw [h1.2.2.2.2.2]; exact g2
  | @call b b' c h =>
    have h' : b.signingCalls P [c] = .ok b' := single_call h
    obtain ⟨l, h1⟩ := calls_reauth h'
    obtain ⟨g1, g2, g3⟩ := hx
    refine ⟨g1.calls h', ?_, (Reauth.toInstances h1).trans g3⟩
    rw [h1.2.2.2.2.2]; exact g2
  | finalize h =>
    obtain ⟨g1, g2, g3⟩ := hx
    obtain ⟨k1, k2, k3, k4⟩ := finalize_valid g1 h
    exact ⟨k1, k2, by rw [k3]; exact g2, k4.trans g3⟩
  | apply rng keys h =>
    obtain ⟨l, h1, -⟩ := prepare_spec P _ rng sighash
    obtain ⟨cs, h2⟩ := signAll_eq_calls (P := P) (Bundle.prepare P _ rng sighash) keys
    obtain ⟨l2, h3⟩ := calls_reauth h2
    obtain ⟨g1, g2, g3⟩ := hx
    obtain ⟨k1, k2, k3, k4⟩ := finalize_valid ((SigningInv.prepare (P := P) (sighash := sighash) g1 rng).calls h2) h
    refine ⟨k1, k2, ?_, k4.trans ((Reauth.toInstances h3).trans ((Reauth.toInstances h1).trans g3))⟩
    rw [k3, h3.2.2.2.2.2, h1.2.2.2.2.2]
    exact g2

/-- **C17** (authorised bundles). Every authorised bundle reached from a bundle of the builder, by any
history with any keys, generators and external signatures, has valid spend authorisation signatures and
a valid binding signature for the sighash; if moreover the proof system accepts what its prover makes
for this bundle, it is valid as a whole. -/
theorem C17_authorized (P : Prims) (tryFrom : I64 → Option V) (into : V → I64)
    (hconv : ∀ i v, tryFrom i = some v → into v = i) (rng : BuildDraws) (anchor : Fp)
    (ty : BundleType) (spends : List SpendInfo) (hs : ∀ s ∈ spends, s.dummySk = none)
    (outputs : List OutputInfo) (b : UnauthorizedBundle V) (m : BundleMetadata)
    (h : bundle P tryFrom rng anchor ty spends outputs = .ok (some (b, m))) {Rnd : Type}
    (prover : Rnd → List Circuit → List (List Fp) → Except ProofError (List UInt8))
    (sighash : Bytes 32) (b' : AuthorizedBundle V)
    (hist : Relation.ReflTransGen (Spec.PhaseStep P prover sighash) (.built b) (.authorized b')) :
    (∀ a ∈ b'.actions, a.rk.verify P sighash.toList a.authorization = true) ∧
    (⟨Spec.bindingKey into b'⟩ : VerificationKey .binding).verify P sighash.toList
      b'.authorization.bindingSignature = true ∧
    ∀ verifier : List (List Fp) → List UInt8 → Bool,
      (∀ rnd xs proof, b.toInstances.mapM Instance.toHalo2 = .ret xs →
        prover rnd b.authorization.proof.circuits xs = .ok proof → verifier xs proof = true) →
      Spec.BundleValid P verifier into b' sighash := by
  have hinv : PhaseInv P into prover sighash b (.authorized b') := by
    have h0 : PhaseInv P into prover sighash b (.built b) :=
      ⟨C17_built_signable P tryFrom into hconv rng anchor ty spends hs outputs b m h, rfl, rfl⟩
    revert h0
    generalize Spec.Phase.built b = x at hist
    generalize Spec.Phase.authorized b' = y at hist
    intro h0
    induction hist with
    | refl => exact h0
    | tail _ h ih => exact step_inv h ih
  obtain ⟨k1, k2, ⟨rnd, xs, k3, k4⟩, k5⟩ := hinv
  refine ⟨k1, k2, fun verifier hv => ⟨k1, k2, ?_⟩⟩
  unfold Bundle.verifyProof proofVerify
  rw [k5, k3]
  show Outcome.ret (verifier xs b'.authorization.proof) = _
  rw [hv rnd xs _ k3 k4]

/-- **C20** (builder). A bundle of the builder, once proven, is authorised by `apply_signatures` if
the given keys contain those of all requested spends. -/
theorem C20_builder (P : Prims) (tryFrom : I64 → Option V) (rng : BuildDraws) (anchor : Fp)
    (ty : BundleType) (spends : List SpendInfo)
    (outputs : List OutputInfo) (b : UnauthorizedBundle V) (m : BundleMetadata)
    (h : bundle P tryFrom rng anchor ty spends outputs = .ok (some (b, m)))
    (prover : List Circuit → List (List Fp) → Except ProofError (List UInt8))
    (b1 : Bundle (InProgress (List UInt8) Unauthorized) SigningMetadata V)
    (h1 : b.createProof prover = .ok b1) (srng : SignRng) (sighash : Bytes 32)
    (keys : List SpendAuthorizingKey)
    (hk : ∀ s ∈ spends, ∃ ask ∈ keys, s.fvk.ak.point = ask.s • Constants.spendAuthG) :
    ∃ b', b1.applySignatures P srng sighash keys = .ret (.ok b') := by
  rw [(C20_apply_signatures P b1 srng sighash keys).1]
  obtain ⟨_, _, -, -, h3⟩ := ((C21_create_proof _ _).2.2.1 _).1 h1
  obtain ⟨rows, hp⟩ := C08_each_once h
  intro a' ha' hd
  obtain ⟨k, hk0⟩ := List.mem_iff_getElem?.1 ha'
  obtain ⟨a, g1, -, g3⟩ := Reauth.get h3 hk0
  rw [Spec.slots, List.getElem?_map, g1, Option.map_some, Option.some.injEq] at g3
  rw [← g3] at hd ⊢
  have hf := hp.explains.1
  obtain ⟨hk1, g1⟩ := List.getElem?_eq_some_iff.1 g1
  have hk2 : k < rows.length := by rw [hf.length_eq]; exact hk1
  have hr := hf.get hk2 hk1
  simp only [List.get_eq_getElem, g1] at hr
  obtain ⟨dS, q1, -, q3⟩ := hp.spends
  have hmem : rows[k].spend ∈ spends ++ dS :=
    q1.mem_iff.1 (List.mem_map_of_mem (List.getElem_mem hk2))
  rw [hr.parts]
  rcases List.mem_append.1 hmem with hm | hm
  · exact hk _ hm
  · exfalso
    obtain ⟨j, hj⟩ := List.mem_iff_getElem?.1 hm
    obtain ⟨-, -, -, -, -, -, -, -, sk, k1, -⟩ := q3 j _ hj
    obtain ⟨ask, e1, -⟩ := hr.dummyKey sk k1
    rw [hd] at e1; cases e1

/-- **C17** (reachability). From a bundle of the builder none of whose `rk` is the identity, with a
prover that succeeds and with the keys of all requested spends, an authorised bundle is reached. -/
theorem C17_reachable (P : Prims) (tryFrom : I64 → Option V) (rng : BuildDraws) (anchor : Fp)
    (ty : BundleType) (spends : List SpendInfo)
    (outputs : List OutputInfo) (b : UnauthorizedBundle V) (m : BundleMetadata)
    (h : bundle P tryFrom rng anchor ty spends outputs = .ok (some (b, m))) {Rnd : Type}
    (prover : Rnd → List Circuit → List (List Fp) → Except ProofError (List UInt8)) (rnd : Rnd)
    (hp : ∀ xs, ∃ proof, prover rnd b.authorization.proof.circuits xs = .ok proof)
    (hrk : ∀ a ∈ b.actions, a.rk.point ≠ 0) (srng : SignRng) (sighash : Bytes 32)
    (keys : List SpendAuthorizingKey)
    (hk : ∀ s ∈ spends, ∃ ask ∈ keys, s.fvk.ak.point = ask.s • Constants.spendAuthG) :
    ∃ b', Relation.ReflTransGen (Spec.PhaseStep P prover sighash) (.built b) (.authorized b') := by
  obtain ⟨c1, c2, c3, c4⟩ := C21_create_proof (prover rnd) b
  cases hc : b.createProof (prover rnd) with
  | panic =>
    obtain ⟨a, ha, h0⟩ := c1.1 hc
    exact absurd h0 (hrk a ha)
  | more => exact absurd hc c4
  | err e =>
    obtain ⟨xs, e', -, h2, -⟩ := (c2 e).1 hc
    obtain ⟨pr, h3⟩ := hp xs
    rw [h2] at h3; cases h3
  | ok b1 =>
    obtain ⟨b', h2⟩ := C20_builder P tryFrom rng anchor ty spends outputs b m h (prover rnd) b1 hc srng
      sighash keys hk
    exact ⟨b', .tail (.tail .refl (.prove rnd hc)) (.apply srng keys h2)⟩

end

/-! ### Concrete cases -/

namespace Examples

/-- C17, C21: under `P0`, the bundle of `built_P0` is taken to an authorised bundle. -/
example (sighash : Bytes 32) (srng : SignRng) :
    ∃ (b : UnauthorizedBundle I64) (b' : AuthorizedBundle I64), b.actions.length = 2 ∧
      Spec.Signable id b ∧
      Relation.ReflTransGen (Spec.PhaseStep P0 (fun (_ : Unit) _ _ => .ok [1, 2, 3]) sighash)
        (.built b) (.authorized b') := by
  obtain ⟨s, anchor, b, m, -, hr, hb, hl⟩ := built_P0 (fun _ => 0) (fun _ => 0)
  obtain ⟨rows, hp⟩ := C08_each_once hb
  have hrk : ∀ a ∈ b.actions, a.rk.point ≠ 0 := by
    intro a ha
    obtain ⟨k, hk⟩ := List.mem_iff_getElem?.1 ha
    have hf := hp.explains.1
    obtain ⟨hk1, g1⟩ := List.getElem?_eq_some_iff.1 hk
    have hk2 : k < rows.length := by rw [hf.length_eq]; exact hk1
    have hr0 := hf.get hk2 hk1
    simp only [List.get_eq_getElem, g1] at hr0
    have hal : rows[k].alpha = 0 := (hp.randomness k _ (List.getElem?_eq_getElem hk2)).2.1
    rw [hr0.rk, hal, Orchard.zero_smul, add_zero]
    obtain ⟨dS, q1, -, q3⟩ := hp.spends
    have hmem : rows[k].spend ∈ [s] ++ dS :=
      q1.mem_iff.1 (List.mem_map_of_mem (List.getElem_mem hk2))
    rcases List.mem_append.1 hmem with hm | hm
    · rw [List.mem_singleton.1 hm]
      exact hr.2.1.1
    · obtain ⟨j, hj⟩ := List.mem_iff_getElem?.1 hm
      obtain ⟨-, -, -, -, -, -, hv, -⟩ := q3 j _ hj
      exact hv.1
  obtain ⟨k, hk⟩ := exists_smul_of_ne_zero Constants.spendAuthG_ne_zero s.fvk.ak.point
  obtain ⟨b', hb'⟩ := C17_reachable P0 some _ anchor .DEFAULT [s] _ b m hb
    (fun (_ : Unit) _ _ => .ok [1, 2, 3]) () (fun _ => ⟨_, rfl⟩) hrk srng sighash [⟨k⟩]
    (by intro s' hs'; rw [List.mem_singleton.1 hs']; exact ⟨_, List.mem_singleton.2 rfl, hk⟩)
  exact ⟨b, b', hl, C17_built_signable P0 some id (by intro i v h; cases h; rfl) _ anchor .DEFAULT [s]
    (by intro s' hs'; rw [List.mem_singleton.1 hs']; exact hr.1) _ b m hb, hb'⟩

/-- An action of a bundle in the making that spends a note of the key `[k] G`. -/
noncomputable def signingAction (k α : Fq) (dummy : Bool) : Action SigningMetadata :=
  { exampleAction ⟨if dummy then some ⟨k⟩ else none, ⟨(⟨k⟩ : SpendAuthorizingKey).vk, α⟩⟩ with
      rk := ((⟨k⟩ : SpendAuthorizingKey).vk).randomize α, cvNet := ⟨(5 : Fq) • Constants.valueCommitR⟩ }

/-- A proven bundle with one dummy (key 7) and two real spends with the keys 11 and `k`. -/
noncomputable def signingBundle (k : Fq) (bsk : Fq) :
    Bundle (InProgress (List UInt8) Unauthorized) SigningMetadata I64 :=
  { actions := [signingAction 7 1 true, signingAction 11 2 false, signingAction k 2 false]
    nonempty := by simp
    flags := .ENABLED
    valueBalance := ⟨0, by norm_num, by norm_num⟩
    anchor := 3
    authorization := ⟨[1, 2, 3], ⟨⟨bsk⟩⟩⟩ }

/-- The hypothesis of `C17_history` is met. -/
theorem signable (k : Fq) : Spec.Signable id (signingBundle k 15) := by
  refine ⟨?_, ?_, ?_⟩
  · intro a ha
    simp only [signingBundle, List.mem_cons, List.not_mem_nil, or_false] at ha
    rcases ha with rfl | rfl | rfl <;> rfl
  · intro a ha ask h
    simp only [signingBundle, List.mem_cons, List.not_mem_nil, or_false] at ha
    rcases ha with rfl | rfl | rfl
    · have h' : (some (⟨7⟩ : SpendAuthorizingKey)) = some ask := h
      cases h'; rfl
    · cases h
    · cases h
  · show (15 : Fq) • Constants.valueCommitR = _
    simp only [Spec.bindingKey, signingBundle, signingAction, List.map_cons, List.map_nil,
      List.sum_cons, List.sum_nil, id, Int.cast_zero, Orchard.zero_smul]
    module

/-- C20: both keys needed are given, in any order; the run succeeds. -/
example (P : Prims) (rng : SignRng) (sighash : Bytes 32) :
    ∃ b', (signingBundle 13 15).applySignatures P rng sighash [⟨13⟩, ⟨4⟩, ⟨11⟩] = .ret (.ok b') := by
  rw [(C20_apply_signatures P _ rng sighash _).1]
  intro a ha hd
  simp only [signingBundle, List.mem_cons, List.not_mem_nil, or_false] at ha
  rcases ha with rfl | rfl | rfl
  · cases hd
  · exact ⟨⟨11⟩, by simp, rfl⟩
  · exact ⟨⟨13⟩, by simp, rfl⟩

/-- C20, C16: a key is missing. -/
example (P : Prims) (rng : SignRng) (sighash : Bytes 32) :
    (signingBundle 13 15).applySignatures P rng sighash [⟨11⟩, ⟨7⟩] =
      .ret (.error .missingSignatures) := by
  apply (C20_apply_signatures P _ rng sighash _).2
  rw [(C20_apply_signatures P _ rng sighash _).1]
  intro h
  obtain ⟨ask, h1, h2⟩ := h (signingAction 13 2 false) (by simp [signingBundle]) rfl
  have h2' : (13 : Fq) • Constants.spendAuthG = ask.s • Constants.spendAuthG := h2
  rw [← sub_eq_zero, ← sub_smul, smul_eq_zero_iff'] at h2'
  rcases h2' with h2' | h2'
  · rw [sub_eq_zero] at h2'
    simp only [List.mem_cons, List.not_mem_nil, or_false] at h1
    rcases h1 with rfl | rfl
    · exact absurd h2' (by decide +kernel)
    · exact absurd h2' (by decide +kernel)
  · exact Constants.spendAuthG_ne_zero h2'

/-- The slots after `prepare`: the dummy is signed. -/
theorem slots_prepare (P : Prims) (k : Fq) (rng : SignRng) (sighash : Bytes 32) :
    Spec.slots ((signingBundle k 15).prepare P rng sighash).1 =
      [.signature ((⟨7 + 1⟩ : SigningKey .spendAuth).sign P (rng.block 0) sighash.toList),
        .signingMetadata ⟨(⟨11⟩ : SpendAuthorizingKey).vk, 2⟩,
        .signingMetadata ⟨(⟨k⟩ : SpendAuthorizingKey).vk, 2⟩] := rfl

/-- C19: with one slot still open, an external signature made with its key is attached to it. -/
example (P : Prims) (rng rng' : SignRng) (rnd : Bytes 80) (sighash : Bytes 32) :
    let s := (((signingBundle 13 15).prepare P rng sighash).1.sign P rng' ⟨11⟩).1
    ∃ b', s.appendSignatures P [(⟨13 + 2⟩ : SigningKey .spendAuth).sign P rnd sighash.toList] = .ok b' ∧
      (Spec.slots b')[2]? = some (.signature ((⟨13 + 2⟩ : SigningKey .spendAuth).sign P rnd
        sighash.toList)) := by
  intro s
  have hs : ∃ x y, Spec.slots s = [.signature x, .signature y,
      .signingMetadata ⟨(⟨13⟩ : SpendAuthorizingKey).vk, 2⟩] := by
    obtain ⟨l, h1, h2, h3, h4, -⟩ := C18_sign P ((signingBundle 13 15).prepare P rng sighash).1 rng' ⟨11⟩
    have e : Spec.slots s = l := h1.2.1
    have hsl := slots_prepare P 13 rng sighash
    have g0 := h3 0 _ (by rw [hsl]; rfl) (by rintro ⟨_, h, -⟩; cases h)
    have g1 := h4 1 _ (by rw [hsl]; rfl) rfl
    have g2 := h3 2 (.signingMetadata ⟨(⟨13⟩ : SpendAuthorizingKey).vk, 2⟩) (by rw [hsl]; rfl) (by
      rintro ⟨p, h, h'⟩
      cases h
      have h2' : (13 : Fq) • Constants.spendAuthG = (11 : Fq) • Constants.spendAuthG := h'
      rw [← sub_eq_zero, ← sub_smul, smul_eq_zero_iff'] at h2'
      rcases h2' with h2' | h2'
      · exact absurd h2' (by decide +kernel)
      · exact Constants.spendAuthG_ne_zero h2')
    rw [hsl] at h2
    rw [e]
    match l, h2, g0, g1, g2 with
    | [a, b, c], _, g0, g1, g2 =>
      simp only [List.getElem?_cons_zero, List.getElem?_cons_succ, Option.some.injEq] at g0 g1 g2
      exact ⟨_, _, by rw [g0, g1, g2]⟩
  obtain ⟨x, y, hs⟩ := hs
  have hh : s.authorization.sigs.sighash = sighash := rfl
  have hv : Spec.ValidFor P sighash (Spec.slots s)
      ((⟨13 + 2⟩ : SigningKey .spendAuth).sign P rnd sighash.toList) 2 := by
    rw [validFor_iff, hs]
    refine ⟨_, rfl, ?_⟩
    simp only
    rw [← randomize_vk]
    exact verify_sign P _ rnd _
  have hu : ∀ j, Spec.ValidFor P sighash (Spec.slots s)
      ((⟨13 + 2⟩ : SigningKey .spendAuth).sign P rnd sighash.toList) j → j = 2 := by
    rintro j ⟨parts, hj, -⟩
    rw [hs] at hj
    match j, hj with
    | 0, hj => cases hj
    | 1, hj => cases hj
    | 2, _ => rfl
    | j + 3, hj => simp at hj
  have hap := Spec.Appends.attach (r := .ok _) 2 hv hu (.done _)
  have hlen : ((Spec.slots s).set 2 (.signature
      ((⟨13 + 2⟩ : SigningKey .spendAuth).sign P rnd sighash.toList))).length = s.actions.length := by
    rw [List.length_set, Spec.slots, List.length_map]
  obtain ⟨b', hb'⟩ := exists_reauthorized s _ s.authorization hlen
  refine ⟨b', ((C19_append_signatures P s _).1 b').2 ⟨_, hap, hb'⟩, ?_⟩
  rw [show Spec.slots b' = _ from hb'.2.1, hs]
  rfl

/-- C19: a signature that is valid for two open slots (same key and randomiser) is refused. -/
example (P : Prims) (rng : SignRng) (rnd : Bytes 80) (sighash : Bytes 32) :
    ((signingBundle 11 15).prepare P rng sighash).1.appendSignatures P
      [(⟨11 + 2⟩ : SigningKey .spendAuth).sign P rnd sighash.toList] = .error .duplicateSignature := by
  rw [(C19_append_signatures P _ _).2]
  have hv : (((⟨11⟩ : SpendAuthorizingKey).vk).randomize 2).verify P sighash.toList
      ((⟨11 + 2⟩ : SigningKey .spendAuth).sign P rnd sighash.toList) = true := by
    rw [← randomize_vk]
    exact verify_sign P _ rnd _
  refine .duplicate 1 2 (by decide) (validFor_iff.2 ⟨⟨(⟨11⟩ : SpendAuthorizingKey).vk, 2⟩, ?_, hv⟩)
    (validFor_iff.2 ⟨⟨(⟨11⟩ : SpendAuthorizingKey).vk, 2⟩, ?_, hv⟩)
  · rw [slots_prepare]; rfl
  · rw [slots_prepare]; rfl

end Examples

end Orchard
