import Verif.Lemmas.Nonces

/-!
# Property C77: no two signatures of a bundle are made with the same randomness

A signing generator is a stream of 80-byte blocks (`SignRng`); one block goes into each signature's
nonce.  Two signatures with one key and one nonce give away the key.  The theorems say which block each
signature of a bundle uses, and that no block is used twice: neither for two actions, nor for an action
and the binding signature, over `prepare` and any number of calls of `sign` that go on with the
generator, and so for `apply_signatures`.
-/

namespace Orchard

open RedPallas

variable {Pf V : Type}

/-- **C77** (`prepare`, then `sign` with any keys, going on with the same generator). The binding
signature uses block `nonce none`, the signature of action `i` uses block `nonce (some i)`; these are
different blocks, and none of them is still to come from the generator that is given back. -/
theorem C77_prepare_sign (P : Prims) (b : Bundle (InProgress Pf Unauthorized) SigningMetadata V)
    (rng : SignRng) (sighash : Bytes 32) (keys : List SpendAuthorizingKey)
    (s : SigningBundle Pf V × SignRng)
    (h : s = keys.foldl (fun s ask => s.1.sign P s.2 ask) (b.prepare P rng sighash)) :
    ∃ (nonce : Option ℕ → ℕ) (N : ℕ),
      s.1.authorization.sigs.bindingSignature =
        b.authorization.sigs.bsk.sign P (rng.block (nonce none)) sighash.toList ∧
      (∀ (i : ℕ) (a : Action SigningMetadata) (a' : Action MaybeSigned) (sig : Signature .spendAuth),
        b.actions[i]? = some a → s.1.actions[i]? = some a' → a'.authorization = .signature sig →
        ∃ ask : SpendAuthorizingKey, (a.authorization.dummyAsk = some ask ∨
            (a.authorization.dummyAsk = none ∧ ask ∈ keys ∧
              a.authorization.parts.ak.point = ask.s • Constants.spendAuthG)) ∧
          sig = (⟨ask.s + a.authorization.parts.alpha⟩ : SigningKey .spendAuth).sign P
            (rng.block (nonce (some i))) sighash.toList) ∧
      Set.InjOn nonce {x | ∀ i, x = some i → ∃ a' sig, s.1.actions[i]? = some a' ∧
        a'.authorization = .signature sig} ∧
      (∀ x, (∀ i, x = some i → ∃ a' sig, s.1.actions[i]? = some a' ∧ a'.authorization = .signature sig) →
        nonce x < N) ∧
      ∀ n, s.2.block n = rng.block (n + N) := by
  have h0 := nonceState_prepare P b rng sighash
  obtain ⟨nonce, N, h1⟩ := nonceState_signAll keys [] h0
  rw [List.nil_append] at h1
  have e : signAll P (b.prepare P rng sighash) keys = s := h.symm
  rw [e] at h1
  have slot : ∀ {i : ℕ} {a' : Action MaybeSigned}, s.1.actions[i]? = some a' →
      (Spec.slots s.1)[i]? = some a'.authorization := by
    intro i a' h
    rw [Spec.slots, List.getElem?_map, h, Option.map_some]
  have signed : ∀ {i : ℕ} {m : MaybeSigned} {sig : Signature .spendAuth},
      (Spec.slots s.1)[i]? = some m → m = .signature sig →
      nonce (some i) < N ∧ nonce (some i) ≠ nonce none := by
    intro i m sig hm hs
    obtain ⟨a, -, ⟨-, e⟩ | ⟨_, -, -, h3⟩⟩ := h1.slot i m hm
    · rw [e] at hs; cases hs
    · exact h3
  refine ⟨nonce, N, h1.binding, ?_, ?_, ?_, h1.rest⟩
  · intro i a a' sig ha ha' hs
    obtain ⟨a0, ha0, ⟨-, e⟩ | ⟨ask, h2, h3, -⟩⟩ := h1.slot i _ (slot ha')
    · rw [hs] at e; cases e
    · rw [ha, Option.some.injEq] at ha0
      subst ha0
      rw [hs, MaybeSigned.signature.injEq] at h3
      exact ⟨ask, h2, h3⟩
  · rintro (_ | i) hx (_ | j) hy he
    · rfl
    · obtain ⟨a', sig, ha', hs⟩ := hy j rfl
      exact absurd he.symm (signed (slot ha') hs).2
    · obtain ⟨a', sig, ha', hs⟩ := hx i rfl
      exact absurd he (signed (slot ha') hs).2
    · obtain ⟨a', sig, ha', hs⟩ := hx i rfl
      obtain ⟨a'', sig', ha'', hs'⟩ := hy j rfl
      rw [h1.inj i j _ _ (slot ha') (slot ha'') ⟨sig, hs⟩ ⟨sig', hs'⟩ he]
  · rintro (_ | i) hx
    · exact h1.used
    · obtain ⟨a', sig, ha', hs⟩ := hx i rfl
      exact (signed (slot ha') hs).1

/-- **C77** (`apply_signatures`). In the authorised bundle the binding signature and the signatures of
the actions are made, each with the key it should be made with, from blocks of the generator that are
all different. -/
theorem C77_apply_signatures (P : Prims)
    (b : Bundle (InProgress (List UInt8) Unauthorized) SigningMetadata V) (rng : SignRng)
    (sighash : Bytes 32) (keys : List SpendAuthorizingKey) (b' : AuthorizedBundle V)
    (h : b.applySignatures P rng sighash keys = .ret (.ok b')) :
    ∃ nonce : Option (Fin b'.actions.length) → ℕ, Function.Injective nonce ∧
      b'.authorization.bindingSignature =
        b.authorization.sigs.bsk.sign P (rng.block (nonce none)) sighash.toList ∧
      ∀ i : Fin b'.actions.length, ∃ (a : Action SigningMetadata) (ask : SpendAuthorizingKey),
        b.actions[i.val]? = some a ∧
        (a.authorization.dummyAsk = some ask ∨ (a.authorization.dummyAsk = none ∧ ask ∈ keys ∧
          a.authorization.parts.ak.point = ask.s • Constants.spendAuthG)) ∧
        b'.actions[i].authorization =
          (⟨ask.s + a.authorization.parts.alpha⟩ : SigningKey .spendAuth).sign P
            (rng.block (nonce (some i))) sighash.toList := by
  have e : b.applySignatures P rng sighash keys =
    (signAll P (b.prepare P rng sighash) keys).1.finalize := rfl
  rw [e] at h
  have h0 := nonceState_prepare P b rng sighash
  obtain ⟨nonce, N, h1⟩ := nonceState_signAll keys [] h0
  rw [List.nil_append] at h1
  generalize signAll P (b.prepare P rng sighash) keys = s at *
  obtain ⟨sigs, hs, hr⟩ := ((C16_finalize s.1).1 b').1 h
  have hsl : ∀ i : Fin b'.actions.length,
      (Spec.slots s.1)[i.val]? = some (.signature b'.actions[i].authorization) := by
    intro i
    obtain ⟨a0, -, -, g⟩ := Reauth.get hr (List.getElem?_eq_getElem i.isLt)
    rw [hs, List.getElem?_map, g]; rfl
  refine ⟨fun x => nonce (x.map Fin.val), ?_, ?_, ?_⟩
  · have hne : ∀ i : Fin b'.actions.length, nonce (some i.val) ≠ nonce none := by
      intro i
      obtain ⟨a, -, ⟨-, e⟩ | ⟨_, -, -, -, h3⟩⟩ := h1.slot i _ (hsl i)
      · cases e
      · exact h3
    rintro (_ | i) (_ | j) he
    · rfl
    · exact absurd he.symm (hne j)
    · exact absurd he (hne i)
    · exact congrArg some (Fin.ext (h1.inj i j _ _ (hsl i) (hsl j) ⟨_, rfl⟩ ⟨_, rfl⟩ he))
  · rw [hr.2.2.2.2.2]
    exact h1.binding
  · intro i
    obtain ⟨a, ha, ⟨-, e⟩ | ⟨ask, h2, h3, -⟩⟩ := h1.slot i _ (hsl i)
    · cases e
    · exact ⟨a, ask, ha, h2, by rw [MaybeSigned.signature.injEq] at h3; exact h3⟩

namespace Examples

/-- C77: a bundle with a dummy and two real spends, signed with three keys one of which is not needed;
the four signatures use four different blocks. -/
example (P : Prims) (rng : SignRng) (sighash : Bytes 32) :
    ∃ b', (signingBundle 13 15).applySignatures P rng sighash [⟨13⟩, ⟨4⟩, ⟨11⟩] = .ret (.ok b') ∧
      ∃ nonce : Option (Fin b'.actions.length) → ℕ, Function.Injective nonce ∧
        b'.authorization.bindingSignature =
          (⟨15⟩ : SigningKey .binding).sign P (rng.block (nonce none)) sighash.toList := by
  have h : ∃ b', (signingBundle 13 15).applySignatures P rng sighash [⟨13⟩, ⟨4⟩, ⟨11⟩] =
      .ret (.ok b') := by
    rw [(C20_apply_signatures P _ rng sighash _).1]
    intro a ha hd
    simp only [signingBundle, List.mem_cons, List.not_mem_nil, or_false] at ha
    rcases ha with rfl | rfl | rfl
    · cases hd
    · exact ⟨⟨11⟩, by simp, rfl⟩
    · exact ⟨⟨13⟩, by simp, rfl⟩
  obtain ⟨b', hb'⟩ := h
  obtain ⟨nonce, h1, h2, -⟩ := C77_apply_signatures P _ rng sighash _ b' hb'
  exact ⟨b', hb', nonce, h1, h2⟩

end Examples

end Orchard
