import Verif.Props.Signing

/-! # Lemmas on the blocks of the generator that signatures use -/

namespace Orchard

open RedPallas

variable {Pf V : Type}

/-- Positions before `j` with a property are more than those before `i`, if `i` is one of them. -/
theorem countP_take_lt {A : Type} (p : A → Bool) {l : List A} {i j : ℕ} {a : A} (hi : l[i]? = some a)
    (ha : p a = true) (hij : i < j) : (l.take i).countP p < (l.take j).countP p := by
  have h1 : (l.take (i + 1)).countP p = (l.take i).countP p + 1 := by
    rw [List.take_add_one, hi, List.countP_append]
    simp [ha]
  have h2 : (l.take (i + 1)).countP p ≤ (l.take j).countP p :=
    (List.take_sublist_take_left (Nat.succ_le_of_lt hij)).countP_le
  omega

/-- The same for two positions with the property: equal counts, equal positions. -/
theorem countP_take_inj {A : Type} (p : A → Bool) {l : List A} {i j : ℕ} {a b : A} (hi : l[i]? = some a)
    (ha : p a = true) (hj : l[j]? = some b) (hb : p b = true)
    (h : (l.take i).countP p = (l.take j).countP p) : i = j := by
  rcases Nat.lt_trichotomy i j with hlt | rfl | hlt
  · have := countP_take_lt p hi ha hlt; omega
  · rfl
  · have := countP_take_lt p hj hb hlt; omega

theorem countP_take_lt_countP {A : Type} (p : A → Bool) {l : List A} {i : ℕ} {a : A}
    (hi : l[i]? = some a) (ha : p a = true) : (l.take i).countP p < l.countP p := by
  have := countP_take_lt p hi ha (List.getElem?_eq_some_iff.1 hi).1
  rwa [List.take_length] at this

/-- What is known of a bundle that was prepared with `rng` and signed with some of `keys`: `N` blocks
are used up, the binding signature was made with the block `nonce none`, the signature of action `i`
with the block `nonce (some i)`, and all these blocks are different. -/
structure NonceState (P : Prims) (b : Bundle (InProgress Pf Unauthorized) SigningMetadata V)
    (rng : SignRng) (sighash : Bytes 32) (keys : List SpendAuthorizingKey) (nonce : Option ℕ → ℕ) (N : ℕ)
    (s : SigningBundle Pf V × SignRng) : Prop where
  rest : ∀ n, s.2.block n = rng.block (n + N)
  hash : s.1.authorization.sigs.sighash = sighash
  binding : s.1.authorization.sigs.bindingSignature =
    b.authorization.sigs.bsk.sign P (rng.block (nonce none)) sighash.toList
  used : nonce none < N
  slot : ∀ (i : ℕ) (m : MaybeSigned), (Spec.slots s.1)[i]? = some m → ∃ a, b.actions[i]? = some a ∧
    ((a.authorization.dummyAsk = none ∧ m = .signingMetadata a.authorization.parts) ∨
      ∃ ask : SpendAuthorizingKey, (a.authorization.dummyAsk = some ask ∨
          (a.authorization.dummyAsk = none ∧ ask ∈ keys ∧
            a.authorization.parts.ak.point = ask.s • Constants.spendAuthG)) ∧
        m = .signature ((⟨ask.s + a.authorization.parts.alpha⟩ : SigningKey .spendAuth).sign P
          (rng.block (nonce (some i))) sighash.toList) ∧
        nonce (some i) < N ∧ nonce (some i) ≠ nonce none)
  inj : ∀ (i j : ℕ) (m m' : MaybeSigned), (Spec.slots s.1)[i]? = some m →
    (Spec.slots s.1)[j]? = some m' → Spec.IsSigned m → Spec.IsSigned m' →
    nonce (some i) = nonce (some j) → i = j

theorem nonceState_mono {P : Prims} {b : Bundle (InProgress Pf Unauthorized) SigningMetadata V}
    {rng : SignRng} {sighash : Bytes 32} {keys keys' : List SpendAuthorizingKey} {nonce : Option ℕ → ℕ}
    {N : ℕ} {s : SigningBundle Pf V × SignRng} (hk : ∀ k ∈ keys, k ∈ keys')
    (h : NonceState P b rng sighash keys nonce N s) : NonceState P b rng sighash keys' nonce N s := by
  refine ⟨h.rest, h.hash, h.binding, h.used, fun i m hm => ?_, h.inj⟩
  obtain ⟨a, ha, hh | ⟨ask, h1, h2⟩⟩ := h.slot i m hm
  · exact ⟨a, ha, .inl hh⟩
  · refine ⟨a, ha, .inr ⟨ask, ?_, h2⟩⟩
    rcases h1 with h1 | ⟨h1, h3, h4⟩
    · exact .inl h1
    · exact .inr ⟨h1, hk _ h3, h4⟩

/-- The blocks used by `prepare`: one for each dummy, in order, then one for the binding signature. -/
def prepareNonce (l : List SigningMetadata) : Option ℕ → ℕ
  | none => l.countP fun m => m.dummyAsk.isSome
  | some i => (l.take i).countP fun m => m.dummyAsk.isSome

/-- The state after `prepare`. -/
theorem nonceState_prepare (P : Prims) (b : Bundle (InProgress Pf Unauthorized) SigningMetadata V)
    (rng : SignRng) (sighash : Bytes 32) :
    NonceState P b rng sighash [] (prepareNonce (Spec.slots b))
      (1 + (Spec.slots b).countP fun m => m.dummyAsk.isSome) (b.prepare P rng sighash) := by
  obtain ⟨l, h1, h2, h3⟩ := prepare_spec P b rng sighash
  have hsl : Spec.slots (b.prepare P rng sighash).1 = l := h1.2.1
  have hau := h1.2.2.2.2.2
  have get : ∀ (i : ℕ) (m : MaybeSigned), l[i]? = some m → ∃ a, b.actions[i]? = some a ∧
      (Spec.slots b)[i]? = some a.authorization ∧
      m = preparedSlot P sighash a.authorization
        (rng.block (((Spec.slots b).take i).countP fun m => m.dummyAsk.isSome)) := by
    intro i m hm
    rw [h2] at hm
    cases ha : b.actions[i]? with
    | none => simp [Spec.slots, ha] at hm
    | some a =>
      have hs : (Spec.slots b)[i]? = some a.authorization := by
        rw [Spec.slots, List.getElem?_map, ha, Option.map_some]
      rw [hs, Option.map_some, Option.some.injEq] at hm
      exact ⟨a, rfl, hs, hm.symm⟩
  refine ⟨?_, ?_, ?_, ?_, ?_, ?_⟩
  · intro n; rw [h3, Nat.add_assoc]
  · rw [hau]
  · rw [hau]; rfl
  · simp only [prepareNonce]; omega
  · intro i m hm
    rw [hsl] at hm
    obtain ⟨a, ha, hs, rfl⟩ := get i m hm
    refine ⟨a, ha, ?_⟩
    cases hd : a.authorization.dummyAsk with
    | none => exact .inl ⟨rfl, by rw [preparedSlot, hd]⟩
    | some ask =>
      have hlt := countP_take_lt_countP (fun m : SigningMetadata => m.dummyAsk.isSome) hs
        (by simp only [hd, Option.isSome_some])
      refine .inr ⟨ask, .inl rfl, ?_, ?_, ?_⟩
      · rw [preparedSlot, hd]; rfl
      · simp only [prepareNonce]; omega
      · simp only [prepareNonce]; omega
  · intro i j m m' hm hm' hg hg' he
    rw [hsl] at hm hm'
    obtain ⟨a, -, hs, rfl⟩ := get i m hm
    obtain ⟨a', -, hs', rfl⟩ := get j m' hm'
    have hdum : ∀ (a : SigningMetadata) (r : Bytes 80), Spec.IsSigned (preparedSlot P sighash a r) →
        a.dummyAsk.isSome = true := by
      rintro a r ⟨s, h⟩
      unfold preparedSlot at h
      cases hd : a.dummyAsk with
      | none => rw [hd] at h; cases h
      | some _ => rfl
    exact countP_take_inj (fun m : SigningMetadata => m.dummyAsk.isSome) hs (hdum _ _ hg) hs'
      (hdum _ _ hg') he

open Classical in
/-- The blocks used after one more call of `sign`, when `N` blocks were used before. -/
noncomputable def signNonce (l : List MaybeSigned) (ask : SpendAuthorizingKey) (nonce : Option ℕ → ℕ)
    (N : ℕ) : Option ℕ → ℕ
  | none => nonce none
  | some i => if ∃ m, l[i]? = some m ∧ Spec.OpenFor ask m then
      (l.take i).countP (fun m => decide (Spec.OpenFor ask m)) + N else nonce (some i)

/-- One more call of `sign`. -/
theorem nonceState_sign {P : Prims} {b : Bundle (InProgress Pf Unauthorized) SigningMetadata V}
    {rng : SignRng} {sighash : Bytes 32} {keys : List SpendAuthorizingKey} {nonce : Option ℕ → ℕ}
    {N : ℕ} {s : SigningBundle Pf V × SignRng} (h : NonceState P b rng sighash keys nonce N s)
    (ask : SpendAuthorizingKey) :
    NonceState P b rng sighash (keys ++ [ask]) (signNonce (Spec.slots s.1) ask nonce N)
      ((Spec.slots s.1).countP (fun m => decide (Spec.OpenFor ask m)) + N) (s.1.sign P s.2 ask) := by
  obtain ⟨l, h1, h2, h3⟩ := sign_spec P s.1 s.2 ask
  have hsl : Spec.slots (s.1.sign P s.2 ask).1 = l := h1.2.1
  have hau := h1.2.2.2.2.2
  have h' := nonceState_mono (keys' := keys ++ [ask]) (fun k hk => List.mem_append_left _ hk) h
  set p : MaybeSigned → Bool := fun m => decide (Spec.OpenFor ask m) with hp
  have get : ∀ (i : ℕ) (m : MaybeSigned), l[i]? = some m → ∃ m0, (Spec.slots s.1)[i]? = some m0 ∧
      m = if Spec.OpenFor ask m0 then slotSignature P ask s.1.authorization.sigs.sighash m0
        (s.2.block (((Spec.slots s.1).take i).countP p)) else m0 := by
    intro i m hm
    rw [h2] at hm
    cases ha : (Spec.slots s.1)[i]? with
    | none => rw [ha] at hm; simp at hm
    | some a =>
      rw [ha, Option.map_some, Option.some.injEq] at hm
      exact ⟨a, rfl, hm.symm⟩
  let isOpen : ℕ → Prop := fun i => ∃ m, (Spec.slots s.1)[i]? = some m ∧ Spec.OpenFor ask m
  have hopen : ∀ {i m}, (Spec.slots s.1)[i]? = some m → (isOpen i ↔ Spec.OpenFor ask m) := by
    intro i m hm
    constructor
    · rintro ⟨m', hm', ho⟩
      rw [hm, Option.some.injEq] at hm'
      rw [hm']; exact ho
    · exact fun ho => ⟨m, hm, ho⟩
  classical
  have pos : ∀ {i}, isOpen i → signNonce (Spec.slots s.1) ask nonce N (some i) =
      ((Spec.slots s.1).take i).countP p + N := fun h => if_pos h
  have neg : ∀ {i}, ¬ isOpen i → signNonce (Spec.slots s.1) ask nonce N (some i) = nonce (some i) :=
    fun h => if_neg h
  have hnone : signNonce (Spec.slots s.1) ask nonce N none = nonce none := rfl
  refine ⟨?_, ?_, ?_, ?_, ?_, ?_⟩
  · intro n; rw [h3, h.rest, Nat.add_assoc]
  · rw [hau]; exact h.hash
  · rw [hau]; exact h.binding
  · exact Nat.lt_of_lt_of_le h.used (Nat.le_add_left _ _)
  · intro i m hm
    rw [hsl] at hm
    obtain ⟨m0, hm0, rfl⟩ := get i m hm
    by_cases ho : Spec.OpenFor ask m0
    · obtain ⟨a, ha, ⟨hd, rfl⟩ | ⟨ask', -, rfl, -⟩⟩ := h.slot i m0 hm0
      · have hlt := countP_take_lt_countP p hm0 (by simpa [hp] using ho)
        have hio := (hopen hm0).2 ho
        have hu := h.used
        refine ⟨a, ha, .inr ⟨ask, .inr ⟨hd, by simp, ?_⟩, ?_, ?_, ?_⟩⟩
        · obtain ⟨parts, e, hq⟩ := ho
          cases e; exact hq
        · rw [if_pos ho]
          rw [pos hio, h.hash, h.rest]; rfl
        · rw [pos hio]; omega
        · rw [pos hio, hnone]; omega
      · obtain ⟨_, e, -⟩ := ho
        cases e
    · have hio := fun h => ho ((hopen hm0).1 h)
      rw [if_neg ho]
      obtain ⟨a, ha, hh | ⟨ask', g1, g2, g3, g4⟩⟩ := h'.slot i m0 hm0
      · exact ⟨a, ha, .inl hh⟩
      · refine ⟨a, ha, .inr ⟨ask', g1, ?_, ?_, ?_⟩⟩
        · rw [neg hio]; exact g2
        · rw [neg hio]; omega
        · rw [neg hio]; exact g4
  · intro i j m m' hm hm' hg hg' he
    rw [hsl] at hm hm'
    obtain ⟨m0, hm0, rfl⟩ := get i m hm
    obtain ⟨m0', hm0', rfl⟩ := get j m' hm'
    have old : ∀ {i m0}, (Spec.slots s.1)[i]? = some m0 → Spec.IsSigned m0 → nonce (some i) < N := by
      intro i m0 hm0 hg
      obtain ⟨a, ha, ⟨-, rfl⟩ | ⟨ask', g1, g2, g3, g4⟩⟩ := h.slot i m0 hm0
      · obtain ⟨_, e⟩ := hg
        cases e
      · exact g3
    by_cases ho : Spec.OpenFor ask m0 <;> by_cases ho' : Spec.OpenFor ask m0'
    · rw [pos ((hopen hm0).2 ho), pos ((hopen hm0').2 ho')] at he
      exact countP_take_inj p hm0 (by simpa [hp] using ho) hm0' (by simpa [hp] using ho') (by omega)
    · rw [if_neg ho'] at hg'
      have := old hm0' hg'
      rw [pos ((hopen hm0).2 ho), neg (fun h => ho' ((hopen hm0').1 h))] at he
      omega
    · rw [if_neg ho] at hg
      have := old hm0 hg
      rw [neg (fun h => ho ((hopen hm0).1 h)), pos ((hopen hm0').2 ho')] at he
      omega
    · rw [if_neg ho] at hg
      rw [if_neg ho'] at hg'
      rw [neg (fun h => ho ((hopen hm0).1 h)), neg (fun h => ho' ((hopen hm0').1 h))] at he
      exact h.inj i j m0 m0' hm0 hm0' hg hg' he

/-- Any number of calls. -/
theorem nonceState_signAll {P : Prims} {b : Bundle (InProgress Pf Unauthorized) SigningMetadata V}
    {rng : SignRng} {sighash : Bytes 32} (keys' keys : List SpendAuthorizingKey) {nonce : Option ℕ → ℕ}
    {N : ℕ} {s : SigningBundle Pf V × SignRng} (h : NonceState P b rng sighash keys nonce N s) :
    ∃ nonce' N', NonceState P b rng sighash (keys ++ keys') nonce' N' (signAll P s keys') := by
  induction keys' generalizing keys nonce N s with
  | nil => exact ⟨nonce, N, by rw [List.append_nil]; exact h⟩
  | cons k ks ih =>
    have h1 := nonceState_sign h k
    obtain ⟨n2, N2, h2⟩ := ih _ h1
    exact ⟨n2, N2, by rw [List.append_assoc] at h2; exact h2⟩

end Orchard
