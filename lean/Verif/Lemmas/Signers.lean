import Verif.Lemmas.Nonces

/-! # Lemmas: which blocks signatures use does not depend on the generator and the message -/

namespace Orchard

open RedPallas

variable {Pf V : Type}

/-- What a slot still needs for its signature. -/
def shape : MaybeSigned → Option SigningParts
  | .signingMetadata parts => some parts
  | .signature _ => none

/-- `OpenFor`, in terms of `shape`. -/
def shapeOpen (ask : SpendAuthorizingKey) (x : Option SigningParts) : Prop :=
  ∃ parts, x = some parts ∧ parts.ak.point = ask.s • Constants.spendAuthG

theorem openFor_shape (ask : SpendAuthorizingKey) (m : MaybeSigned) :
    Spec.OpenFor ask m ↔ shapeOpen ask (shape m) := by
  constructor
  · rintro ⟨parts, rfl, h⟩
    exact ⟨parts, rfl, h⟩
  · rintro ⟨parts, h1, h2⟩
    cases m with
    | signature s => cases h1
    | signingMetadata p => cases h1; exact ⟨_, rfl, h2⟩

theorem countP_shape (ask : SpendAuthorizingKey) {l l' : List MaybeSigned}
    (h : l.map shape = l'.map shape) :
    l.countP (fun m => decide (Spec.OpenFor ask m)) = l'.countP fun m => decide (Spec.OpenFor ask m) := by
  classical
  have e : ∀ l : List MaybeSigned, l.countP (fun m => decide (Spec.OpenFor ask m)) =
      (l.map shape).countP fun x => decide (shapeOpen ask x) := by
    intro l
    rw [List.countP_map]
    refine List.countP_congr fun m _ => ?_
    simp only [Function.comp, decide_eq_true_eq, openFor_shape]
  rw [e, e, h]

theorem signNonce_shape (ask : SpendAuthorizingKey) {l l' : List MaybeSigned}
    (h : l.map shape = l'.map shape) (nonce : Option ℕ → ℕ) (N : ℕ) :
    signNonce l ask nonce N = signNonce l' ask nonce N := by
  funext x
  cases x with
  | none => rfl
  | some i =>
    have e : ∀ l : List MaybeSigned, (∃ m, l[i]? = some m ∧ Spec.OpenFor ask m) ↔
        ∃ x, (l.map shape)[i]? = some x ∧ shapeOpen ask x := by
      intro l
      rw [List.getElem?_map]
      cases l[i]? with
      | none => simp
      | some m => simp [openFor_shape]
    unfold signNonce
    have h2 : (l.take i).countP (fun m => decide (Spec.OpenFor ask m)) =
        (l'.take i).countP fun m => decide (Spec.OpenFor ask m) :=
      countP_shape ask (by rw [List.map_take, List.map_take, h])
    simp only []
    rw [h2]
    by_cases hx : ∃ m, l[i]? = some m ∧ Spec.OpenFor ask m
    · rw [if_pos hx, if_pos ((e l').2 (by rw [← h]; exact (e l).1 hx))]
    · rw [if_neg hx, if_neg (fun hy => hx ((e l).2 (by rw [h]; exact (e l').1 hy)))]

theorem sign_shape (P : Prims) (ask : SpendAuthorizingKey) {s s' : SigningBundle Pf V × SignRng}
    (h : (Spec.slots s.1).map shape = (Spec.slots s'.1).map shape) :
    (Spec.slots (s.1.sign P s.2 ask).1).map shape = (Spec.slots (s'.1.sign P s'.2 ask).1).map shape := by
  classical
  have e : ∀ s : SigningBundle Pf V × SignRng, (Spec.slots (s.1.sign P s.2 ask).1).map shape =
      ((Spec.slots s.1).map shape).map fun x => if shapeOpen ask x then none else x := by
    intro s
    obtain ⟨l, h1, h2, -⟩ := sign_spec P s.1 s.2 ask
    have hsl : Spec.slots (s.1.sign P s.2 ask).1 = l := h1.2.1
    rw [hsl]
    apply List.ext_getElem?
    intro i
    rw [List.getElem?_map, List.getElem?_map, List.getElem?_map, h2]
    cases (Spec.slots s.1)[i]? with
    | none => rfl
    | some m =>
      simp only [Option.map_some, Option.some.injEq]
      by_cases ho : Spec.OpenFor ask m
      · rw [if_pos ho, if_pos ((openFor_shape _ _).1 ho)]
        obtain ⟨parts, rfl, -⟩ := ho
        rfl
      · rw [if_neg ho, if_neg (fun h => ho ((openFor_shape _ _).2 h))]
  rw [e, e, h]

theorem prepare_shape (P : Prims) (b : Bundle (InProgress Pf Unauthorized) SigningMetadata V)
    (rng rng' : SignRng) (sighash sighash' : Bytes 32) :
    (Spec.slots (b.prepare P rng sighash).1).map shape =
      (Spec.slots (b.prepare P rng' sighash').1).map shape := by
  have e : ∀ rng sighash, (Spec.slots (b.prepare P rng sighash).1).map shape =
      (Spec.slots b).map fun m => if m.dummyAsk.isSome then none else some m.parts := by
    intro rng sighash
    obtain ⟨l, h1, h2, -⟩ := prepare_spec P b rng sighash
    have hsl : Spec.slots (b.prepare P rng sighash).1 = l := h1.2.1
    rw [hsl]
    apply List.ext_getElem?
    intro i
    rw [List.getElem?_map, List.getElem?_map, h2]
    cases (Spec.slots b)[i]? with
    | none => rfl
    | some m =>
      simp only [Option.map_some, Option.some.injEq, preparedSlot]
      cases m.dummyAsk <;> rfl
  rw [e, e]

/-- The blocks used by the signatures are the same for all generators and messages. -/
theorem nonceState_uniform (P : Prims) (b : Bundle (InProgress Pf Unauthorized) SigningMetadata V)
    (keys : List SpendAuthorizingKey) :
    ∃ nonce N, ∀ rng sighash,
      NonceState P b rng sighash keys nonce N (signAll P (b.prepare P rng sighash) keys) := by
  suffices H : ∀ (keys' keys : List SpendAuthorizingKey) (nonce : Option ℕ → ℕ) (N : ℕ)
      (S : SignRng → Bytes 32 → SigningBundle Pf V × SignRng),
      (∀ rng sighash, NonceState P b rng sighash keys nonce N (S rng sighash)) →
      (∀ rng sighash rng' sighash', (Spec.slots (S rng sighash).1).map shape =
        (Spec.slots (S rng' sighash').1).map shape) →
      ∃ nonce' N', ∀ rng sighash,
        NonceState P b rng sighash (keys ++ keys') nonce' N' (signAll P (S rng sighash) keys') from by
    exact H keys [] _ _ (fun rng sighash => b.prepare P rng sighash)
      (fun rng sighash => nonceState_prepare P b rng sighash)
      (fun rng sighash rng' sighash' => prepare_shape P b rng rng' sighash sighash')
  intro keys'
  induction keys' with
  | nil =>
    intro keys nonce N S h _
    exact ⟨nonce, N, fun rng sighash => by rw [List.append_nil]; exact h rng sighash⟩
  | cons k ks ih =>
    intro keys nonce N S h hs
    let r0 : SignRng := ⟨fun _ => default⟩
    obtain ⟨n2, N2, h2⟩ := ih (keys ++ [k]) (signNonce (Spec.slots (S r0 default).1) k nonce N)
      ((Spec.slots (S r0 default).1).countP (fun m => decide (Spec.OpenFor k m)) + N)
      (fun rng sighash => (S rng sighash).1.sign P (S rng sighash).2 k)
      (fun rng sighash => by
        have h1 := nonceState_sign (h rng sighash) k
        rw [signNonce_shape k (hs rng sighash r0 default), countP_shape k (hs rng sighash r0 default)] at h1
        exact h1)
      (fun rng sighash rng' sighash' => sign_shape P k (hs rng sighash rng' sighash'))
    refine ⟨n2, N2, fun rng sighash => ?_⟩
    have := h2 rng sighash
    rw [List.append_assoc] at this
    exact this

end Orchard
