import Verif.Spec.Bundle
import Verif.Props.NoteEncryption

/-!
# Properties C22 to C27: bundles, flags, commitments, instances
-/

namespace Orchard

open RedPallas

/-! ### C22: flags -/

/-- **C22** (encoding). The byte of a flag set has the spend flag as bit 0, the output flag as bit 1
and no other bit, and parses back to the flag set. -/
theorem C22_to_byte (f : Flags) :
    (∀ i, f.toByte.toNat.testBit i =
      (if i = 0 then f.spendsEnabled else if i = 1 then f.outputsEnabled else false)) ∧
    Flags.fromByte f.toByte = some f := by
  obtain ⟨s, o⟩ := f
  constructor
  · intro i
    rcases i with - | - | i
    · cases s <;> cases o <;> rfl
    · cases s <;> cases o <;> rfl
    · have h : ∀ s o : Bool, (Flags.toByte ⟨s, o⟩).toNat < 2 ^ (i + 2) := by
        intro s o
        have h4 : 2 ^ 2 ≤ 2 ^ (i + 2) := Nat.pow_le_pow_right (by norm_num) (by omega)
        have : (Flags.toByte ⟨s, o⟩).toNat < 4 := by cases s <;> cases o <;> decide
        omega
      rw [Nat.testBit_lt_two_pow (h s o)]
      simp
  · cases s <;> cases o <;> rfl

/-- **C22** (constants). The named flag sets are the bytes 3 (both enabled), 2 (spends disabled: only the output bit) and
1 (outputs disabled: only the spend bit). -/
theorem C22_constants : Flags.fromByte 3 = some Flags.ENABLED ∧ Flags.fromByte 2 = some Flags.SPENDS_DISABLED ∧
    Flags.fromByte 1 = some Flags.OUTPUTS_DISABLED := ⟨rfl, rfl, rfl⟩

/-- **C22** (parsing). A byte is accepted exactly if bits 2 to 7 are clear, and then it is the
encoding of the parsed flags. -/
theorem C22_from_byte (b : UInt8) :
    ((Flags.fromByte b).isSome ↔ ∀ i, 2 ≤ i → b.toNat.testBit i = false) ∧
    ∀ f, Flags.fromByte b = some f → f.toByte = b := by
  have key : ∀ n < 256, ((Flags.fromByte (UInt8.ofNat n)).isSome = decide (n < 4)) ∧
      ∀ f, Flags.fromByte (UInt8.ofNat n) = some f → f.toByte = UInt8.ofNat n := by
    have h : ∀ n < 256, ((Flags.fromByte (UInt8.ofNat n)).isSome = decide (n < 4)) ∧
        ((Flags.fromByte (UInt8.ofNat n)).all fun f => decide (f.toByte = UInt8.ofNat n)) = true := by
      decide +kernel
    intro n hn
    refine ⟨(h n hn).1, fun f hf => ?_⟩
    have := (h n hn).2
    rw [hf] at this
    simpa using this
  have hb := key b.toNat b.toNat_lt
  rw [UInt8.ofNat_toNat] at hb
  refine ⟨?_, hb.2⟩
  rw [hb.1, decide_eq_true_eq]
  constructor
  · intro h i hi
    apply Nat.testBit_lt_two_pow
    calc b.toNat < 2 ^ 2 := h
      _ ≤ 2 ^ i := Nat.pow_le_pow_right (by norm_num) hi
  · intro h
    apply Nat.lt_pow_two_of_testBit b.toNat (n := 2)
    intro i hi
    exact h i hi

example : Flags.fromByte 3 = some ⟨true, true⟩ ∧ Flags.fromByte 2 = some ⟨false, true⟩ ∧
    Flags.fromByte 4 = none ∧ Flags.fromByte 0x81 = none := by decide

/-! ### C23: the bundle commitment -/

theorem toByte_eq (f : Flags) : f.toByte = Spec.flagByte f.spendsEnabled f.outputsEnabled := by
  obtain ⟨s, o⟩ := f
  cases s <;> cases o <;> rfl

theorem I64.toList_toLeBytes (v : I64) : v.toLeBytes.toList =
    leBytes 8 (if 0 ≤ v.val then v.val.toNat else (2 ^ 64 + v.val).toNat) := by
  unfold I64.toLeBytes
  have h := v.range
  have : (v.val % 2 ^ 64).toNat = if 0 ≤ v.val then v.val.toNat else (2 ^ 64 + v.val).toNat := by
    split_ifs with h0 <;> omega
  rw [this]; rfl

/-- **C23** (specification). The commitment is the ZIP 244 digest of the effecting data. -/
theorem C23_commitment_eq {T A V : Type} (P : Prims) (into : V → I64) (b : Bundle T A V) :
    b.commitment P into =
      P.blake2b256 (ascii "ZTxIdOrchardHash") (Spec.txidInput P (Spec.effects into b)) := by
  have h1 : b.actions.flatMap Action.compactBytes = Spec.compactInput (Spec.effects into b) := by
    unfold Spec.compactInput Spec.overActions Spec.effects
    rw [List.map_map, List.flatMap_def]
    congr 2
  have h2 : b.actions.flatMap Action.memoBytes = Spec.memosInput (Spec.effects into b) := by
    unfold Spec.memosInput Spec.overActions Spec.effects
    rw [List.map_map, List.flatMap_def]
    congr 2
  have h3 : b.actions.flatMap Action.nonCompactBytes = Spec.nonCompactInput (Spec.effects into b) := by
    unfold Spec.nonCompactInput Spec.overActions Spec.effects
    rw [List.map_map, List.flatMap_def]
    congr 2
    funext a
    unfold Action.nonCompactBytes
    rw [Bytes.toList_slice, List.take_of_length_le (by simp)]; rfl
  unfold Bundle.commitment hashBundleTxidData
  simp only
  rw [h1, h2, h3, toByte_eq, I64.toList_toLeBytes]
  rfl

/-- Splitting equal concatenations of equally long blocks. -/
theorem flatten_map_inj {X : Type} {n : ℕ} (hn : 0 < n) {f : X → List UInt8}
    (hf : ∀ x, (f x).length = n) {l l' : List X} (h : (l.map f).flatten = (l'.map f).flatten) :
    l.map f = l'.map f := by
  induction l generalizing l' with
  | nil =>
    cases l' with
    | nil => rfl
    | cons x l' =>
      exfalso
      have := congrArg List.length h
      simp [hf] at this
      omega
  | cons x l ih =>
    cases l' with
    | nil =>
      exfalso
      have := congrArg List.length h
      simp [hf] at this
      omega
    | cons x' l' =>
      simp only [List.map_cons, List.flatten_cons] at h ⊢
      obtain ⟨h1, h2⟩ := List.append_inj h (by rw [hf, hf])
      rw [h1, ih h2]

/-- The four digests' inputs determine the effecting data. -/
theorem effects_eq_of_inputs {P : Prims} {e e' : Spec.BundleEffects}
    (hv : -(2 ^ 63) ≤ e.valueBalance ∧ e.valueBalance < 2 ^ 63)
    (hv' : -(2 ^ 63) ≤ e'.valueBalance ∧ e'.valueBalance < 2 ^ 63)
    (hc : Spec.compactInput e = Spec.compactInput e') (hm : Spec.memosInput e = Spec.memosInput e')
    (hn : Spec.nonCompactInput e = Spec.nonCompactInput e')
    (ht : Spec.txidInput P e = Spec.txidInput P e') : e = e' := by
  have hc := flatten_map_inj (n := 148) (by norm_num) (by intro a; simp) hc
  have hm := flatten_map_inj (n := 512) (by norm_num) (by intro a; simp) hm
  have hn := flatten_map_inj (n := 160) (by norm_num) (by intro a; simp) hn
  have hacts : e.actions = e'.actions := by
    apply List.ext_getElem?
    intro i
    have hc := congrArg (fun l => l[i]?) hc
    have hm := congrArg (fun l => l[i]?) hm
    have hn := congrArg (fun l => l[i]?) hn
    simp only [List.getElem?_map] at hc hm hn
    cases ha : e.actions[i]? with
    | none =>
      rw [ha] at hc
      cases ha' : e'.actions[i]? with
      | none => rfl
      | some a' => rw [ha'] at hc; simp at hc
    | some a =>
      cases ha' : e'.actions[i]? with
      | none => rw [ha, ha'] at hc; simp at hc
      | some a' =>
        rw [ha, ha'] at hc hm hn
        simp only [Option.map_some, Option.some.injEq] at hc hm hn
        congr 1
        obtain ⟨c1, c4⟩ := List.append_inj hc (by simp)
        obtain ⟨c1, c3⟩ := List.append_inj c1 (by simp)
        obtain ⟨c1, c2⟩ := List.append_inj c1 (by simp)
        obtain ⟨n1, n4⟩ := List.append_inj hn (by simp)
        obtain ⟨n1, n3⟩ := List.append_inj n1 (by simp)
        obtain ⟨n1, n2⟩ := List.append_inj n1 (by simp)
        have henc : a.enc = a'.enc := by
          apply Bytes.ext
          have h1 : ∀ x : Bytes 580, x.toList =
              x.toList.take 52 ++ ((x.toList.drop 52).take 512 ++ x.toList.drop 564) := by
            intro x
            have : x.toList.drop 564 = (x.toList.drop 52).drop 512 := by rw [List.drop_drop]
            rw [this, List.take_append_drop, List.take_append_drop]
          rw [h1 a.enc, h1 a'.enc, c4, hm, n3]
        obtain ⟨nf, cmx, epk, enc, out, cv, rk⟩ := a
        obtain ⟨nf', cmx', epk', enc', out', cv', rk'⟩ := a'
        simp only at c1 c2 c3 n1 n2 n4 henc
        have e1 := Fp.toRepr_injective (Bytes.ext c1)
        have e2 := Fp.toRepr_injective (Bytes.ext c2)
        have e3 := Bytes.ext c3
        have e4 := Point.toBytes_injective (Bytes.ext n1)
        have e5 := Point.toBytes_injective (Bytes.ext n2)
        have e6 := Bytes.ext n4
        subst e1 e2 e3 e4 e5 e6 henc
        rfl
  unfold Spec.txidInput at ht
  obtain ⟨t1, t6⟩ := List.append_inj ht (by simp)
  obtain ⟨t1, t5⟩ := List.append_inj t1 (by simp)
  obtain ⟨t1, t4⟩ := List.append_inj t1 (by simp)
  have hfl : e.spendsEnabled = e'.spendsEnabled ∧ e.outputsEnabled = e'.outputsEnabled := by
    have : Spec.flagByte e.spendsEnabled e.outputsEnabled =
        Spec.flagByte e'.spendsEnabled e'.outputsEnabled := by simpa using t4
    revert this
    generalize e.spendsEnabled = a; generalize e.outputsEnabled = b
    generalize e'.spendsEnabled = a'; generalize e'.outputsEnabled = b'
    revert a b a' b'
    decide
  have hval : e.valueBalance = e'.valueBalance := by
    have h := congrArg leNat t5
    rw [leNat_leBytes_of_lt (by split_ifs <;> omega), leNat_leBytes_of_lt (by split_ifs <;> omega)] at h
    split_ifs at h <;> omega
  have hanc : e.anchor = e'.anchor := Fp.toRepr_injective (Bytes.ext t6)
  obtain ⟨a1, a2, a3, a4, a5⟩ := e
  obtain ⟨b1, b2, b3, b4, b5⟩ := e'
  simp only at hacts hfl hval hanc
  obtain ⟨h2, h3⟩ := hfl
  subst hacts h2 h3 hval hanc
  rfl

/-- **C23** (binding). Two bundles with the same commitment have the same effecting data, or their
digest inputs give a collision of BLAKE2b-256 under one of the four personalisations. -/
theorem C23_commitment_binding {T A V T' A' V' : Type} (P : Prims) (into : V → I64) (into' : V' → I64)
    (b : Bundle T A V) (b' : Bundle T' A' V') (h : b.commitment P into = b'.commitment P into') :
    let e := Spec.effects into b
    let e' := Spec.effects into' b'
    e = e' ∨ Spec.Collide P "ZTxIdOrchardHash" (Spec.txidInput P e) (Spec.txidInput P e') ∨
    Spec.Collide P "ZTxIdOrcActCHash" (Spec.compactInput e) (Spec.compactInput e') ∨
    Spec.Collide P "ZTxIdOrcActMHash" (Spec.memosInput e) (Spec.memosInput e') ∨
    Spec.Collide P "ZTxIdOrcActNHash" (Spec.nonCompactInput e) (Spec.nonCompactInput e') := by
  intro e e'
  rw [C23_commitment_eq, C23_commitment_eq] at h
  by_cases ht : Spec.txidInput P e = Spec.txidInput P e'
  · have ht' := ht
    unfold Spec.txidInput at ht'
    obtain ⟨t1, -⟩ := List.append_inj ht' (by simp)
    obtain ⟨t1, -⟩ := List.append_inj t1 (by simp)
    obtain ⟨t1, -⟩ := List.append_inj t1 (by simp)
    obtain ⟨t1, t3⟩ := List.append_inj t1 (by simp)
    obtain ⟨t1, t2⟩ := List.append_inj t1 (by simp)
    by_cases hc : Spec.compactInput e = Spec.compactInput e'
    · by_cases hm : Spec.memosInput e = Spec.memosInput e'
      · by_cases hn : Spec.nonCompactInput e = Spec.nonCompactInput e'
        · exact Or.inl (effects_eq_of_inputs (into b.valueBalance).range (into' b'.valueBalance).range
            hc hm hn ht)
        · exact Or.inr (Or.inr (Or.inr (Or.inr ⟨hn, Bytes.ext t3⟩)))
      · exact Or.inr (Or.inr (Or.inr (Or.inl ⟨hm, Bytes.ext t2⟩)))
    · exact Or.inr (Or.inr (Or.inl ⟨hc, Bytes.ext t1⟩))
  · exact Or.inr (Or.inl ⟨ht, h⟩)

/-- **C23** (absent bundle). The commitment of a bundle differs from that of the absent bundle, or
its digest input collides with the empty input. -/
theorem C23_not_absent {T A V : Type} (P : Prims) (into : V → I64) (b : Bundle T A V) :
    b.commitment P into ≠ hashBundleTxidEmpty P ∨
    Spec.Collide P "ZTxIdOrchardHash" (Spec.txidInput P (Spec.effects into b)) [] := by
  by_cases h : b.commitment P into = hashBundleTxidEmpty P
  · right
    rw [C23_commitment_eq] at h
    refine ⟨?_, h⟩
    intro h0
    have := congrArg List.length h0
    unfold Spec.txidInput at this
    simp at this
  · exact Or.inl h

/-- **C23** (completeness). Bundles with the same effecting data have the same commitment, whatever
their authorisation. -/
theorem C23_depends_on_effects {T A V T' A' V' : Type} (P : Prims) (into : V → I64)
    (into' : V' → I64) (b : Bundle T A V) (b' : Bundle T' A' V')
    (h : Spec.effects into b = Spec.effects into' b') :
    b.commitment P into = b'.commitment P into' := by
  rw [C23_commitment_eq, C23_commitment_eq, h]

/-! ### C24: the authorising commitment -/

theorem authInput_eq {V : Type} (P : Prims) (b : AuthorizedBundle V) :
    b.authorizingCommitment P = P.blake2b256 (ascii "ZTxAuthOrchaHash") (Spec.authInput b) := by
  unfold Bundle.authorizingCommitment hashBundleAuthData Spec.authInput
  rw [List.flatMap_def]

/-- **C24** (specification). The commitment is the ZIP 244 digest of the proof, the spend authorisation signatures and the
binding signature. -/
theorem C24_authorizing_eq {V : Type} (P : Prims) (b : AuthorizedBundle V) :
    b.authorizingCommitment P = P.blake2b256 (ascii "ZTxAuthOrchaHash")
      (b.authorization.proof ++ (b.actions.map fun a => Bytes.toList a.authorization).flatten ++
        b.authorization.bindingSignature.toList) :=
  authInput_eq P b

/-- **C24** (absent bundle). The commitment of a bundle differs from that of the absent bundle, or its digest input
collides with the empty input. -/
theorem C24_not_absent {V : Type} (P : Prims) (b : AuthorizedBundle V) :
    b.authorizingCommitment P ≠ hashBundleAuthEmpty P ∨
    Spec.Collide P "ZTxAuthOrchaHash" (Spec.authInput b) [] := by
  by_cases h : b.authorizingCommitment P = hashBundleAuthEmpty P
  · right
    rw [authInput_eq] at h
    refine ⟨?_, h⟩
    intro h0
    have := congrArg List.length h0
    unfold Spec.authInput at this
    simp at this
  · exact Or.inl h

/-- **C24** (binding). For bundles with the same number of actions, equal authorising commitments
mean equal proof, spend authorisation signatures and binding signature, or a collision. -/
theorem C24_authorizing_binding {V V' : Type} (P : Prims) (b : AuthorizedBundle V)
    (b' : AuthorizedBundle V') (hlen : b.actions.length = b'.actions.length)
    (h : b.authorizingCommitment P = b'.authorizingCommitment P) :
    (b.authorization = b'.authorization ∧
      b.actions.map Action.authorization = b'.actions.map Action.authorization) ∨
    Spec.Collide P "ZTxAuthOrchaHash" (Spec.authInput b) (Spec.authInput b') := by
  rw [authInput_eq, authInput_eq] at h
  by_cases hi : Spec.authInput b = Spec.authInput b'
  · left
    unfold Spec.authInput at hi
    obtain ⟨h1, h3⟩ := List.append_inj' hi (by simp)
    have hl : ∀ {V : Type} (b : AuthorizedBundle V),
        (b.actions.map fun a => Bytes.toList a.authorization).flatten.length = 64 * b.actions.length := by
      intro V b
      rw [List.length_flatten, List.map_map]
      have : (List.length ∘ fun a : Action (Signature .spendAuth) => Bytes.toList a.authorization) =
          fun _ => 64 := by funext a; simp
      rw [this]; simp [mul_comm]
    obtain ⟨h1, h2⟩ := List.append_inj' h1 (by rw [hl, hl, hlen])
    have h2' : b.actions.map Action.authorization = b'.actions.map Action.authorization := by
      have e1 : ∀ {V : Type} (b : AuthorizedBundle V),
          (b.actions.map fun a => Bytes.toList a.authorization) =
            (b.actions.map Action.authorization).map Bytes.toList := by
        intro V b; rw [List.map_map]; rfl
      rw [e1, e1] at h2
      have h2 := flatten_map_inj (X := Bytes 64) (n := 64) (by norm_num) (by intro x; simp) h2
      exact List.map_injective_iff.2 (fun x y hxy => Bytes.ext hxy) h2
    refine ⟨?_, h2'⟩
    have h3 := Bytes.ext h3
    cases hb : b.authorization with
    | mk p s =>
      cases hb' : b'.authorization with
      | mk p' s' =>
        rw [hb, hb'] at h1 h3
        simp only at h1 h3
        rw [h1, h3]
  · exact Or.inr ⟨hi, h⟩

/-- **C24** (both commitments). Together the two commitments bind the whole bundle, or there is a
collision. -/
theorem C24_both_commitments {V V' : Type} (P : Prims) (into : V → I64) (into' : V' → I64)
    (b : AuthorizedBundle V) (b' : AuthorizedBundle V')
    (h1 : b.commitment P into = b'.commitment P into')
    (h2 : b.authorizingCommitment P = b'.authorizingCommitment P) :
    let e := Spec.effects into b
    let e' := Spec.effects into' b'
    (e = e' ∧ b.authorization = b'.authorization ∧
      b.actions.map Action.authorization = b'.actions.map Action.authorization) ∨
    Spec.Collide P "ZTxAuthOrchaHash" (Spec.authInput b) (Spec.authInput b') ∨
    Spec.Collide P "ZTxIdOrchardHash" (Spec.txidInput P e) (Spec.txidInput P e') ∨
    Spec.Collide P "ZTxIdOrcActCHash" (Spec.compactInput e) (Spec.compactInput e') ∨
    Spec.Collide P "ZTxIdOrcActMHash" (Spec.memosInput e) (Spec.memosInput e') ∨
    Spec.Collide P "ZTxIdOrcActNHash" (Spec.nonCompactInput e) (Spec.nonCompactInput e') := by
  intro e e'
  rcases C23_commitment_binding P into into' b b' h1 with h | h
  · have hlen : b.actions.length = b'.actions.length := by
      have := congrArg (fun x => x.actions.length) h
      simpa [Spec.effects] using this
    rcases C24_authorizing_binding P b b' hlen h2 with ⟨h3, h4⟩ | h3
    · exact Or.inl ⟨h, h3, h4⟩
    · exact Or.inr (Or.inl h3)
  · exact Or.inr (Or.inr h)

/-- An action with given spend authorisation signature, for examples. -/
def exampleAction {A : Type} (auth : A) : Action A :=
  { nf := 1, rk := ⟨0⟩, cmx := 2, encryptedNote := ⟨Bytes.ofNat 32 0, Bytes.ofNat 580 7, Bytes.ofNat 80 9⟩,
    cvNet := ⟨0⟩, authorization := auth }

/-- **C24** (finding). Without the condition on the number of actions the preimage is ambiguous: there
are bundles with two actions and with one action whose authorising commitments agree, for every hash
function. -/
theorem C24_ambiguous_without_count : ∃ b b' : AuthorizedBundle I64,
    b.actions.length = 2 ∧ b'.actions.length = 1 ∧ b.authorization.proof ≠ b'.authorization.proof ∧
    Spec.authInput b = Spec.authInput b' ∧
    ∀ P, b.authorizingCommitment P = b'.authorizingCommitment P := by
  let s1 : Bytes 64 := Bytes.ofNat 64 5
  let s2 : Bytes 64 := Bytes.ofNat 64 6
  let b : AuthorizedBundle I64 :=
    ⟨[exampleAction s1, exampleAction s2], by simp, Flags.ENABLED, I64.mk' 0, 3, ⟨[], s1⟩⟩
  let b' : AuthorizedBundle I64 :=
    ⟨[exampleAction s2], by simp, Flags.ENABLED, I64.mk' 0, 3, ⟨s1.toList, s1⟩⟩
  have h : Spec.authInput b = Spec.authInput b' := by
    simp [Spec.authInput, b, b', exampleAction]
  refine ⟨b, b', rfl, rfl, ?_, h, fun P => by rw [authInput_eq, authInput_eq, h]⟩
  intro h0
  have := congrArg List.length h0
  simp [b, b'] at this

/-! ### C25: scanning -/

theorem findMapO_spec {K X : Type} {f : K → Outcome (Option X)} (hf : ∀ k, f k ≠ .panic) (l : List K) :
    ∃ r, Bundle.findMapO f l = .ret r ∧ ∀ x, r = some x ↔
      ∃ (j : ℕ) (k : K), l[j]? = some k ∧ f k = .ret (some x) ∧
        ∀ (j' : ℕ) (k' : K), j' < j → l[j']? = some k' → f k' = .ret none := by
  induction l with
  | nil => exact ⟨none, rfl, fun x => by simp⟩
  | cons k l ih =>
    unfold Bundle.findMapO
    cases hk : f k with
    | panic => exact absurd hk (hf k)
    | ret r =>
      cases r with
      | some x =>
        refine ⟨some x, rfl, fun y => ?_⟩
        constructor
        · rintro h
          rw [Option.some.injEq] at h; subst h
          exact ⟨0, k, rfl, hk, fun j' k' h => absurd h (Nat.not_lt_zero _)⟩
        · rintro ⟨j, k', h1, h2, h3⟩
          cases j with
          | zero =>
            simp only [List.getElem?_cons_zero, Option.some.injEq] at h1
            subst h1
            rw [hk] at h2
            simpa using h2
          | succ j =>
            have := h3 0 k (Nat.succ_pos _) rfl
            rw [hk] at this; simp at this
      | none =>
        obtain ⟨r, hr, hx⟩ := ih
        refine ⟨r, hr, fun y => ?_⟩
        rw [hx]
        constructor
        · rintro ⟨j, k', h1, h2, h3⟩
          refine ⟨j + 1, k', h1, h2, fun j' k'' hj hk'' => ?_⟩
          cases j' with
          | zero =>
            simp only [List.getElem?_cons_zero, Option.some.injEq] at hk''
            rw [← hk'']; exact hk
          | succ j' => exact h3 j' k'' (by omega) hk''
        · rintro ⟨j, k', h1, h2, h3⟩
          cases j with
          | zero =>
            simp only [List.getElem?_cons_zero, Option.some.injEq] at h1
            rw [← h1, hk] at h2; simp at h2
          | succ j => exact ⟨j, k', h1, h2, fun j' k'' hj hk'' => h3 (j' + 1) k'' (by omega) hk''⟩

theorem filterMapIdxO_spec {K X : Type} {f : ℕ → K → Outcome (Option (ℕ × X))}
    (hf : ∀ i k, f i k ≠ .panic) (hi : ∀ i k x, f i k = .ret (some x) → x.1 = i)
    (l : List K) (i : ℕ) :
    ∃ r, Bundle.filterMapIdxO f i l = .ret r ∧ (r.map Prod.fst).Pairwise (· < ·) ∧
      (∀ x ∈ r, i ≤ x.1) ∧
      ∀ x, x ∈ r ↔ ∃ (j : ℕ) (k : K), l[j]? = some k ∧ f (i + j) k = .ret (some x) := by
  induction l generalizing i with
  | nil => exact ⟨[], rfl, by simp, by simp, fun x => by simp⟩
  | cons k l ih =>
    obtain ⟨r, hr, hs, hge, hx⟩ := ih (i + 1)
    unfold Bundle.filterMapIdxO
    have hmem : ∀ x, (x ∈ r ↔ ∃ (j : ℕ) (k' : K), (k :: l)[j + 1]? = some k' ∧
        f (i + (j + 1)) k' = .ret (some x)) := by
      intro x
      rw [hx]
      constructor
      · rintro ⟨j, k', h1, h2⟩
        exact ⟨j, k', h1, by rw [← h2]; congr 1; omega⟩
      · rintro ⟨j, k', h1, h2⟩
        exact ⟨j, k', h1, by rw [← h2]; congr 1; omega⟩
    cases hk : f i k with
    | panic => exact absurd hk (hf i k)
    | ret o =>
      cases o with
      | none =>
        refine ⟨r, hr, hs, fun x h => by have := hge x h; omega, fun x => ?_⟩
        rw [hmem]
        constructor
        · rintro ⟨j, k', h1, h2⟩; exact ⟨j + 1, k', h1, h2⟩
        · rintro ⟨j, k', h1, h2⟩
          cases j with
          | zero =>
            simp only [List.getElem?_cons_zero, Option.some.injEq] at h1
            rw [← h1, Nat.add_zero, hk] at h2; simp at h2
          | succ j => exact ⟨j, k', h1, h2⟩
      | some y =>
        have hy := hi i k y hk
        refine ⟨y :: r, by simp [hr], ?_, ?_, fun x => ?_⟩
        · rw [List.map_cons, List.pairwise_cons]
          refine ⟨?_, hs⟩
          intro m hm
          obtain ⟨x, hx1, rfl⟩ := List.mem_map.1 hm
          have := hge x hx1
          omega
        · intro x h
          rcases List.mem_cons.1 h with rfl | h
          · omega
          · have := hge x h; omega
        · rw [List.mem_cons, hmem]
          constructor
          · rintro (rfl | ⟨j, k', h1, h2⟩)
            · exact ⟨0, k, rfl, hk⟩
            · exact ⟨j + 1, k', h1, h2⟩
          · rintro ⟨j, k', h1, h2⟩
            cases j with
            | zero =>
              simp only [List.getElem?_cons_zero, Option.some.injEq] at h1
              rw [← h1, Nat.add_zero, hk] at h2
              simp only [Outcome.ret.injEq, Option.some.injEq] at h2
              exact Or.inl h2.symm
            | succ j => exact Or.inr ⟨j, k', h1, h2⟩

/-- Scanning, in general: `dec` is the attempt with one key on one action. -/
theorem scan_spec {T A V K X : Type} (b : Bundle T A V) (keys : List K)
    (dec : K → Action A → Outcome (Option X)) (hdec : ∀ k a, dec k a ≠ .panic) :
    ∃ r : List (ℕ × K × X), Bundle.filterMapIdxO (fun idx action => Bundle.findMapO (fun k => do
        let o ← dec k action
        pure (o.map fun x => (idx, k, x))) keys) 0 b.actions = .ret r ∧
      (r.map Prod.fst).Pairwise (· < ·) ∧
      ∀ i k x, (i, k, x) ∈ r ↔ ∃ (action : Action A) (j : ℕ), b.actions[i]? = some action ∧
        keys[j]? = some k ∧ dec k action = .ret (some x) ∧
        ∀ (j' : ℕ) (k' : K), j' < j → keys[j']? = some k' → dec k' action = .ret none := by
  have hstep : ∀ idx k a, (do
        let o ← dec k a
        pure (o.map fun x => (idx, k, x)) : Outcome (Option (ℕ × K × X))) ≠ .panic := by
    intro idx k a
    cases h : dec k a with
    | panic => exact absurd h (hdec k a)
    | ret o => simp
  have hfind := fun idx a => findMapO_spec (fun k => hstep idx k a) keys
  have hval : ∀ idx k a y, ((do
        let o ← dec k a
        pure (o.map fun x => (idx, k, x)) : Outcome (Option (ℕ × K × X))) = .ret (some y) ↔
      ∃ x, dec k a = .ret (some x) ∧ y = (idx, k, x)) := by
    intro idx k a y
    cases h : dec k a with
    | panic => exact absurd h (hdec k a)
    | ret o =>
      cases o with
      | none => simp
      | some x => simp [eq_comm]
  have hnone : ∀ idx k a, ((do
        let o ← dec k a
        pure (o.map fun x => (idx, k, x)) : Outcome (Option (ℕ × K × X))) = .ret none ↔
      dec k a = .ret none) := by
    intro idx k a
    cases h : dec k a with
    | panic => exact absurd h (hdec k a)
    | ret o => cases o <;> simp
  obtain ⟨r, h1, h2, -, h4⟩ := filterMapIdxO_spec (X := K × X)
    (f := fun idx action => Bundle.findMapO (fun k => do
        let o ← dec k action
        pure (o.map fun x => (idx, k, x))) keys)
    (by intro i a; obtain ⟨r, hr, -⟩ := hfind i a; rw [hr]; simp)
    (by
      intro i a x hx
      obtain ⟨r, hr, hr'⟩ := hfind i a
      rw [hr] at hx
      simp only [Outcome.ret.injEq] at hx
      obtain ⟨j, k, -, h, -⟩ := (hr' x).1 hx
      obtain ⟨y, -, rfl⟩ := (hval i k a x).1 h
      rfl) b.actions 0
  refine ⟨r, h1, h2, fun i k x => ?_⟩
  rw [h4]
  constructor
  · rintro ⟨j, a, ha, hx⟩
    obtain ⟨o, ho, ho'⟩ := hfind (0 + j) a
    rw [ho] at hx
    simp only [Outcome.ret.injEq] at hx
    obtain ⟨jk, k', g1, g2, g3⟩ := (ho' _).1 hx
    obtain ⟨y, hy, heq⟩ := (hval _ _ _ _).1 g2
    simp only [Prod.mk.injEq] at heq
    obtain ⟨e1, rfl, rfl⟩ := heq
    rw [Nat.zero_add] at e1; subst e1
    exact ⟨a, jk, ha, g1, hy, fun j' k' hj hk' => (hnone _ _ _).1 (g3 j' k' hj hk')⟩
  · rintro ⟨a, j, ha, hk, hd, hmin⟩
    refine ⟨i, a, ha, ?_⟩
    obtain ⟨o, ho, ho'⟩ := hfind (0 + i) a
    rw [ho]
    rw [(ho' (i, k, x)).2]
    refine ⟨j, k, hk, (hval _ _ _ _).2 ⟨x, hd, by rw [Nat.zero_add]⟩, fun j' k' hj hk' =>
      (hnone _ _ _).2 (hmin j' k' hj hk')⟩

/-- **C25** (incoming). Scanning with incoming viewing keys never panics and returns, in action order
and with at most one entry per action, exactly the entries in which the first key that decrypts the
action is paired with what it decrypts. -/
theorem C25_decrypt {T A V : Type} (P : Prims) (b : Bundle T A V) (keys : List IncomingViewingKey) :
    ∃ r, b.decryptOutputsWithKeys P keys = .ret r ∧ (r.map Prod.fst).Pairwise (· < ·) ∧
      ∀ i k x, (i, k, x) ∈ r ↔ ∃ (action : Action A) (j : ℕ), b.actions[i]? = some action ∧
        keys[j]? = some k ∧ tryNoteDecryption P k.ivk action = .ret (some x) ∧
        ∀ (j' : ℕ) (k' : IncomingViewingKey), j' < j → keys[j']? = some k' →
          tryNoteDecryption P k'.ivk action = .ret none :=
  scan_spec b keys (fun k a => tryNoteDecryption P k.ivk a) (fun k a => (C44_decryption P k.ivk a).1)

/-- **C25** (outgoing). The same for recovery with outgoing viewing keys. -/
theorem C25_recover {T A V : Type} (P : Prims) (b : Bundle T A V) (keys : List (Bytes 32)) :
    ∃ r, b.recoverOutputsWithOvks P keys = .ret r ∧ (r.map Prod.fst).Pairwise (· < ·) ∧
      ∀ i k x, (i, k, x) ∈ r ↔ ∃ (action : Action A) (j : ℕ), b.actions[i]? = some action ∧
        keys[j]? = some k ∧ tryOutputRecoveryWithOvk P k action = .ret (some x) ∧
        ∀ (j' : ℕ) (k' : Bytes 32), j' < j → keys[j']? = some k' →
          tryOutputRecoveryWithOvk P k' action = .ret none :=
  scan_spec b keys (fun k a => tryOutputRecoveryWithOvk P k a) (fun k a => (C44_recovery P k a).1)

/-- **C25** (single key). Decrypting (recovering) one action with one key agrees with scanning the
bundle with that key alone; an index out of range gives nothing. -/
theorem C25_single_key {T A V : Type} (P : Prims) (b : Bundle T A V) (i : ℕ) :
    (∀ key, (b.actions.length ≤ i → b.decryptOutputWithKey P i key = .ret none) ∧
      ∃ r, b.decryptOutputsWithKeys P [key] = .ret r ∧
        ∀ x, b.decryptOutputWithKey P i key = .ret (some x) ↔ (i, key, x) ∈ r) ∧
    (∀ ovk, (b.actions.length ≤ i → b.recoverOutputWithOvk P i ovk = .ret none) ∧
      ∃ r, b.recoverOutputsWithOvks P [ovk] = .ret r ∧
        ∀ x, b.recoverOutputWithOvk P i ovk = .ret (some x) ↔ (i, ovk, x) ∈ r) := by
  constructor
  · intro key
    refine ⟨fun h => ?_, ?_⟩
    · unfold Bundle.decryptOutputWithKey
      rw [List.getElem?_eq_none h]; rfl
    · obtain ⟨r, h1, -, h3⟩ := C25_decrypt P b [key]
      refine ⟨r, h1, fun x => ?_⟩
      rw [h3]
      unfold Bundle.decryptOutputWithKey
      cases ha : b.actions[i]? with
      | none => simp
      | some a =>
        simp only [Option.some.injEq]
        constructor
        · intro h
          exact ⟨a, 0, rfl, rfl, h, fun j' k' hj => absurd hj (Nat.not_lt_zero _)⟩
        · rintro ⟨a', j, rfl, h, h', -⟩
          exact h'
  · intro key
    refine ⟨fun h => ?_, ?_⟩
    · unfold Bundle.recoverOutputWithOvk
      rw [List.getElem?_eq_none h]; rfl
    · obtain ⟨r, h1, -, h3⟩ := C25_recover P b [key]
      refine ⟨r, h1, fun x => ?_⟩
      rw [h3]
      unfold Bundle.recoverOutputWithOvk
      cases ha : b.actions[i]? with
      | none => simp
      | some a =>
        simp only [Option.some.injEq]
        constructor
        · intro h
          exact ⟨a, 0, rfl, rfl, h, fun j' k' hj => absurd hj (Nat.not_lt_zero _)⟩
        · rintro ⟨a', j, rfl, h, h', -⟩
          exact h'

/-! ### C26: authorisation mapping -/

theorem tryMapState_ok {R A B E : Type} {f : R → A → Except E B × R} {r r' : R} {l : List A}
    {bs : List B} :
    tryMapState f r l = (.ok bs, r') ↔ Spec.Steps (fun r a b r' => f r a = (.ok b, r')) r l bs r' := by
  induction l generalizing r bs with
  | nil =>
    unfold tryMapState
    simp only [Prod.mk.injEq, Except.ok.injEq]
    constructor
    · rintro ⟨rfl, rfl⟩; exact .nil r
    · intro h; cases h; exact ⟨rfl, rfl⟩
  | cons a l ih =>
    unfold tryMapState
    constructor
    · intro h
      cases hf : f r a with
      | mk o r1 =>
        rw [hf] at h
        cases o with
        | error e => simp at h
        | ok b =>
          simp only at h
          cases ht : tryMapState f r1 l with
          | mk o2 r2 =>
            rw [ht] at h
            cases o2 with
            | error e => simp at h
            | ok bs' =>
              simp only [Prod.mk.injEq, Except.ok.injEq] at h
              obtain ⟨rfl, rfl⟩ := h
              exact .cons hf (ih.1 ht)
    · intro h
      cases h with
      | cons h1 h2 =>
        rw [h1]
        simp only
        rw [ih.2 h2]

theorem tryMapState_error {R A B E : Type} {f : R → A → Except E B × R} {r r' : R} {l : List A}
    {e : E} :
    tryMapState f r l = (.error e, r') ↔ ∃ (l1 : List A) (a : A) (l2 : List A) (bs : List B) (r1 : R),
      l = l1 ++ a :: l2 ∧ Spec.Steps (fun r a b r' => f r a = (.ok b, r')) r l1 bs r1 ∧
      f r1 a = (.error e, r') := by
  induction l generalizing r with
  | nil =>
    unfold tryMapState
    simp
  | cons a l ih =>
    unfold tryMapState
    cases hf : f r a with
    | mk o r1 =>
      cases o with
      | error e' =>
        simp only [Prod.mk.injEq, Except.error.injEq]
        constructor
        · rintro ⟨rfl, rfl⟩
          exact ⟨[], a, l, [], r, rfl, .nil r, hf⟩
        · rintro ⟨l1, a', l2, bs, r2, hl, hs, he⟩
          cases l1 with
          | nil =>
            cases hs
            simp only [List.nil_append, List.cons.injEq] at hl
            rw [← hl.1, hf] at he
            simpa using he
          | cons x l1 =>
            simp only [List.cons_append, List.cons.injEq] at hl
            cases hs with
            | cons h1 h2 => rw [← hl.1, hf] at h1; simp at h1
      | ok b =>
        simp only
        refine Iff.trans (b := tryMapState f r1 l = (.error e, r')) ?_ ?_
        · cases ht : tryMapState f r1 l with
          | mk o2 r2 => cases o2 <;> simp
        rw [ih]
        constructor
        · rintro ⟨l1, a', l2, bs, r2, rfl, hs, he⟩
          exact ⟨a :: l1, a', l2, b :: bs, r2, rfl, .cons hf hs, he⟩
        · rintro ⟨l1, a', l2, bs, r2, hl, hs, he⟩
          cases l1 with
          | nil =>
            cases hs
            simp only [List.nil_append, List.cons.injEq] at hl
            rw [← hl.1, hf] at he; simp at he
          | cons x l1 =>
            simp only [List.cons_append, List.cons.injEq] at hl
            obtain ⟨rfl, rfl⟩ := hl
            cases hs with
            | cons h1 h2 =>
              rw [hf] at h1
              simp only [Prod.mk.injEq, Except.ok.injEq] at h1
              obtain ⟨rfl, rfl⟩ := h1
              exact ⟨l1, a', l2, _, r2, rfl, h2, he⟩

theorem Steps.length {R A B : Type} {f : R → A → B → R → Prop} {r r' : R} {l : List A} {bs : List B}
    (h : Spec.Steps f r l bs r') : bs.length = l.length := by
  induction h with
  | nil => rfl
  | cons _ _ ih => simp [ih]

theorem Bundle.ext' {T A V : Type} {b b' : Bundle T A V} (h1 : b.actions = b'.actions)
    (h2 : b.flags = b'.flags) (h3 : b.valueBalance = b'.valueBalance) (h4 : b.anchor = b'.anchor)
    (h5 : b.authorization = b'.authorization) : b = b' := by
  cases b; cases b'
  simp only at h1 h2 h3 h4 h5
  subst h1 h2 h3 h4 h5
  rfl

theorem Action.ext_effects {A : Type} {a a' : Action A}
    (h1 : Spec.actionEffects a = Spec.actionEffects a') (h2 : a.authorization = a'.authorization) :
    a = a' := by
  obtain ⟨nf, ⟨rk⟩, cmx, ⟨epk, enc, out⟩, ⟨cv⟩, auth⟩ := a
  obtain ⟨nf', ⟨rk'⟩, cmx', ⟨epk', enc', out'⟩, ⟨cv'⟩, auth'⟩ := a'
  simp only [Spec.actionEffects, Spec.ActionEffects.mk.injEq] at h1
  simp only at h2
  obtain ⟨rfl, rfl, rfl, rfl, rfl, rfl, rfl⟩ := h1
  subst h2
  rfl

/-- The re-authorised bundle is unique. -/
theorem Reauthorized.unique {T A U B V : Type} {b : Bundle T A V} {auths : List B} {t : U}
    {b1 b2 : Bundle U B V} (h1 : Spec.Reauthorized b auths t b1) (h2 : Spec.Reauthorized b auths t b2) :
    b1 = b2 := by
  obtain ⟨a1, a2, a3, a4, a5, a6⟩ := h1
  obtain ⟨c1, c2, c3, c4, c5, c6⟩ := h2
  refine Bundle.ext' ?_ (a3.trans c3.symm) (a4.trans c4.symm) (a5.trans c5.symm) (a6.trans c6.symm)
  have e1 := a1.trans c1.symm
  have e2 := a2.trans c2.symm
  apply List.ext_getElem?
  intro i
  have e1 := congrArg (fun l => l[i]?) e1
  have e2 := congrArg (fun l => l[i]?) e2
  simp only [List.getElem?_map] at e1 e2
  cases hx : b1.actions[i]? with
  | none =>
    cases hy : b2.actions[i]? with
    | none => rfl
    | some y => rw [hx, hy] at e1; simp at e1
  | some x =>
    cases hy : b2.actions[i]? with
    | none => rw [hx, hy] at e1; simp at e1
    | some y =>
      rw [hx, hy] at e1 e2
      simp only [Option.map_some, Option.some.injEq] at e1 e2
      rw [Action.ext_effects e1 e2]

theorem action_steps {R T A B E : Type} {t : T} {f : R → T → A → Except E B × R} {r r' : R}
    {l : List (Action A)} {as : List (Action B)} :
    Spec.Steps (fun r (a : Action A) b r' =>
      ((a.tryMap (fun _ => (f r t a.authorization).1), (f r t a.authorization).2) :
        Except E (Action B) × R) = (.ok b, r')) r l as r' ↔
    ∃ bs, Spec.Steps (fun r a b r' => f r t a = (.ok b, r')) r (l.map Action.authorization) bs r' ∧
      as.map Spec.actionEffects = l.map Spec.actionEffects ∧ as.map Action.authorization = bs := by
  constructor
  · intro h
    induction h with
    | nil r => exact ⟨[], .nil r, rfl, rfl⟩
    | @cons r r1 r2 a b as bs h1 h2 ih =>
      obtain ⟨bs', g1, g2, g3⟩ := ih
      cases hf : f r t a.authorization with
      | mk o r3 =>
        rw [hf] at h1
        simp only [Prod.mk.injEq] at h1
        obtain ⟨h1, rfl⟩ := h1
        cases o with
        | error e => simp [Action.tryMap] at h1
        | ok x =>
          have h1 : a.map (fun _ => x) = b := by
            unfold Action.tryMap at h1
            simpa [Action.map, pure, Except.pure, bind, Except.bind] using h1
          subst h1
          refine ⟨x :: bs', .cons hf g1, ?_, ?_⟩
          · rw [List.map_cons, List.map_cons, g2]; rfl
          · rw [List.map_cons, g3]; rfl
  · rintro ⟨bs, h1, h2, h3⟩
    induction l generalizing r bs as with
    | nil =>
      rw [List.map_nil] at h1 h2
      cases h1
      rw [List.map_eq_nil_iff] at h2
      subst h2
      exact .nil _
    | cons a l ih =>
      rw [List.map_cons] at h1
      cases h1 with
      | cons g1 g2 =>
        cases as with
        | nil => simp at h3
        | cons x as =>
          simp only [List.map_cons, List.cons.injEq] at h2 h3
          refine .cons ?_ (ih _ g2 h2.2 h3.2)
          rw [g1]
          simp only [Prod.mk.injEq, and_true]
          have : a.map (fun _ => x.authorization) = x :=
            Action.ext_effects (by rw [h2.1]; rfl) rfl
          conv_rhs => rw [← this]
          rw [h3.1]
          rfl

/-- **C26** (success). The mapping succeeds with `b'` exactly if the spend step succeeds on the
actions' authorisations one after the other, then the bundle step succeeds, and `b'` is the bundle
with exactly these new authorisations, everything else unchanged. -/
theorem C26_success {T A U B V R E : Type} (b : Bundle T A V) (r r'' : R)
    (f : R → T → A → Except E B × R) (g : R → T → Except E U × R) (b' : Bundle U B V) :
    b.tryMapAuthorization r f g = (.ret (.ok b'), r'') ↔
      ∃ (auths : List B) (r' : R) (t : U),
        Spec.Steps (fun r a x r' => f r b.authorization a = (.ok x, r')) r
          (b.actions.map Action.authorization) auths r' ∧
        g r' b.authorization = (.ok t, r'') ∧ Spec.Reauthorized b auths t b' := by
  unfold Bundle.tryMapAuthorization
  constructor
  · intro h
    split at h
    · simp at h
    · rename_i as r' heq
      by_cases hne : as ≠ []
      swap
      · rw [dif_neg hne] at h; simp at h
      rw [dif_pos hne] at h
      cases hg : g r' b.authorization with
      | mk o r3 =>
        rw [hg] at h
        cases o with
        | error e => simp at h
        | ok t =>
          simp only [Prod.mk.injEq, Outcome.ret.injEq, Except.ok.injEq] at h
          obtain ⟨rfl, rfl⟩ := h
          obtain ⟨bs, h1, h2, h3⟩ := action_steps.1 (tryMapState_ok.1 heq)
          exact ⟨bs, r', t, h1, hg, h2, h3, rfl, rfl, rfl, rfl⟩
  · rintro ⟨auths, r', t, h1, h2, h3⟩
    have hs := tryMapState_ok.2 (action_steps.2 ⟨auths, h1, h3.1, h3.2.1⟩)
    simp only [hs]
    rw [dif_pos b'.nonempty, h2]
    simp only [Prod.mk.injEq, Outcome.ret.injEq, Except.ok.injEq, and_true]
    exact Bundle.ext' rfl h3.2.2.1.symm h3.2.2.2.1.symm h3.2.2.2.2.1.symm h3.2.2.2.2.2.symm

/-- **C26** (failure). The mapping fails exactly if the spend step fails on some action after having
succeeded on all earlier ones, and then with that error; or if only the bundle step fails. -/
theorem C26_failure {T A U B V R E : Type} (b : Bundle T A V) (r r'' : R)
    (f : R → T → A → Except E B × R) (g : R → T → Except E U × R) (e : E) :
    b.tryMapAuthorization r f g = (.ret (.error e), r'') ↔
      (∃ (l1 : List A) (a : A) (l2 : List A) (auths : List B) (r' : R),
        b.actions.map Action.authorization = l1 ++ a :: l2 ∧
        Spec.Steps (fun r a x r' => f r b.authorization a = (.ok x, r')) r l1 auths r' ∧
        f r' b.authorization a = (.error e, r'')) ∨
      ∃ (auths : List B) (r' : R),
        Spec.Steps (fun r a x r' => f r b.authorization a = (.ok x, r')) r
          (b.actions.map Action.authorization) auths r' ∧
        g r' b.authorization = (.error e, r'') := by
  unfold Bundle.tryMapAuthorization
  constructor
  · intro h
    split at h
    · rename_i e' r' heq
      simp only [Prod.mk.injEq, Outcome.ret.injEq, Except.error.injEq] at h
      obtain ⟨rfl, rfl⟩ := h
      left
      obtain ⟨l1, a, l2, bs, r1, h1, h2, h3⟩ := tryMapState_error.1 heq
      obtain ⟨bs', g1, -, -⟩ := action_steps.1 h2
      refine ⟨l1.map Action.authorization, a.authorization, l2.map Action.authorization, bs', r1, ?_,
        g1, ?_⟩
      · rw [h1, List.map_append, List.map_cons]
      · cases hf : f r1 b.authorization a.authorization with
        | mk o r3 =>
          rw [hf] at h3
          simp only [Prod.mk.injEq] at h3
          obtain ⟨h3, rfl⟩ := h3
          cases o with
          | error e2 =>
            have : e2 = e' := by
              simpa [Action.tryMap, bind, Except.bind] using h3
            rw [this]
          | ok x => simp [Action.tryMap, bind, Except.bind, pure, Except.pure] at h3
    · rename_i as r' heq
      obtain ⟨bs, h1, h2, h3⟩ := action_steps.1 (tryMapState_ok.1 heq)
      by_cases hne : as ≠ []
      swap
      · rw [dif_neg hne] at h; simp at h
      rw [dif_pos hne] at h
      cases hg : g r' b.authorization with
      | mk o r3 =>
        rw [hg] at h
        cases o with
        | ok t => simp at h
        | error e' =>
          simp only [Prod.mk.injEq, Outcome.ret.injEq, Except.error.injEq] at h
          obtain ⟨rfl, rfl⟩ := h
          exact Or.inr ⟨bs, r', h1, hg⟩
  · rintro (⟨l1, a, l2, auths, r', h1, h2, h3⟩ | ⟨auths, r', h1, h2⟩)
    · obtain ⟨m1, m2, hm, hm1, hm2⟩ := List.map_eq_append_iff.1 h1
      obtain ⟨x, m3, rfl, hx, hm3⟩ := List.map_eq_cons_iff.1 hm2
      subst hm1 hx
      have hex : ∃ as : List (Action B), as.map Spec.actionEffects = m1.map Spec.actionEffects ∧
          as.map Action.authorization = auths := by
        have hlen := Steps.length h2
        rw [List.length_map] at hlen
        clear h1 h2 h3 hm hm2
        induction m1 generalizing auths with
        | nil => exact ⟨[], rfl, (List.length_eq_zero_iff.1 hlen).symm ▸ rfl⟩
        | cons y m1 ih =>
          cases auths with
          | nil => simp at hlen
          | cons z auths =>
            obtain ⟨as, g1, g2⟩ := ih auths (by simpa using hlen)
            refine ⟨y.map (fun _ => z) :: as, ?_, ?_⟩
            · rw [List.map_cons, List.map_cons, g1]; rfl
            · rw [List.map_cons, g2]; rfl
      obtain ⟨as, g1, g2⟩ := hex
      have hs := tryMapState_error.2 ⟨m1, x, m3, as, r', hm,
        action_steps.2 ⟨auths, h2, g1, g2⟩, (by
          rw [h3]; rfl :
          ((x.tryMap (fun _ => (f r' b.authorization x.authorization).1),
            (f r' b.authorization x.authorization).2) : Except E (Action B) × R) = (.error e, r''))⟩
      simp only [hs]
    · have hex : ∃ as : List (Action B), as.map Spec.actionEffects = b.actions.map Spec.actionEffects ∧
          as.map Action.authorization = auths := by
        have hlen := Steps.length h1
        rw [List.length_map] at hlen
        clear h1 h2
        generalize b.actions = m1 at hlen ⊢
        induction m1 generalizing auths with
        | nil => exact ⟨[], rfl, (List.length_eq_zero_iff.1 hlen).symm ▸ rfl⟩
        | cons y m1 ih =>
          cases auths with
          | nil => simp at hlen
          | cons z auths =>
            obtain ⟨as, g1, g2⟩ := ih auths (by simpa using hlen)
            refine ⟨y.map (fun _ => z) :: as, ?_, ?_⟩
            · rw [List.map_cons, List.map_cons, g1]; rfl
            · rw [List.map_cons, g2]; rfl
      obtain ⟨as, g1, g2⟩ := hex
      have hs := tryMapState_ok.2 (action_steps.2 ⟨auths, h1, g1, g2⟩)
      have hne : as ≠ [] := by
        intro h0
        rw [h0] at g1
        exact b.nonempty (List.map_eq_nil_iff.1 g1.symm)
      simp only [hs]
      rw [dif_pos hne, h2]

/-- **C26** (value balance). Mapping the value balance succeeds exactly if the mapping does, passes its error on, and
changes nothing but the value balance. -/
theorem C26_value_balance {T A V V' E : Type} (b : Bundle T A V) (f : V → Except E V') :
    (∀ e, b.tryMapValueBalance f = .error e ↔ f b.valueBalance = .error e) ∧
    ∀ b', b.tryMapValueBalance f = .ok b' ↔ f b.valueBalance = .ok b'.valueBalance ∧ b'.actions = b.actions ∧
      b'.flags = b.flags ∧ b'.anchor = b.anchor ∧ b'.authorization = b.authorization := by
  unfold Bundle.tryMapValueBalance
  cases f b.valueBalance with
  | error e => exact ⟨fun e' => by simp [bind, Except.bind], fun b' => by simp [bind, Except.bind]⟩
  | ok v =>
    refine ⟨fun e' => by simp [bind, Except.bind, pure, Except.pure], fun b' => ?_⟩
    obtain ⟨as, ne, fl, vb, an, au⟩ := b'
    simp only [bind, Except.bind, pure, Except.pure, Except.ok.injEq, Bundle.mk.injEq]
    constructor
    · rintro ⟨rfl, rfl, rfl, rfl, rfl⟩; exact ⟨rfl, rfl, rfl, rfl, rfl⟩
    · rintro ⟨rfl, rfl, rfl, rfl, rfl⟩; exact ⟨rfl, rfl, rfl, rfl, rfl⟩

/-- **C26** (no panic). The `unwrap` in the mapping never panics. -/
theorem C26_never_panics {T A U B V R E : Type} (b : Bundle T A V) (r : R)
    (f : R → T → A → Except E B × R) (g : R → T → Except E U × R) :
    (b.tryMapAuthorization r f g).1 ≠ .panic := by
  unfold Bundle.tryMapAuthorization
  split
  · simp
  · rename_i as r' heq
    have hl := Steps.length (tryMapState_ok.1 heq)
    have hne : as ≠ [] := by
      intro h0
      rw [h0] at hl
      exact b.nonempty (List.length_eq_zero_iff.1 hl.symm)
    rw [dif_pos hne]
    split <;> simp

theorem mapState_steps {R A B : Type} (f : R → A → B × R) (r : R) (l : List A) :
    Spec.Steps (fun r a b r' => f r a = (b, r')) r l (mapState f r l).1 (mapState f r l).2 := by
  induction l generalizing r with
  | nil => exact .nil r
  | cons a l ih => exact .cons rfl (ih _)

theorem Steps.deterministic {R A B : Type} {f : R → A → B × R} {r r1 r2 : R} {l : List A}
    {bs1 bs2 : List B} (h1 : Spec.Steps (fun r a b r' => f r a = (b, r')) r l bs1 r1)
    (h2 : Spec.Steps (fun r a b r' => f r a = (b, r')) r l bs2 r2) : bs1 = bs2 ∧ r1 = r2 := by
  induction h1 generalizing bs2 with
  | nil => cases h2; exact ⟨rfl, rfl⟩
  | cons g1 g2 ih =>
    cases h2 with
    | cons k1 k2 =>
      rw [g1] at k1
      simp only [Prod.mk.injEq] at k1
      obtain ⟨rfl, rfl⟩ := k1
      obtain ⟨rfl, rfl⟩ := ih k2
      exact ⟨rfl, rfl⟩

/-- **C26** (infallible mapping). `map_authorization` is the mapping with steps that do not fail. -/
theorem C26_infallible {T A U B V R E : Type} (b : Bundle T A V) (r : R)
    (f : R → T → A → B × R) (g : R → T → U × R) :
    b.tryMapAuthorization (E := E) r (fun r t a => (.ok (f r t a).1, (f r t a).2))
      (fun r t => (.ok (g r t).1, (g r t).2)) =
    (.ret (.ok (b.mapAuthorization r f g).1), (b.mapAuthorization r f g).2) := by
  rw [C26_success]
  have hs := mapState_steps (fun r a => f r b.authorization a) r (b.actions.map Action.authorization)
  have hacts : ∀ (r : R) (l : List (Action A)),
      (mapState (fun r (a : Action A) => ((a.map (fun _ => (f r b.authorization a.authorization).1),
        (f r b.authorization a.authorization).2) : Action B × R)) r l).1.map Spec.actionEffects =
          l.map Spec.actionEffects ∧
      (mapState (fun r (a : Action A) => ((a.map (fun _ => (f r b.authorization a.authorization).1),
        (f r b.authorization a.authorization).2) : Action B × R)) r l).1.map Action.authorization =
        (mapState (fun r a => f r b.authorization a) r (l.map Action.authorization)).1 ∧
      (mapState (fun r (a : Action A) => ((a.map (fun _ => (f r b.authorization a.authorization).1),
        (f r b.authorization a.authorization).2) : Action B × R)) r l).2 =
        (mapState (fun r a => f r b.authorization a) r (l.map Action.authorization)).2 := by
    intro r l
    induction l generalizing r with
    | nil => exact ⟨rfl, rfl, rfl⟩
    | cons a l ih =>
      obtain ⟨h1, h2, h3⟩ := ih (f r b.authorization a.authorization).2
      simp only [mapState, List.map_cons]
      refine ⟨?_, ?_, h3⟩
      · rw [h1]; rfl
      · rw [h2]; rfl
  obtain ⟨h1, h2, h3⟩ := hacts r b.actions
  refine ⟨(mapState (fun r a => f r b.authorization a) r (b.actions.map Action.authorization)).1,
    (mapState (fun r a => f r b.authorization a) r (b.actions.map Action.authorization)).2,
    (b.mapAuthorization r f g).1.authorization, ?_, ?_, ?_⟩
  · generalize mapState (fun r a => f r b.authorization a) r (b.actions.map Action.authorization) = z at hs
    generalize b.actions.map Action.authorization = l at hs
    revert hs
    generalize z.1 = bs
    generalize z.2 = rr
    clear h1 h2 h3
    intro hs
    induction hs with
    | nil r => exact .nil r
    | cons k1 k2 ih => exact .cons (by rw [k1]) ih
  · unfold Bundle.mapAuthorization
    simp only
    rw [h3]
  · exact ⟨h1, h2, rfl, rfl, rfl, rfl⟩

/-- A run in which the second of three actions fails: its error is reported, and the third action is
not visited (the state counts visits). -/
example : ((⟨[exampleAction 1, exampleAction 0, exampleAction 5], by simp, Flags.ENABLED, (), 3, ()⟩ :
      Bundle Unit ℕ Unit).tryMapAuthorization (U := Unit) (0 : ℕ)
      (fun r _ a => (if a = 0 then .error "zero" else .ok (a + 1), r + 1))
      (fun r _ => (.ok (), r))).2 = 2 ∧
    ((⟨[exampleAction 1, exampleAction 0, exampleAction 5], by simp, Flags.ENABLED, (), 3, ()⟩ :
      Bundle Unit ℕ Unit).tryMapAuthorization (U := Unit) (B := ℕ) (0 : ℕ)
      (fun r _ a => (if a = 0 then .error "zero" else .ok (a + 1), r + 1))
      (fun r _ => (.ok (), r))).1 = .ret (.error "zero") := by
  exact ⟨rfl, rfl⟩

/-! ### C27: public inputs -/

theorem coordinates_eq_none {A : Point} : Point.coordinates A = none ↔ A = 0 := by
  cases A with
  | zero => exact ⟨fun _ => rfl, fun _ => rfl⟩
  | some x y h =>
    exact ⟨fun h => (nomatch h), fun h => (nomatch h)⟩

/-- **C27** (layout). The nine public inputs of an instance whose `rk` is not the identity. -/
theorem C27_layout (i : Instance) (x y : Fp) (h : y ^ 2 = x ^ 3 + 5)
    (hrk : i.rk.point = Point.ofXY x y h) :
    i.toHalo2 = .ret [i.anchor, i.cvNet.x, i.cvNet.y, i.nfOld, x, y, i.cmx,
      if i.enableSpend then 1 else 0, if i.enableOutput then 1 else 0] := by
  unfold Instance.toHalo2 RedPallas.VerificationKey.toBytes
  rw [Point.fromBytes_toBytes, Option.unwrapO_some, Outcome.ret_bind, hrk]
  rfl

/-- **C27** (definedness). The public inputs are well defined exactly if `rk` is not the identity;
otherwise their computation panics. -/
theorem C27_defined (i : Instance) :
    (i.toHalo2 = .panic ↔ i.rk.point = 0) ∧
    (i.rk.point ≠ 0 → ∃ v, i.toHalo2 = .ret v ∧ v.length = 9) := by
  unfold Instance.toHalo2 RedPallas.VerificationKey.toBytes
  rw [Point.fromBytes_toBytes, Option.unwrapO_some, Outcome.ret_bind]
  cases hc : Point.coordinates i.rk.point with
  | none =>
    have := coordinates_eq_none.1 hc
    simp [this]
  | some c =>
    have : i.rk.point ≠ 0 := fun h => by rw [coordinates_eq_none.2 h] at hc; simp at hc
    simp [this]

theorem xy_inj {a b : ValueCommitment} (hx : a.x = b.x) (hy : a.y = b.y) : a = b := by
  obtain ⟨a⟩ := a
  obtain ⟨b⟩ := b
  have h00 : ∀ {x y : Fp} (_ : y ^ 2 = x ^ 3 + 5), ¬ (x = 0 ∧ y = 0) := by
    rintro x y h ⟨h1, -⟩
    exact x_ne_zero_of_onCurve h h1
  rcases Point.cases_xy a with rfl | ⟨x, y, h, rfl⟩ <;> rcases Point.cases_xy b with rfl | ⟨x', y', h', rfl⟩
  · rfl
  · exact absurd ⟨hx.symm, hy.symm⟩ (h00 h')
  · exact absurd ⟨hx, hy⟩ (h00 h)
  · have e1 : x = x' := hx
    have e2 : y = y' := hy
    subst e1 e2
    rfl

/-- **C27** (injectivity). Instances with the same public inputs are the same. -/
theorem C27_injective (i i' : Instance) (v : List Fp) (h : i.toHalo2 = .ret v)
    (h' : i'.toHalo2 = .ret v) : i = i' := by
  have hne : ∀ j : Instance, j.toHalo2 = .ret v → j.rk.point ≠ 0 := by
    intro j hj h0
    rw [(C27_defined j).1.2 h0] at hj; simp at hj
  rcases Point.cases_xy i.rk.point with h0 | ⟨x, y, hxy, e⟩
  · exact absurd h0 (hne i h)
  rcases Point.cases_xy i'.rk.point with h0 | ⟨x', y', hxy', e'⟩
  · exact absurd h0 (hne i' h')
  rw [C27_layout i x y hxy e] at h
  rw [C27_layout i' x' y' hxy' e'] at h'
  have hb : ∀ {a b : Bool}, (if a then (1 : Fp) else 0) = (if b then 1 else 0) → a = b := by
    intro a b
    cases a <;> cases b <;> simp
  have heq := h.trans h'.symm
  simp only [Outcome.ret.injEq, List.cons.injEq, and_true] at heq
  obtain ⟨e1, e2, e3, e4, e5, e6, e7, e8, e9⟩ := heq
  obtain ⟨a1, a2, a3, ⟨a4⟩, a5, a6, a7⟩ := i
  obtain ⟨b1, b2, b3, ⟨b4⟩, b5, b6, b7⟩ := i'
  simp only at *
  subst e1 e4 e7 e5 e6
  have := xy_inj e2 e3
  subst this
  have := hb e8; subst this
  have := hb e9; subst this
  rw [e, e']

/-- **C27** (order). The instances of a bundle are those of its actions, in order, each with the
bundle's flags and anchor. -/
theorem C27_instances {T A V : Type} (b : Bundle T A V) (k : ℕ) :
    b.toInstances[k]? = (b.actions[k]?).map fun a =>
      { anchor := b.anchor, cvNet := a.cvNet, nfOld := a.nf, rk := a.rk, cmx := a.cmx,
        enableSpend := b.flags.spendsEnabled, enableOutput := b.flags.outputsEnabled } := by
  unfold Bundle.toInstances
  rw [List.getElem?_map]
  rfl

theorem mapM_panic {X Y : Type} {f : X → Outcome Y} {l : List X} (h : ∃ x ∈ l, f x = .panic)
    : l.mapM f = .panic := by
  induction l with
  | nil => simp at h
  | cons a l ih =>
    rw [List.mapM_cons]
    cases hf : f a with
    | panic => rfl
    | ret y =>
      rw [Outcome.ret_bind, ih]
      · rfl
      · obtain ⟨x, hx, hp⟩ := h
        rcases List.mem_cons.1 hx with rfl | hx
        · rw [hf] at hp; simp at hp
        · exact ⟨x, hx, hp⟩

theorem mapM_ret {X Y : Type} {f : X → Outcome Y} : ∀ {l : List X} {ys : List Y}, ys.length = l.length →
    (∀ (k : ℕ) x y, l[k]? = some x → ys[k]? = some y → f x = .ret y) → l.mapM f = .ret ys
  | [], [], _, _ => rfl
  | [], _ :: _, h, _ => by simp at h
  | _ :: _, [], h, _ => by simp at h
  | x :: l, y :: ys, h, hf => by
    rw [List.mapM_cons, hf 0 x y rfl rfl, Outcome.ret_bind,
      mapM_ret (by simpa using h) fun k x y hx hy => hf (k + 1) x y (by simpa using hx) (by simpa using hy)]
    rfl

/-- **C27** (verification). `verify_proof` gives the verifier the bundle's proof and one vector of
public inputs for each action, in order. -/
theorem C27_verify_proof {V : Type} (verifier : List (List Fp) → List UInt8 → Bool)
    (b : AuthorizedBundle V) (xs : List (List Fp)) (hlen : xs.length = b.actions.length)
    (h : ∀ (k : ℕ) a v, b.actions[k]? = some a → xs[k]? = some v →
      ({ anchor := b.anchor, cvNet := a.cvNet, nfOld := a.nf, rk := a.rk, cmx := a.cmx,
         enableSpend := b.flags.spendsEnabled, enableOutput := b.flags.outputsEnabled } :
        Instance).toHalo2 = .ret v) :
    b.verifyProof verifier = .ret (verifier xs b.authorization.proof) := by
  unfold Bundle.verifyProof proofVerify
  rw [mapM_ret (ys := xs)]
  · rfl
  · unfold Bundle.toInstances
    rw [List.length_map]
    exact hlen
  · intro k i v hi hv
    rw [C27_instances] at hi
    obtain ⟨a, ha, rfl⟩ := Option.map_eq_some_iff.1 hi
    exact h k a v ha hv

/-- The vectors exist unless some `rk` is the identity. -/
example {V : Type} (b : AuthorizedBundle V) (hrk : ∀ a ∈ b.actions, a.rk.point ≠ 0) :
    ∃ xs : List (List Fp), xs.length = b.actions.length ∧
      ∀ (k : ℕ) a v, b.actions[k]? = some a → xs[k]? = some v →
        ({ anchor := b.anchor, cvNet := a.cvNet, nfOld := a.nf, rk := a.rk, cmx := a.cmx,
           enableSpend := b.flags.spendsEnabled, enableOutput := b.flags.outputsEnabled } :
          Instance).toHalo2 = .ret v := by
  refine ⟨b.actions.map fun a => match (a.toInstance b.flags b.anchor).toHalo2 with
    | .ret v => v
    | .panic => [], List.length_map _, fun k a v ha hv => ?_⟩
  obtain ⟨v', hv', -⟩ := (C27_defined (a.toInstance b.flags b.anchor)).2
    (hrk a (List.mem_of_getElem? ha))
  rw [List.getElem?_map, ha, Option.map_some, hv', Option.some.injEq] at hv
  rw [← hv]
  exact hv'

/-- **C27** (finding). The identity is accepted as an encoding of `rk`, and proof verification of a
bundle containing an action with that `rk` panics instead of failing. -/
theorem C27_identity_rk_panics :
    RedPallas.VerificationKey.fromBytes (T := .spendAuth) (Bytes.ofNat 32 0) = some ⟨0⟩ ∧
    ∀ {V : Type} (verifier : List (List Fp) → List UInt8 → Bool) (b : AuthorizedBundle V),
      (∃ a ∈ b.actions, a.rk = ⟨0⟩) → b.verifyProof verifier = .panic := by
  constructor
  · unfold RedPallas.VerificationKey.fromBytes
    have : Point.fromBytes (Bytes.ofNat 32 0) = some 0 := by
      rw [Point.fromBytes_eq_some_iff]
      exact Point.toBytes_zero
    rw [this]
    rfl
  · rintro V verifier b ⟨a, ha, hrk⟩
    unfold Bundle.verifyProof proofVerify
    rw [mapM_panic]
    · rfl
    · refine ⟨a.toInstance b.flags b.anchor, List.mem_map.2 ⟨a, ha, rfl⟩, ?_⟩
      rw [(C27_defined _).1]
      unfold Action.toInstance
      simp [hrk]

/-- A concrete instance. -/
example : (⟨5, ⟨0⟩, 7, ⟨Constants.spendAuthG⟩, 9, true, false⟩ : Instance).toHalo2 =
    .ret [5, 0, 0, 7, 25027635063850382358429654596649554085117301901282348152423547104939793041763,
      12128007492603938773365931378340937928001494939630793217712875072231079427017, 9, 1, 0] :=
  C27_layout _ _ _ (by decide +kernel) rfl

end Orchard
