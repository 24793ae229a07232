import Verif.Model.Note
import Verif.Model.Zip32
import Verif.Spec.Zip32
import Verif.Props.Keys

/-!
# Property C50: hierarchical key derivation
-/

namespace Orchard

open Zip32 Zip32.ExtendedSpendingKey

/-! ### Derived full viewing keys -/

/-- **C29, C30.** The full viewing key of a spending key is the one of the specification; the
derivation panics exactly if `ask` is zero. -/
theorem C29_full_viewing_key (P : Prims) (sk : SpendingKey) :
    FullViewingKey.ofSk P sk = if Spec.askScalar P sk.bytes = 0 then .panic else
      .ret ⟨⟨Spec.ak P sk.bytes⟩, Spec.nk P sk.bytes, Spec.rivk P sk.bytes⟩ := by
  have e : askInner P sk = Spec.askScalar P sk.bytes := rfl
  by_cases h0 : Spec.askScalar P sk.bytes = 0
  · rw [if_pos h0]
    unfold FullViewingKey.ofSk
    rw [askOfSk_zero h0]; rfl
  · rw [if_neg h0]
    unfold FullViewingKey.ofSk SpendAuthorizingKey.ofSk
    simp only [e, h0, ne_eq, not_false_eq_true, decide_true, assertO_true, Outcome.ret_bind,
      Outcome.pure_eq]
    by_cases h1 : (Spec.askScalar P sk.bytes • Constants.spendAuthG).toBytes.toNat / 2 ^ 255 = 1
    · have h2 : Spec.ySign (Spec.askScalar P sk.bytes • Constants.spendAuthG) = 1 := by
        rw [← signBit_eq_ySign]; exact h1
      have h3 : (RedPallas.SigningKey.vk (T := .spendAuth)
        ⟨Spec.askScalar P sk.bytes⟩).toBytes.toNat / 2 ^ 255 = 1 := h1
      rw [if_pos h3]
      unfold Spec.ak Spec.ask
      rw [if_pos h2]; rfl
    · have h2 : ¬ Spec.ySign (Spec.askScalar P sk.bytes • Constants.spendAuthG) = 1 := by
        rw [← signBit_eq_ySign]; exact h1
      have h3 : ¬ (RedPallas.SigningKey.vk (T := .spendAuth)
        ⟨Spec.askScalar P sk.bytes⟩).toBytes.toNat / 2 ^ 255 = 1 := h1
      rw [if_neg h3]
      unfold Spec.ak Spec.ask
      rw [if_neg h2]; rfl

/-- **C30.** `SpendingKey::from_bytes` returns a key exactly for the valid spending keys of the
specification, and `None` exactly for keys with non-zero `ask` but invalid viewing keys. -/
theorem C30_valid_keys (P : Prims) (b : Bytes 32) :
    (SpendingKey.fromBytes P b = .ret (some ⟨b⟩) ↔ Spec.ValidSk P b) ∧
    (SpendingKey.fromBytes P b = .ret none ↔ Spec.askScalar P b ≠ 0 ∧ ¬ Spec.ValidSk P b) ∧
    (SpendingKey.fromBytes P b = .panic ↔ Spec.askScalar P b = 0) := by
  by_cases h : Spec.askScalar P b = 0
  · rw [(C30_panics_on_zero_ask P b).2 h]
    simp [Spec.ValidSk, h]
  · obtain ⟨r, fvk, h1, h2, h3, h4⟩ := C30_spending_key_partial P b h
    rw [C29_full_viewing_key, if_neg h, Outcome.ret.injEq] at h2
    subst h2
    simp only at h4
    rw [h1]
    have h5 : Spec.ValidSk P b ↔ r.isSome := by
      rw [h4]; unfold Spec.ValidSk; exact and_iff_right h
    cases r with
    | none => simp [h5, h]
    | some sk =>
      have : sk = ⟨b⟩ := by
        have := h3 sk rfl
        cases sk; simp only at this; rw [this]
      subst this
      simp [h5, h]

/-- **C30.** `SpendingKey::random` returns the first drawn key that is valid, consumes exactly the draws up to it, and
panics on no draw before it. -/
theorem C30_random (P : Prims) (draws rest : List (Bytes 32)) (sk : SpendingKey) :
    SpendingKey.random P draws = .ret (some (sk, rest)) ↔
      ∃ rejected, draws = rejected ++ sk.bytes :: rest ∧ Spec.ValidSk P sk.bytes ∧
        ∀ b ∈ rejected, Spec.askScalar P b ≠ 0 ∧ ¬ Spec.ValidSk P b := by
  induction draws with
  | nil =>
    unfold SpendingKey.random
    constructor
    · intro h; cases h
    · rintro ⟨rej, h, -⟩; simp at h
  | cons b draws ih =>
    obtain ⟨h1, h2, h3⟩ := C30_valid_keys P b
    unfold SpendingKey.random
    cases hb : SpendingKey.fromBytes P b with
    | panic =>
      constructor
      · intro h; cases h
      rintro ⟨rej, h, hv, hr⟩
      cases rej with
      | nil =>
        simp only [List.nil_append, List.cons.injEq] at h
        rw [← h.1] at hv
        exact absurd (h3.1 hb) hv.1
      | cons c rej =>
        simp only [List.cons_append, List.cons.injEq] at h
        exact absurd (h3.1 hb) (h.1 ▸ (hr c (by simp)).1)
    | ret o =>
      cases o with
      | none =>
        show SpendingKey.random P draws = _ ↔ _
        rw [ih]
        have hn := h2.1 hb
        constructor
        · rintro ⟨rej, rfl, hv, hr⟩
          refine ⟨b :: rej, rfl, hv, ?_⟩
          intro c hc
          rcases List.mem_cons.1 hc with rfl | hc
          · exact hn
          · exact hr c hc
        · rintro ⟨rej, h, hv, hr⟩
          cases rej with
          | nil =>
            simp only [List.nil_append, List.cons.injEq] at h
            rw [← h.1] at hv
            exact absurd hv hn.2
          | cons c rej =>
            simp only [List.cons_append, List.cons.injEq] at h
            exact ⟨rej, h.2, hv, fun x hx => hr x (by simp [hx])⟩
      | some sk' =>
        have hv' : Spec.ValidSk P b := by
          by_contra hn
          have h0 : Spec.askScalar P b ≠ 0 := fun h0 => by rw [h3.2 h0] at hb; cases hb
          rw [h2.2 ⟨h0, hn⟩] at hb
          cases hb
        have hsk : sk' = ⟨b⟩ := by
          rw [h1.2 hv'] at hb
          cases hb; rfl
        subst hsk
        show Outcome.ret (some (_, draws)) = _ ↔ _
        constructor
        · intro h
          cases h
          exact ⟨[], rfl, hv', by simp⟩
        · rintro ⟨rej, h, hv, hr⟩
          cases rej with
          | nil =>
            simp only [List.nil_append, List.cons.injEq] at h
            cases sk
            cases h.1
            cases h.2
            rfl
          | cons c rej =>
            simp only [List.cons_append, List.cons.injEq] at h
            exact absurd (h.1 ▸ hv') (hr c (by simp)).2

/-! ### Derivation -/

theorem fvkBytes_eq (P : Prims) (sk : Bytes 32) :
    (FullViewingKey.toBytes ⟨⟨Spec.ak P sk⟩, Spec.nk P sk, Spec.rivk P sk⟩).toList =
      Spec.fvkBytes P sk := by
  simp [FullViewingKey.toBytes, Spec.fvkBytes, RedPallas.VerificationKey.toBytes]

theorem fromBytes_ret {P : Prims} {b : Bytes 32} {r : Option SpendingKey}
    (h : SpendingKey.fromBytes P b = .ret r) :
    (r = some ⟨b⟩ ∧ Spec.ValidSk P b) ∨ (r = none ∧ ¬ Spec.ValidSk P b) := by
  obtain ⟨h1, h2, h3⟩ := C30_valid_keys P b
  by_cases hv : Spec.ValidSk P b
  · have := h1.2 hv
    rw [h, Outcome.ret.injEq] at this
    exact .inl ⟨this, hv⟩
  · by_cases h0 : Spec.askScalar P b = 0
    · rw [h3.2 h0] at h; simp at h
    · have := h2.2 ⟨h0, hv⟩
      rw [h, Outcome.ret.injEq] at this
      exact .inr ⟨this, hv⟩

/-- What an extended key for the path must contain. -/
structure Spec.IsDerived (P : Prims) (seed : List UInt8) (path : List ℕ)
    (x : ExtendedSpendingKey) : Prop where
  depth : x.depth.toNat = path.length
  sk : x.sk.bytes = (Spec.pathNode P seed path).sk
  chainCode : x.chainCode = (Spec.pathNode P seed path).c
  master : path = [] → x.parentFvkTag.toList = [0, 0, 0, 0] ∧ x.childIndex = none
  child : ∀ init i, path = init ++ [i] →
    x.parentFvkTag.toList = Spec.fvkTag P (Spec.pathNode P seed init).sk ∧
    ∃ k : ChildIndex, x.childIndex = some k ∧ k.index.toNat = i

/-- All spending keys from the root to the end of the path are valid. -/
def Spec.AllValid (P : Prims) (seed : List UInt8) (path : List ℕ) : Prop :=
  ∀ n ≤ path.length, Spec.ValidSk P (Spec.pathNode P seed (path.take n)).sk

theorem allValid_snoc {P : Prims} {seed : List UInt8} {path : List ℕ} {i : ℕ} :
    Spec.AllValid P seed (path ++ [i]) ↔ Spec.AllValid P seed path ∧
      Spec.ValidSk P (Spec.pathNode P seed (path ++ [i])).sk := by
  unfold Spec.AllValid
  constructor
  · intro h
    refine ⟨fun n hn => ?_, ?_⟩
    · have := h n (by simp; omega)
      rwa [List.take_append_of_le_length hn] at this
    · have := h (path.length + 1) (by simp)
      rwa [List.take_of_length_le (by simp)] at this
  · rintro ⟨h1, h2⟩ n hn
    rw [List.length_append, List.length_singleton] at hn
    rcases Nat.lt_or_ge path.length n with h | h
    · rw [List.take_of_length_le (by simp; omega)]; exact h2
    · rw [List.take_append_of_le_length h]; exact h1 n h

theorem deriveAlong_append (P : Prims) (l l' : List ChildIndex) : ∀ x : ExtendedSpendingKey,
    deriveAlong P x (l ++ l') = (deriveAlong P x l >>= fun r =>
      match r with | .error e => pure (.error e) | .ok y => deriveAlong P y l') := by
  induction l with
  | nil => intro x; rfl
  | cons i l ih =>
    intro x
    simp only [List.cons_append, deriveAlong]
    cases h : deriveChild P x i with
    | panic => rfl
    | ret r =>
      cases r with
      | error e => rfl
      | ok y => simp only [Outcome.ret_bind]; exact ih y

theorem deriveAlong_single (P : Prims) (x : ExtendedSpendingKey) (i : ChildIndex) :
    deriveAlong P x [i] = deriveChild P x i := by
  simp only [deriveAlong]
  cases deriveChild P x i with
  | panic => rfl
  | ret r => cases r <;> rfl

/-- **C50** (composition). Deriving along a concatenated path is deriving along the first part and
then along the second; in particular paths can be followed one child at a time. -/
theorem C50_composition (P : Prims) (seed : List UInt8) (l l' : List ChildIndex) (i : ChildIndex) :
    (∀ r, fromPath P seed l = .ret r → fromPath P seed (l ++ l') =
      match r with | .error e => .ret (.error e) | .ok y => deriveAlong P y l') ∧
    (∀ x, fromPath P seed l = .ret (.ok x) → fromPath P seed (l ++ [i]) = deriveChild P x i) ∧
    (fromPath P seed l = .panic → fromPath P seed (l ++ l') = .panic) := by
  have key : fromPath P seed (l ++ l') = (fromPath P seed l >>= fun r =>
      match r with | .error e => pure (.error e) | .ok y => deriveAlong P y l') := by
    unfold fromPath
    cases h : master P seed with
    | panic => rfl
    | ret r =>
      cases r with
      | error e => rfl
      | ok y => simp only [Outcome.ret_bind]; exact deriveAlong_append P l l' y
  have key' : ∀ l' : List ChildIndex, fromPath P seed (l ++ l') = (fromPath P seed l >>= fun r =>
      match r with | .error e => pure (.error e) | .ok y => deriveAlong P y l') := by
    intro l'
    unfold fromPath
    cases h : master P seed with
    | panic => rfl
    | ret r =>
      cases r with
      | error e => rfl
      | ok y => simp only [Outcome.ret_bind]; exact deriveAlong_append P l l' y
  refine ⟨?_, ?_, ?_⟩
  · intro r hr
    rw [key, hr, Outcome.ret_bind]
    cases r <;> rfl
  · intro x hx
    rw [key', hx, Outcome.ret_bind]
    exact deriveAlong_single P x i
  · intro h; rw [key, h, Outcome.panic_bind]

/-- **C50** (seed length). Seeds shorter than 32 or longer than 252 bytes are rejected by a panic. -/
theorem C50_seed_length (P : Prims) (seed : List UInt8) (path : List ChildIndex)
    (h : seed.length < 32 ∨ 252 < seed.length) : fromPath P seed path = .panic := by
  unfold fromPath master
  have : (decide (seed.length ≥ 32) && decide (seed.length ≤ 252)) = false := by
    simp only [Bool.and_eq_false_iff, decide_eq_false_iff_not]; omega
  rw [this]; rfl

/-- The three possible outcomes of deriving along a path, by induction over the path. -/
theorem fromPath_cases (P : Prims) (seed : List UInt8) (h32 : 32 ≤ seed.length)
    (h252 : seed.length ≤ 252) (path : List ChildIndex) :
    (Spec.AllValid P seed (path.map fun i => i.index.toNat) → path.length ≤ 255 →
      ∃ x, fromPath P seed path = .ret (.ok x) ∧
        Spec.IsDerived P seed (path.map fun i => i.index.toNat) x) ∧
    (∀ r, fromPath P seed path = .ret r →
      (∃ x, r = .ok x ∧ Spec.AllValid P seed (path.map fun i => i.index.toNat) ∧
        path.length ≤ 255) ∨
      (r = .error .invalidSpendingKey ∧
        ¬ Spec.AllValid P seed (path.map fun i => i.index.toNat))) := by
  induction path using List.reverseRecOn with
  | nil =>
    have hlen : (decide (seed.length ≥ 32) && decide (seed.length ≤ 252)) = true := by
      simp only [Bool.and_eq_true, decide_eq_true_eq]; exact ⟨h32, h252⟩
    have hn : Spec.AllValid P seed [] ↔ Spec.ValidSk P (Spec.masterNode P seed).sk := by
      unfold Spec.AllValid Spec.pathNode
      constructor
      · intro h; exact h 0 le_rfl
      · intro h n hn; simpa using h
    have hm : fromPath P seed [] = (SpendingKey.fromBytes P (Spec.masterNode P seed).sk >>= fun r =>
        match r with
        | none => .ret (.error .invalidSpendingKey)
        | some skm => .ret (.ok ⟨0, Bytes.replicate 4 0, none, (Spec.masterNode P seed).c, skm⟩)) := by
      unfold fromPath master
      rw [hlen]
      simp only [assertO_true, Outcome.ret_bind, Outcome.pure_eq]
      change ((SpendingKey.fromBytes P (Spec.masterNode P seed).sk >>= _) >>= _) = _
      cases SpendingKey.fromBytes P (Spec.masterNode P seed).sk with
      | panic => rfl
      | ret r => cases r <;> rfl
    rw [hm, List.map_nil, hn]
    constructor
    · intro hv _
      rw [(C30_valid_keys P _).1.2 hv]
      refine ⟨_, rfl, ⟨rfl, rfl, rfl, fun _ => ⟨rfl, rfl⟩, fun init i h => ?_⟩⟩
      exact absurd h (by simp)
    · intro r hr
      rw [Outcome.bind_eq_ret] at hr
      obtain ⟨a, h1, h2⟩ := hr
      rcases fromBytes_ret h1 with ⟨rfl, hv⟩ | ⟨rfl, hv⟩
      · simp only [Outcome.ret.injEq] at h2
        exact .inl ⟨_, h2.symm, hv, by simp⟩
      · simp only [Outcome.ret.injEq] at h2
        exact .inr ⟨h2.symm, hv⟩
  | append_singleton path i ih =>
    obtain ⟨ih1, ih2⟩ := ih
    rw [List.map_append, List.map_singleton, allValid_snoc]
    have hnode : Spec.pathNode P seed (path.map (fun i => i.index.toNat) ++ [i.index.toNat]) =
        Spec.childNode P (Spec.pathNode P seed (path.map fun i => i.index.toNat)) i.index.toNat := by
      unfold Spec.pathNode; rw [List.foldl_append]; rfl
    have hstep : ∀ x, Spec.IsDerived P seed (path.map fun i => i.index.toNat) x →
        Spec.ValidSk P (Spec.pathNode P seed (path.map fun i => i.index.toNat)).sk →
        deriveChild P x i = (SpendingKey.fromBytes P
          (Spec.pathNode P seed (path.map (fun i => i.index.toNat) ++ [i.index.toNat])).sk >>= fun r =>
          match r with
          | none => .ret (.error .invalidSpendingKey)
          | some ski => if x.depth.toNat + 1 < 256 then
            .ret (.ok ⟨x.depth + 1, fingerprintTag (P.blake2b256 (ascii "ZcashOrchardFVFP")
              (Spec.fvkBytes P x.sk.bytes)), some i,
              (Spec.pathNode P seed (path.map (fun i => i.index.toNat) ++ [i.index.toNat])).c, ski⟩)
            else .panic) := by
      intro x hx hv
      have hI : prfExpand P 0x81 x.chainCode (x.sk.bytes.toList ++ leBytes 4 i.index.toNat) =
          P.blake2b512 (ascii "Zcash_ExpandSeed")
            ((Spec.pathNode P seed (path.map fun i => i.index.toNat)).c.toList ++ [0x81] ++
              (Spec.pathNode P seed (path.map fun i => i.index.toNat)).sk.toList ++
                leBytes 4 i.index.toNat) := by
        unfold prfExpand
        rw [hx.chainCode, hx.sk]
        congr 1
        simp
      unfold deriveChild
      simp only [hI]
      rw [hnode]
      change (SpendingKey.fromBytes P (Spec.childNode P _ i.index.toNat).sk >>= _) = _
      cases SpendingKey.fromBytes P (Spec.childNode P
        (Spec.pathNode P seed (path.map fun i => i.index.toNat)) i.index.toNat).sk with
      | panic => rfl
      | ret r =>
        cases r with
        | none => rfl
        | some ski =>
          simp only [Outcome.ret_bind]
          have hv' : Spec.askScalar P x.sk.bytes ≠ 0 := by rw [hx.sk]; exact hv.1
          rw [C29_full_viewing_key, if_neg hv', Outcome.ret_bind]
          unfold fingerprint
          rw [fvkBytes_eq]
          by_cases hd : x.depth.toNat + 1 < 256
          · simp only [hd, decide_true, assertO_true, Outcome.ret_bind, if_true]
            rfl
          · simp only [hd, decide_false, assertO_false, Outcome.panic_bind, if_false]
    constructor
    · rintro ⟨hv1, hv2⟩ hl
      rw [List.length_append, List.length_singleton] at hl
      obtain ⟨x, hx1, hx2⟩ := ih1 hv1 (by omega)
      have hvx : Spec.ValidSk P (Spec.pathNode P seed (path.map fun i => i.index.toNat)).sk := by
        have := hv1 (path.map fun i => i.index.toNat).length le_rfl
        rwa [List.take_length] at this
      have hd : x.depth.toNat = path.length := by rw [hx2.depth, List.length_map]
      have hd' : x.depth.toNat + 1 < 256 := by omega
      rw [(C50_composition P seed path [] i).2.1 x hx1, hstep x hx2 hvx, (C30_valid_keys P _).1.2 hv2,
        Outcome.ret_bind]
      simp only [if_pos hd']
      refine ⟨_, rfl, ?_⟩
      refine ⟨?_, rfl, rfl, fun h => absurd h (by simp), ?_⟩
      · rw [UInt8.toNat_add, List.length_append, List.length_map, List.length_singleton, ← hd]
        exact Nat.mod_eq_of_lt hd'
      · intro init j hj
        obtain ⟨rfl, hj'⟩ := List.append_inj' hj rfl
        refine ⟨?_, i, rfl, List.head_eq_of_cons_eq hj'⟩
        simp only [fingerprintTag, Bytes.toList_slice, List.drop_zero]
        rw [hx2.sk]; rfl
    · intro r hr
      cases h : fromPath P seed path with
      | panic =>
        rw [(C50_composition P seed path [i] i).2.2 h] at hr; simp at hr
      | ret r0 =>
        rcases ih2 r0 h with ⟨x, rfl, hv, hl⟩ | ⟨rfl, hv⟩
        · rw [(C50_composition P seed path [] i).2.1 x h] at hr
          obtain ⟨x', hx1, hx2⟩ := ih1 hv hl
          rw [h, Outcome.ret.injEq, Except.ok.injEq] at hx1
          subst hx1
          have hvx : Spec.ValidSk P (Spec.pathNode P seed (path.map fun i => i.index.toNat)).sk := by
            have := hv (path.map fun i => i.index.toNat).length le_rfl
            rwa [List.take_length] at this
          rw [hstep x hx2 hvx, Outcome.bind_eq_ret] at hr
          obtain ⟨a, h1, h2⟩ := hr
          rcases fromBytes_ret h1 with ⟨rfl, hv2⟩ | ⟨rfl, hv2⟩
          · simp only at h2
            split_ifs at h2 with hd
            rw [Outcome.ret.injEq] at h2
            refine .inl ⟨_, h2.symm, ⟨hv, hv2⟩, ?_⟩
            have := hx2.depth
            rw [List.length_map] at this
            rw [List.length_append, List.length_singleton]; omega
          · simp only [Outcome.ret.injEq] at h2
            exact .inr ⟨h2.symm, fun h => hv2 h.2⟩
        · rw [(C50_composition P seed path [i] i).1 _ h] at hr
          simp only [Outcome.ret.injEq] at hr
          exact .inr ⟨hr.symm, fun h => hv h.1⟩

/-- **C50.** For a seed of admissible length, deriving along a path of at most 255 hardened indices
gives a key exactly if every spending key from the root to the end of the path is valid; the key
has depth equal to the path length, the spending key and chain code defined by ZIP 32 for that path,
and records the last index and the tag of its parent.  The only error is `InvalidSpendingKey`, and
it is only returned if some key on the path is invalid. -/
theorem C50_derivation (P : Prims) (seed : List UInt8) (h32 : 32 ≤ seed.length)
    (h252 : seed.length ≤ 252) (path : List ChildIndex) :
    ((∃ x, fromPath P seed path = .ret (.ok x)) ↔
      Spec.AllValid P seed (path.map fun i => i.index.toNat) ∧ path.length ≤ 255) ∧
    (∀ x, fromPath P seed path = .ret (.ok x) →
      Spec.IsDerived P seed (path.map fun i => i.index.toNat) x) ∧
    (∀ e, fromPath P seed path = .ret (.error e) → e = .invalidSpendingKey ∧
      ¬ Spec.AllValid P seed (path.map fun i => i.index.toNat)) := by
  obtain ⟨h1, h2⟩ := fromPath_cases P seed h32 h252 path
  have h3 : ∀ x, fromPath P seed path = .ret (.ok x) →
      Spec.AllValid P seed (path.map fun i => i.index.toNat) ∧ path.length ≤ 255 := by
    intro x hx
    rcases h2 _ hx with ⟨x', -, hv, hl⟩ | ⟨h, -⟩
    · exact ⟨hv, hl⟩
    · simp at h
  refine ⟨⟨fun ⟨x, hx⟩ => h3 x hx, fun ⟨hv, hl⟩ => ?_⟩, ?_, ?_⟩
  · obtain ⟨x, hx, -⟩ := h1 hv hl
    exact ⟨x, hx⟩
  · intro x hx
    obtain ⟨hv, hl⟩ := h3 x hx
    obtain ⟨x', hx', hd⟩ := h1 hv hl
    rw [hx, Outcome.ret.injEq, Except.ok.injEq] at hx'
    exact hx' ▸ hd
  · intro e he
    rcases h2 _ he with ⟨x', h, -, -⟩ | ⟨h, hv⟩
    · simp at h
    · exact ⟨by simpa using h, hv⟩

/-- **C50** (depth limit). The depth counter is a byte: a derivation that reaches depth 255
successfully panics on the next valid child. -/
theorem C50_depth_limit (P : Prims) (seed : List UInt8) (h32 : 32 ≤ seed.length)
    (h252 : seed.length ≤ 252) (path : List ChildIndex) (hl : 255 < path.length)
    (hv : Spec.AllValid P seed (path.map fun i => i.index.toNat)) :
    fromPath P seed path = .panic := by
  cases h : fromPath P seed path with
  | panic => rfl
  | ret r =>
    rcases (fromPath_cases P seed h32 h252 path).2 r h with ⟨x, -, -, hl'⟩ | ⟨-, hv'⟩
    · omega
    · exact absurd hv hv'

/-- **C50** (`from_zip32_seed`). Coin types of at least `2^31` give `InvalidChildIndex`; otherwise
the result is the spending key at the end of the path `32' / coin_type' / account'`. -/
theorem C50_from_zip32_seed (P : Prims) (seed : List UInt8) (coin : UInt32) (account : AccountId) :
    (2 ^ 31 ≤ coin.toNat →
      SpendingKey.fromZip32Seed P seed coin account = .ret (.error (.invalidChildIndex coin))) ∧
    (coin.toNat < 2 ^ 31 → ∀ sk, SpendingKey.fromZip32Seed P seed coin account = .ret (.ok sk) ↔
      32 ≤ seed.length ∧ seed.length ≤ 252 ∧
      Spec.AllValid P seed [2 ^ 31 + 32, 2 ^ 31 + coin.toNat, 2 ^ 31 + account.id.toNat] ∧
      sk.bytes = (Spec.pathNode P seed
        [2 ^ 31 + 32, 2 ^ 31 + coin.toNat, 2 ^ 31 + account.id.toNat]).sk) ∧
    (coin.toNat < 2 ^ 31 → ∀ e, SpendingKey.fromZip32Seed P seed coin account = .ret (.error e) →
      e = .invalidSpendingKey) := by
  have hmk : ∀ v : UInt32, v.toNat < 2 ^ 31 →
      ∃ k : ChildIndex, ChildIndex.mkHardened v = .ret k ∧ k.index.toNat = 2 ^ 31 + v.toNat := by
    intro v hv
    unfold ChildIndex.mkHardened
    rw [dif_pos hv]
    refine ⟨_, rfl, ?_⟩
    simp only
    rw [UInt32.toNat_ofNat_of_lt' (by norm_num [UInt32.size]; omega)]
    omega
  obtain ⟨k1, e1, v1⟩ := hmk 32 (by decide)
  obtain ⟨k3, e3, v3⟩ := hmk account.id account.lt
  have h32 : (32 : UInt32).toNat = 32 := rfl
  rw [h32] at v1
  refine ⟨?_, ?_, ?_⟩
  · intro h
    unfold SpendingKey.fromZip32Seed
    rw [if_pos h]; rfl
  · intro h sk
    obtain ⟨k2, e2, v2⟩ := hmk coin h
    have hp : ([k1, k2, k3].map fun i => i.index.toNat) =
        [2 ^ 31 + 32, 2 ^ 31 + coin.toNat, 2 ^ 31 + account.id.toNat] := by
      simp only [List.map_cons, List.map_nil, v1, v2, v3]
    have e : SpendingKey.fromZip32Seed P seed coin account = (fromPath P seed [k1, k2, k3] >>= fun r =>
        match r with | .error e => pure (.error e) | .ok x => pure (.ok x.sk)) := by
      unfold SpendingKey.fromZip32Seed
      rw [if_neg (by omega)]
      simp only [e1, e2, e3, Outcome.ret_bind]
      rfl
    rw [e]
    by_cases hs : 32 ≤ seed.length ∧ seed.length ≤ 252
    · obtain ⟨d1, d2, d3⟩ := C50_derivation P seed hs.1 hs.2 [k1, k2, k3]
      rw [hp] at d1 d2 d3
      rw [Outcome.bind_eq_ret]
      constructor
      · rintro ⟨r, hr, h2⟩
        cases r with
        | error e => simp at h2
        | ok x =>
          simp only [Outcome.pure_eq, Outcome.ret.injEq, Except.ok.injEq] at h2
          subst h2
          exact ⟨hs.1, hs.2, (d1.1 ⟨x, hr⟩).1, (d2 x hr).sk⟩
      · rintro ⟨-, -, hv, hsk⟩
        obtain ⟨x, hx⟩ := d1.2 ⟨hv, by simp⟩
        refine ⟨_, hx, ?_⟩
        simp only [Outcome.pure_eq, Outcome.ret.injEq, Except.ok.injEq]
        have := (d2 x hx).sk
        rw [← hsk] at this
        cases hxs : x.sk; cases sk
        rw [hxs] at this
        simp only at this; rw [this]
    · rw [C50_seed_length P seed _ (by omega)]
      simp only [Outcome.panic_bind, reduceCtorEq, false_iff]
      rintro ⟨a, b, -⟩
      exact hs ⟨a, b⟩
  · intro h e he
    obtain ⟨k2, e2, v2⟩ := hmk coin h
    unfold SpendingKey.fromZip32Seed at he
    rw [if_neg (by omega)] at he
    simp only [e1, e2, e3, Outcome.ret_bind] at he
    rw [Outcome.bind_eq_ret] at he
    obtain ⟨r, hr, h2⟩ := he
    cases r with
    | ok x => simp at h2
    | error e' =>
      simp only [Outcome.pure_eq, Outcome.ret.injEq, Except.error.injEq] at h2
      subst h2
      by_cases hs : 32 ≤ seed.length ∧ seed.length ≤ 252
      · exact ((C50_derivation P seed hs.1 hs.2 _).2.2 _ hr).1
      · rw [C50_seed_length P seed _ (by omega)] at hr; simp at hr

/-- **C50** (encoded index). `KeyIndex::new` accepts exactly index 0 at depth 0 and hardened indices
at other depths, and `index()` returns the encoded index. -/
theorem C50_key_index (depth : UInt8) (i : UInt32) :
    ((∃ k, KeyIndex.new depth i = some k) ↔ (depth = 0 ∧ i = 0) ∨ (depth ≠ 0 ∧ 2 ^ 31 ≤ i.toNat)) ∧
    (∀ k, KeyIndex.new depth i = some k → KeyIndex.index k = i ∧ (k = none ↔ depth = 0)) := by
  unfold KeyIndex.new
  by_cases hd : depth = 0 <;> by_cases hi : i = 0
  · subst hd hi
    simp [KeyIndex.master, KeyIndex.index]
  · simp [hd, hi]
  · subst hi
    simp [hd, ChildIndex.fromIndex]
  · simp only [hd, hi, decide_false]
    unfold ChildIndex.fromIndex
    split_ifs with h
    · simp only [Option.map_some, KeyIndex.child, KeyIndex.index]
      simp [hd]; omega
    · simp [hd]; omega

/-- **C50** (equality). `ct_eq` decides equality of extended keys. -/
theorem C50_ct_eq (a b : ExtendedSpendingKey) : ctEq a b = true ↔ a = b := by
  cases a; cases b
  simp only [ctEq, Bool.and_eq_true, decide_eq_true_eq, ExtendedSpendingKey.mk.injEq]
  tauto

/-- **C50** (master key). Depth zero, index zero, and the tag of four zero bytes that stands for "no parent". -/
theorem C50_master (P : Prims) (seed : List UInt8) (x : ExtendedSpendingKey) (h : master P seed = .ret (.ok x)) :
    x.depth = 0 ∧ x.parentFvkTag = tagMaster ∧ tagMaster.toList = [0, 0, 0, 0] ∧ x.childIndex = KeyIndex.master ∧
      KeyIndex.index x.childIndex = 0 := by
  have h1 : ∃ c s, x = ⟨0, Bytes.replicate 4 0, KeyIndex.master, c, s⟩ := by
    unfold master at h
    cases hb : (decide (seed.length ≥ 32) && decide (seed.length ≤ 252)) with
    | false => rw [hb] at h; cases h
    | true =>
      rw [hb] at h
      simp only [assertO_true, Outcome.ret_bind, Outcome.pure_eq] at h
      generalize SpendingKey.fromBytes P _ = y at h
      cases y with
      | panic => cases h
      | ret r =>
        cases r with
        | none => cases h
        | some skm => cases h; exact ⟨_, _, rfl⟩
  obtain ⟨c, s, rfl⟩ := h1
  exact ⟨rfl, rfl, by decide +kernel, rfl, rfl⟩

/-- Under `P0` all keys are valid, so every path of at most 255 indices can be derived. -/
example (seed : List UInt8) (path : List ℕ) : Spec.AllValid Examples.P0 seed path := by
  intro n _
  rw [← (C30_valid_keys _ _).1]
  generalize (Spec.pathNode Examples.P0 seed (path.take n)).sk = b
  obtain ⟨r, fvk, h1, h2, h3, h4⟩ := C30_spending_key_partial Examples.P0 b
    (by rw [Examples.askScalar_P0]; exact one_ne_zero)
  obtain ⟨fvk', e1, -, -, hv⟩ := Examples.fvk_P0 ⟨b⟩
  rw [h2, Outcome.ret.injEq] at e1
  obtain ⟨sk, hsk⟩ := Option.isSome_iff_exists.1 (h4.2 (e1 ▸ hv))
  rw [h1, hsk]
  have := h3 sk hsk
  cases sk; simp only at this; rw [this]

end Orchard
