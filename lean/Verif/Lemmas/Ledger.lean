import Verif.Spec.Ledger
import Verif.Lemmas.Tree
import Verif.Lemmas.Note

/-!
# Lemmas about chains of accepted bundles
-/

namespace Orchard

open Spec

variable {T A V : Type} {P : Prims} {into : V → I64}

/-! ### Shape of the chain -/

theorem actionsOf_append (bs cs : List (OpenedBundle T A V)) :
    actionsOf (bs ++ cs) = actionsOf bs ++ actionsOf cs := List.flatMap_append

theorem cmxsOf_append (bs cs : List (OpenedBundle T A V)) :
    cmxsOf (bs ++ cs) = cmxsOf bs ++ cmxsOf cs := List.flatMap_append

theorem nullifiersOf_append (bs cs : List (OpenedBundle T A V)) :
    nullifiersOf (bs ++ cs) = nullifiersOf bs ++ nullifiersOf cs := List.flatMap_append

/-- Every bundle of a chain was accepted after a prefix of the chain. -/
theorem Spec.Chain.accepted {bs : List (OpenedBundle T A V)} (h : Chain P into bs) :
    ∀ b ∈ bs, ∃ pre, Accepted P into pre b := by
  induction h with
  | empty => simp
  | @accept bs b _ ha ih =>
    intro c hc
    rcases List.mem_append.1 hc with hc | hc
    · exact ih c hc
    · rw [List.mem_singleton.1 hc]; exact ⟨_, ha⟩

theorem opened_action {b : OpenedBundle T A V} (h : b.bundle.actions.length = b.secrets.length) :
    b.opened.map (·.action) = b.bundle.actions := by
  unfold OpenedBundle.opened
  rw [List.map_map]
  have : ((fun a : OpenedAction A => a.action) ∘ fun x : Action A × ActionWitness × MerkleTrace =>
    (⟨x.1, x.2.1, x.2.2⟩ : OpenedAction A)) = Prod.fst := rfl
  rw [this, List.map_fst_zip (by omega)]

theorem opened_secret {b : OpenedBundle T A V} (h : b.bundle.actions.length = b.secrets.length) :
    b.opened.map (fun a => (a.w, a.trace)) = b.secrets := by
  unfold OpenedBundle.opened
  rw [List.map_map]
  have : ((fun a : OpenedAction A => (a.w, a.trace)) ∘ fun x : Action A × ActionWitness × MerkleTrace =>
    (⟨x.1, x.2.1, x.2.2⟩ : OpenedAction A)) = Prod.snd := rfl
  rw [this, List.map_snd_zip (by omega)]

theorem Spec.Chain.length {bs : List (OpenedBundle T A V)} (h : Chain P into bs) :
    ∀ b ∈ bs, b.bundle.actions.length = b.secrets.length := by
  intro b hb
  obtain ⟨_, ha⟩ := h.accepted b hb
  exact ha.proof.length_eq

theorem cmxsOf_eq {bs : List (OpenedBundle T A V)}
    (h : ∀ b ∈ bs, b.bundle.actions.length = b.secrets.length) :
    cmxsOf bs = (actionsOf bs).map (·.action.cmx) := by
  unfold cmxsOf actionsOf
  induction bs with
  | nil => rfl
  | cons b bs ih =>
    rw [List.flatMap_cons, List.flatMap_cons, List.map_append,
      ih fun c hc => h c (List.mem_cons_of_mem _ hc), ← opened_action (h b (by simp)), List.map_map]
    rfl

theorem nullifiersOf_eq {bs : List (OpenedBundle T A V)}
    (h : ∀ b ∈ bs, b.bundle.actions.length = b.secrets.length) :
    nullifiersOf bs = (actionsOf bs).map (·.action.nf) := by
  unfold nullifiersOf actionsOf
  induction bs with
  | nil => rfl
  | cons b bs ih =>
    rw [List.flatMap_cons, List.flatMap_cons, List.map_append,
      ih fun c hc => h c (List.mem_cons_of_mem _ hc), ← opened_action (h b (by simp)), List.map_map]
    rfl

theorem Spec.Chain.nodup {bs : List (OpenedBundle T A V)} (h : Chain P into bs) :
    (nullifiersOf bs).Nodup := by
  cases h with
  | empty => simp [nullifiersOf]
  | accept _ ha => exact ha.nullifiers

/-- What is known of the action at an index of a chain. -/
theorem Spec.Chain.action {bs : List (OpenedBundle T A V)} (h : Chain P into bs) :
    ∀ (i : ℕ) (a : OpenedAction A), (actionsOf bs)[i]? = some a →
      ∃ (f : Flags) (anchor : Fp), ActionStatement P (a.action.toInstance f anchor) a.w ∧
        (a.w.vOld ≠ 0 → a.trace.Valid P a.w.path a.w.pos (extractP a.w.cmOld) anchor) ∧
        ∃ k ≤ bs.length, anchor = node P (leafAt (bs.take k)) 32 0 ∧
          (cmxsOf (bs.take k)).length ≤ i := by
  induction h with
  | empty => intro i a h; simp [actionsOf] at h
  | @accept bs b hc ha ih =>
    intro i a hi
    rw [actionsOf_append] at hi
    by_cases hlt : i < (actionsOf bs).length
    · rw [List.getElem?_append_left hlt] at hi
      obtain ⟨f, anchor, h1, h2, k, hk, h3, h4⟩ := ih i a hi
      refine ⟨f, anchor, h1, h2, k, by rw [List.length_append]; omega, ?_, ?_⟩
      · rw [List.take_append_of_le_length hk]; exact h3
      · rw [List.take_append_of_le_length hk]; exact h4
    · rw [List.getElem?_append_right (by omega)] at hi
      have ho : actionsOf [b] = b.opened := by simp [actionsOf]
      rw [ho] at hi
      unfold OpenedBundle.opened at hi
      rw [List.getElem?_map, Option.map_eq_some_iff] at hi
      obtain ⟨⟨x, w, t⟩, hz, rfl⟩ := hi
      have hm := List.mem_of_getElem? hz
      have hp := (List.forall₂_iff_zip.1 ha.proof).2 hm
      obtain ⟨k, hk, hanc⟩ := ha.anchor
      refine ⟨b.bundle.flags, b.bundle.anchor, hp.1, hp.2, k, by rw [List.length_append]; omega, ?_, ?_⟩
      · rw [List.take_append_of_le_length hk]; exact hanc
      · rw [List.take_append_of_le_length hk]
        have h1 : (cmxsOf (bs.take k)).length ≤ (cmxsOf bs).length := by
          conv_rhs => rw [← List.take_append_drop k bs, cmxsOf_append, List.length_append]
          omega
        rw [cmxsOf_eq hc.length, List.length_map] at h1
        omega

/-- A leaf of an earlier tree other than `Uncommitted` is a commitment on the chain. -/
theorem Spec.Chain.leaf {bs : List (OpenedBundle T A V)} (h : Chain P into bs) {k j : ℕ}
    (hne : leafAt (bs.take k) j ≠ 2) : j < (cmxsOf (bs.take k)).length ∧
      ∃ a, (actionsOf bs)[j]? = some a ∧ a.action.cmx = leafAt (bs.take k) j := by
  unfold leafAt at hne ⊢
  have hj : j < (cmxsOf (bs.take k)).length := by
    by_contra hcon
    exact hne (by rw [List.getD_eq_getElem?_getD, List.getElem?_eq_none (by omega)]; rfl)
  refine ⟨hj, ?_⟩
  have h1 : (cmxsOf bs)[j]? = (cmxsOf (bs.take k))[j]? := by
    conv_lhs => rw [← List.take_append_drop k bs, cmxsOf_append]
    rw [List.getElem?_append_left hj]
  rw [cmxsOf_eq h.length, List.getElem?_map, List.getElem?_eq_getElem hj,
    Option.map_eq_some_iff] at h1
  obtain ⟨a, ha, he⟩ := h1
  exact ⟨a, ha, by rw [he, List.getD_eq_getElem?_getD, List.getElem?_eq_getElem hj]; rfl⟩

/-! ### Merkle paths -/

@[simp] theorem length_merkleMessage (l x y : ℕ) : (merkleMessage l x y).length = 520 := by
  simp [merkleMessage]

theorem merkleMessage_inj {l x y x' y' : ℕ} (hx : x < 2 ^ 255) (hy : y < 2 ^ 255) (hx' : x' < 2 ^ 255)
    (hy' : y' < 2 ^ 255) (h : merkleMessage l x y = merkleMessage l x' y') : x = x' ∧ y = y' := by
  unfold merkleMessage at h
  obtain ⟨h, h3⟩ := List.append_inj' h (by simp)
  obtain ⟨h1, h2⟩ := List.append_inj' h (by simp)
  exact ⟨leBits_inj hx hx' h2, leBits_inj hy hy' h3⟩

theorem relation_of_merkle {m m' : List Bool} (hm : m.length = 520) (hm' : m'.length = 520)
    {h h' : Point} (hh : sinsemillaHashToPoint P Constants.qMerkleCrh m = some h)
    (hh' : sinsemillaHashToPoint P Constants.qMerkleCrh m' = some h')
    (he : extractP h = extractP h') (hne : m ≠ m') :
    SinsemillaRelation P Constants.qMerkleCrh 0 (m, 0) (m', 0) := by
  obtain ⟨L, hL, hr⟩ := relation_of_collision (R := 0) (r := 0) (r' := 0) chunks_lt chunks_lt
    (by rw [length_chunks, length_chunks, hm, hm']) (by rw [length_chunks, hm]; norm_num) hh hh'
    (by simpa using extractP_eq_iff.1 he)
    (Or.inl fun hc => hne (chunks_inj (by rw [hm, hm']) hc))
  exact ⟨L, List.mem_append_right _ hL, hr⟩

theorem relation_of_none {Q : Point} (R : Point) {m : List Bool × Fq} (m' : List Bool × Fq)
    (h : sinsemillaHashToPoint P Q m.1 = none) : SinsemillaRelation P Q R m m' := by
  obtain ⟨L, hL, hr⟩ := relation_of_bot R chunks_lt h
  exact ⟨L, List.mem_append_left _ hL, hr⟩

/-- A valid path to the root of an earlier tree starts at the leaf at its position, or the chain
exhibits a relation. -/
theorem trace_leaf {bs : List (OpenedBundle T A V)} {a : OpenedAction A} (ha : a ∈ actionsOf bs)
    {k : ℕ} (hk : k ≤ bs.length) {path : List Fp} {pos : ℕ} {leaf : Fp}
    (hv : a.trace.Valid P path pos leaf (node P (leafAt (bs.take k)) 32 0)) :
    leafAt (bs.take k) pos = leaf ∨ ExhibitsRelation P into bs := by
  obtain ⟨-, hpos, h0, h32, hstep⟩ := hv
  by_cases hbreak : ∃ m m', IsMerkleMessage P bs m ∧ IsMerkleMessage P bs m' ∧
    SinsemillaRelation P Constants.qMerkleCrh 0 (m, 0) (m', 0)
  · exact Or.inr (Or.inr (Or.inr (Or.inr hbreak)))
  left
  have key : ∀ j ≤ 32, a.trace.node (32 - j) =
      node P (leafAt (bs.take k)) (32 - j) (pos / 2 ^ (32 - j)) := by
    intro j
    induction j with
    | zero =>
      intro _
      rw [Nat.sub_zero, h32, Nat.div_eq_of_lt hpos]
    | succ j ih =>
      intro hj
      have ih := ih (by omega)
      obtain ⟨l, hl⟩ : ∃ l, l = 32 - (j + 1) := ⟨_, rfl⟩
      have hl' : 32 - j = l + 1 := by omega
      rw [hl'] at ih
      rw [← hl]
      have hl32 : l < 32 := by omega
      obtain ⟨hx, hy, hdir, hhash⟩ := hstep l hl32
      have hi : pos / 2 ^ (l + 1) < 2 ^ (31 - l) := by
        rw [Nat.div_lt_iff_lt_mul (by positivity), ← pow_add,
          show 31 - l + (l + 1) = 32 by omega]
        exact hpos
      have hm1 : IsMerkleMessage P bs (merkleMessage l (a.trace.left l) (a.trace.right l)) :=
        Or.inl ⟨a, ha, l, hl32, rfl⟩
      have hm2 : IsMerkleMessage P bs
          (merkleMessage l (node P (leafAt (bs.take k)) l (2 * (pos / 2 ^ (l + 1)))).val
            (node P (leafAt (bs.take k)) l (2 * (pos / 2 ^ (l + 1)) + 1)).val) :=
        Or.inr ⟨k, hk, l, hl32, _, hi, rfl⟩
      generalize hxl : node P (leafAt (bs.take k)) l (2 * (pos / 2 ^ (l + 1))) = xl at *
      generalize hxr : node P (leafAt (bs.take k)) l (2 * (pos / 2 ^ (l + 1)) + 1) = xr at *
      obtain ⟨h, hh, hn⟩ := hhash.resolve_left fun hc =>
        hbreak ⟨_, _, hm1, hm2, relation_of_none 0 _ hc⟩
      have htree : node P (leafAt (bs.take k)) (l + 1) (pos / 2 ^ (l + 1)) =
          merkleCRH P l xl xr := by rw [node, hxl, hxr]
      rw [htree] at ih
      unfold merkleCRH at ih
      change _ = (match sinsemillaHashToPoint P Constants.qMerkleCrh
        (merkleMessage l xl.val xr.val) with | none => 0 | some h => extractP h) at ih
      cases h2 : sinsemillaHashToPoint P Constants.qMerkleCrh (merkleMessage l xl.val xr.val) with
      | none => exact absurd ⟨_, _, hm2, hm1, relation_of_none 0 _ h2⟩ hbreak
      | some h' =>
        rw [h2] at ih
        simp only at ih
        rw [hn] at ih
        have heq : merkleMessage l (a.trace.left l) (a.trace.right l) =
            merkleMessage l xl.val xr.val := by
          by_contra hne
          exact hbreak ⟨_, _, hm1, hm2, relation_of_merkle (by simp) (by simp) hh h2 ih hne⟩
        obtain ⟨e1, e2⟩ := merkleMessage_inj hx hy (val_lt_255 _) (val_lt_255 _) heq
        have hdd : pos / 2 ^ (l + 1) = pos / 2 ^ l / 2 := by rw [pow_succ, Nat.div_div_eq_div_mul]
        rw [hdd] at hxl hxr
        split_ifs at hdir with hb
        · rw [← hdir.1, e1, ZMod.natCast_zmod_val, ← hxl]
          congr 1; omega
        · rw [← hdir.2, e2, ZMod.natCast_zmod_val, ← hxr]
          congr 1; omega
  have := key 32 le_rfl
  simp only [Nat.sub_self, pow_zero, Nat.div_one, h0] at this
  exact this.symm

/-! ### Commitments -/

theorem noteCommit_eq_some {gd pkd : Point} {v : ℕ} {rho psi : Fp} {rcm : Fq} {cm : Point}
    (h : noteCommit P gd pkd v rho psi rcm = some cm) :
    ∃ h, sinsemillaHashToPoint P Constants.qNoteCommit (noteBits gd pkd v rho psi) = some h ∧
      cm = h + rcm • Constants.noteCommitR := by
  unfold noteCommit at h
  cases h1 : sinsemillaHashToPoint P Constants.qNoteCommit (noteBits gd pkd v rho psi) with
  | none => rw [h1] at h; simp at h
  | some a => rw [h1] at h; simp only [Option.some.injEq] at h; exact ⟨a, rfl, h.symm⟩

theorem noteCommit_eq_none {gd pkd : Point} {v : ℕ} {rho psi : Fp} {rcm : Fq}
    (h : noteCommit P gd pkd v rho psi rcm = none) :
    sinsemillaHashToPoint P Constants.qNoteCommit (noteBits gd pkd v rho psi) = none := by
  unfold noteCommit at h
  cases h1 : sinsemillaHashToPoint P Constants.qNoteCommit (noteBits gd pkd v rho psi) with
  | none => rfl
  | some a => rw [h1] at h; simp at h

/-- Binding of blinded hashes of equally long messages. -/
theorem blinded_binding {Q R : Point} {m m' : List Bool} {r r' : Fq} (hlen : m.length = m'.length)
    (hl : m.length ≤ 2530) {h h' : Point} (hh : sinsemillaHashToPoint P Q m = some h)
    (hh' : sinsemillaHashToPoint P Q m' = some h')
    (he : extractP (h + r • R) = extractP (h' + r' • R)) :
    (m = m' ∧ r = r') ∨ SinsemillaRelation P Q R (m, r) (m', r') := by
  by_cases hne : chunks m ≠ chunks m' ∨ r ≠ r'
  · right
    obtain ⟨L, hL, hr⟩ := relation_of_collision (R := R) chunks_lt chunks_lt
      (by rw [length_chunks, length_chunks, hlen]) (by rw [length_chunks]; omega) hh hh'
      (extractP_eq_iff.1 he) hne
    exact ⟨L, List.mem_append_right _ hL, hr⟩
  · push Not at hne
    exact Or.inl ⟨chunks_inj hlen hne.1, hne.2⟩

theorem mem_noteMessages_old {bs : List (OpenedBundle T A V)} {a : OpenedAction A}
    (h : a ∈ actionsOf bs) : (noteBits a.w.gdOld a.w.pkdOld a.w.vOld a.w.rhoOld a.w.psiOld,
      a.w.rcmOld) ∈ noteMessages bs := List.mem_flatMap.2 ⟨a, h, by simp⟩

theorem mem_noteMessages_new {bs : List (OpenedBundle T A V)} {a : OpenedAction A}
    (h : a ∈ actionsOf bs) : (noteBits a.w.gdNew a.w.pkdNew a.w.vNew a.action.nf a.w.psiNew,
      a.w.rcmNew) ∈ noteMessages bs := List.mem_flatMap.2 ⟨a, h, by simp⟩

theorem mem_ivkMessages {bs : List (OpenedBundle T A V)} {a : OpenedAction A}
    (h : a ∈ actionsOf bs) : (leBits 255 (extractP a.w.ak).val ++ leBits 255 a.w.nk.val, a.w.rivk) ∈
      ivkMessages bs := List.mem_map.2 ⟨a, h, rfl⟩

theorem old_commitment {bs : List (OpenedBundle T A V)} {a : OpenedAction A} (ha : a ∈ actionsOf bs)
    {i : Instance} (hs : ActionStatement P i a.w) :
    noteCommit P a.w.gdOld a.w.pkdOld a.w.vOld a.w.rhoOld a.w.psiOld a.w.rcmOld = some a.w.cmOld ∨
      ExhibitsRelation P into bs := by
  rcases hs.cmOld with h | h
  · exact Or.inl h
  · exact Or.inr (Or.inr (Or.inl ⟨_, mem_noteMessages_old ha, _, mem_noteMessages_old ha,
      relation_of_none _ _ (noteCommit_eq_none h)⟩))

/-- A spend whose extracted commitment was published by `b` spends the note created by `b`. -/
theorem same_note {bs : List (OpenedBundle T A V)} {a b : OpenedAction A} (ha : a ∈ actionsOf bs)
    (hb : b ∈ actionsOf bs) {f f' : Flags} {anchor anchor' : Fp}
    (hs : ActionStatement P (a.action.toInstance f anchor) a.w)
    (hs' : ActionStatement P (b.action.toInstance f' anchor') b.w)
    (he : b.action.cmx = extractP a.w.cmOld) : SameNote a b ∨ ExhibitsRelation P into bs := by
  rcases old_commitment (into := into) ha hs with h1 | h1
  swap; · exact Or.inr h1
  rcases hs'.cmx with ⟨cm, h2, h3⟩ | h2
  swap
  · exact Or.inr (Or.inr (Or.inl ⟨_, mem_noteMessages_new hb, _, mem_noteMessages_new hb,
      relation_of_none _ _ (noteCommit_eq_none h2)⟩))
  have h3 : b.action.cmx = extractP cm := h3
  have h2 : noteCommit P b.w.gdNew b.w.pkdNew b.w.vNew b.action.nf b.w.psiNew b.w.rcmNew =
    some cm := h2
  obtain ⟨x, hx, ex⟩ := noteCommit_eq_some h1
  obtain ⟨y, hy, ey⟩ := noteCommit_eq_some h2
  rcases blinded_binding (by rw [length_noteBits, length_noteBits])
    (by rw [length_noteBits]; norm_num) hx hy (by rw [← ex, ← ey, ← he, h3]) with ⟨h4, h5⟩ | h4
  · obtain ⟨e1, e2, e3, e4, e5⟩ := noteBits_inj hs.vOld hs'.vNew h4
    exact Or.inl ⟨e1, e2, e3, e4, e5, h5⟩
  · exact Or.inr (Or.inr (Or.inl ⟨_, mem_noteMessages_old ha, _, mem_noteMessages_new hb, h4⟩))

theorem commitIvk_eq_some {ak nk : Fp} {rivk : Fq} {ivk : Fp} (h : commitIvk P ak nk rivk = some ivk) :
    ∃ h, sinsemillaHashToPoint P Constants.qCommitIvk (leBits 255 ak.val ++ leBits 255 nk.val) = some h ∧
      ivk = extractP (h + rivk • Constants.commitIvkR) := by
  unfold commitIvk sinsemillaShortCommit sinsemillaCommit at h
  rw [Option.map_map, Option.map_eq_some_iff] at h
  obtain ⟨x, hx, he⟩ := h
  exact ⟨x, hx, he.symm⟩

theorem commitIvk_eq_none {ak nk : Fp} {rivk : Fq} (h : commitIvk P ak nk rivk = none) :
    sinsemillaHashToPoint P Constants.qCommitIvk (leBits 255 ak.val ++ leBits 255 nk.val) = none := by
  unfold commitIvk sinsemillaShortCommit sinsemillaCommit at h
  rw [Option.map_map, Option.map_eq_none_iff] at h
  exact h

/-- Two spends of the note created by `b` reveal the same nullifier. -/
theorem same_nullifier {bs : List (OpenedBundle T A V)} {a a' b : OpenedAction A}
    (ha : a ∈ actionsOf bs) (ha' : a' ∈ actionsOf bs) {f f' : Flags} {anchor anchor' : Fp}
    (hs : ActionStatement P (a.action.toInstance f anchor) a.w)
    (hs' : ActionStatement P (a'.action.toInstance f' anchor') a'.w)
    (h1 : SameNote a b) (h2 : SameNote a' b) :
    a.action.nf = a'.action.nf ∨ ExhibitsRelation P into bs := by
  obtain ⟨e1, e2, e3, e4, e5, e6⟩ := h1
  obtain ⟨e1', e2', e3', e4', e5', e6'⟩ := h2
  rcases old_commitment (into := into) ha hs with c | c
  swap; · exact Or.inr c
  rcases old_commitment (into := into) ha' hs' with c' | c'
  swap; · exact Or.inr c'
  rw [e1, e2, e3, e4, e5, e6] at c
  rw [e1', e2', e3', e4', e5', e6', c, Option.some.injEq] at c'
  have hn : a.action.nf = deriveNullifier P a.w.nk a.w.rhoOld a.w.psiOld a.w.cmOld := hs.nfOld
  have hn' : a'.action.nf = deriveNullifier P a'.w.nk a'.w.rhoOld a'.w.psiOld a'.w.cmOld := hs'.nfOld
  rcases hs.pkd with k | ⟨ivk, k, hk⟩
  · exact Or.inr (Or.inr (Or.inr (Or.inl ⟨_, mem_ivkMessages ha, _, mem_ivkMessages ha,
      relation_of_none _ _ (commitIvk_eq_none k)⟩)))
  rcases hs'.pkd with k' | ⟨ivk', k', hk'⟩
  · exact Or.inr (Or.inr (Or.inr (Or.inl ⟨_, mem_ivkMessages ha', _, mem_ivkMessages ha',
      relation_of_none _ _ (commitIvk_eq_none k')⟩)))
  have hivk : ivk = ivk' := by
    rw [e2, e1] at hk
    rw [e2', e1', hk] at hk'
    have hg : b.w.gdNew ≠ 0 := by rw [← e1]; exact hs.gdOld
    have h3 := smul_left_injective Fq hg hk'
    have h4 := (ZMod.natCast_eq_natCast_iff' _ _ _).1 h3
    rw [Nat.mod_eq_of_lt ((ZMod.val_lt ivk).trans p_lt_q),
      Nat.mod_eq_of_lt ((ZMod.val_lt ivk').trans p_lt_q)] at h4
    exact ZMod.val_injective p h4
  obtain ⟨x, hx, ex⟩ := commitIvk_eq_some k
  obtain ⟨y, hy, ey⟩ := commitIvk_eq_some k'
  rcases blinded_binding (by simp) (by simp) hx hy (by rw [← ex, ← ey, hivk]) with ⟨h4, -⟩ | h4
  · left
    have hnk : a.w.nk = a'.w.nk := ZMod.val_injective p
      (leBits_inj (val_lt_255 _) (val_lt_255 _) (List.append_inj' h4 (by simp)).2)
    rw [hn, hn', hnk, e4, e4', e5, e5', c']
  · exact Or.inr (Or.inr (Or.inr (Or.inl ⟨_, mem_ivkMessages ha, _, mem_ivkMessages ha', h4⟩)))

/-! ### Balance -/

theorem accepted_balance {pre : List (OpenedBundle T A V)} {b : OpenedBundle T A V}
    (h : Accepted P into pre b) :
    (into b.bundle.valueBalance).val = (b.secrets.map fun s => (s.1.vOld : ℤ) - (s.1.vNew : ℤ)).sum ∨
      DLogRelation (((b.secrets.map fun s => (s.1.vOld : ℤ) - (s.1.vNew : ℤ)).sum -
        (into b.bundle.valueBalance).val : ℤ) : Fq)
        ((b.secrets.map fun s => s.1.rcv).sum - b.bsk) Constants.valueCommitV
        Constants.valueCommitR := by
  obtain ⟨hp, hb, -, -, hcap⟩ := h
  have hlen : b.secrets.length ≤ 2 ^ 190 := by
    rw [cmxsOf_append, List.length_append] at hcap
    have h1 : (cmxsOf [b]).length = b.bundle.actions.length := by simp [cmxsOf]
    rw [h1, hp.length_eq] at hcap
    exact (Nat.le_of_add_left_le hcap).trans (by norm_num)
  have hall : ∀ s ∈ b.secrets, s.1.vOld < 2 ^ 64 ∧ s.1.vNew < 2 ^ 64 := by
    intro s hs
    obtain ⟨i, hi⟩ := List.mem_iff_getElem?.1 hs
    obtain ⟨hi1, hi2⟩ := List.getElem?_eq_some_iff.1 hi
    have := (hp.get (by rw [hp.length_eq]; exact hi1) hi1).1
    simp only [List.get_eq_getElem, hi2] at this
    exact ⟨this.vOld, this.vNew⟩
  have hr : ∀ a ∈ b.secrets.map (fun s => ((⟨(s.1.vOld : ℤ) - (s.1.vNew : ℤ)⟩ : ValueSum),
      (⟨s.1.rcv⟩ : ValueCommitTrapdoor))), ValueInRange a.1.inner := by
    intro a ha
    obtain ⟨s, hs, rfl⟩ := List.mem_map.1 ha
    obtain ⟨h1, h2⟩ := hall s hs
    unfold ValueInRange
    simp only
    generalize s.1.vOld = x at *
    generalize s.1.vNew = y at *
    constructor <;> omega
  have hvr : ValueInRange (ValueSum.fromRaw (into b.bundle.valueBalance)).inner :=
    C02_constructible_inRange (.fromRaw _)
  have := C04_balance_binding _ (by rw [List.length_map]; exact hlen) hr
    (b.bundle.actions.map fun a => a.cvNet) ?_ (into b.bundle.valueBalance) _ (C03_derive _ hvr _)
    b.bsk ?_
  · simpa only [List.map_map, Function.comp_def] using this
  · rw [List.map_map, List.map_map]
    have h1 : b.secrets.map ((fun a : ValueSum × ValueCommitTrapdoor => ValueCommitment.derive a.1 a.2) ∘
        fun s => ((⟨(s.1.vOld : ℤ) - (s.1.vNew : ℤ)⟩ : ValueSum),
          (⟨s.1.rcv⟩ : ValueCommitTrapdoor))) =
        b.secrets.map fun s => some ⟨valueCommitSpec ((s.1.vOld : ℤ) - (s.1.vNew : ℤ)) s.1.rcv⟩ :=
      List.map_congr_left fun s hs => C03_derive _ (hr _ (List.mem_map_of_mem hs)) _
    rw [h1]
    clear h1 hr hall hlen hb hcap
    generalize b.bundle.actions = as at hp
    generalize b.secrets = ss at hp
    induction hp with
    | nil => rfl
    | cons h _ ih =>
      rw [List.map_cons, List.map_cons, ih]
      congr 2
      have := h.1.cvNet
      simp only [Function.comp]
      exact congrArg ValueCommitment.mk this.symm
  · rw [← hb]
    unfold bindingKey
    simp only [ValueCommitment.sub, ValueCommitment.sum_inner, List.map_map, Function.comp_def,
      valueCommitSpec, ValueSum.fromRaw, ValueCommitTrapdoor.zero, zero_smul, add_zero]

theorem balance_sum {bs : List (OpenedBundle T A V)} (h : Chain P into bs) :
    poolBalance into bs = ((actionsOf bs).map fun a => (a.w.vNew : ℤ) - (a.w.vOld : ℤ)).sum ∨
      ExhibitsRelation P into bs := by
  by_cases hb : ∀ b ∈ bs, (into b.bundle.valueBalance).val =
      (b.secrets.map fun s => (s.1.vOld : ℤ) - (s.1.vNew : ℤ)).sum
  · left
    have hl := h.length
    clear h
    unfold poolBalance actionsOf
    induction bs with
    | nil => rfl
    | cons b bs ih =>
      rw [List.flatMap_cons, List.map_append, List.sum_append,
        ← ih (fun c hc => hb c (List.mem_cons_of_mem _ hc))
          (fun c hc => hl c (List.mem_cons_of_mem _ hc)), List.map_cons, List.sum_cons,
        hb b (by simp), ← opened_secret (hl b (by simp)), List.map_map, neg_add]
      congr 1
      generalize b.opened = l
      induction l with
      | nil => rfl
      | cons a l ih =>
        simp only [List.map_cons, List.sum_cons, Function.comp] at ih ⊢
        rw [← ih]; ring
  · push Not at hb
    obtain ⟨b, hb1, hb2⟩ := hb
    obtain ⟨pre, ha⟩ := h.accepted b hb1
    exact Or.inr (Or.inl ⟨b, hb1, (accepted_balance ha).resolve_left hb2⟩)

end Orchard
