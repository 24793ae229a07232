import Verif.Spec.Wallet
import Verif.Props.LedgerHonest
import Verif.Props.EndToEnd

/-!
# C94: received notes are real, stay spendable, and are spent only by their holder
-/

namespace Orchard

open Spec

variable {T A V : Type} {P : Prims} {into : V → I64}

/-- Nullifiers bind the opened notes. -/
theorem nullifier_binding {m m' : List Bool × Fq} {s s' : Fq} (hm : m.1.length = 1086)
    (hm' : m'.1.length = 1086) {h h' : Point}
    (hh : sinsemillaHashToPoint P Constants.qNoteCommit m.1 = some h)
    (hh' : sinsemillaHashToPoint P Constants.qNoteCommit m'.1 = some h')
    (he : extractP (h + m.2 • Constants.noteCommitR + s • Constants.nullifierK) =
      extractP (h' + m'.2 • Constants.noteCommitR + s' • Constants.nullifierK)) :
    (m = m' ∧ s = s') ∨ NullifierRelation P m m' s s' := by
  obtain ⟨ev, -⟩ := hash_eq_eval Constants.noteCommitR chunks_lt hh
  obtain ⟨ev', -⟩ := hash_eq_eval Constants.noteCommitR chunks_lt hh'
  have hlen : (chunks m.1).length = (chunks m'.1).length := by
    rw [length_chunks, length_chunks, hm, hm']
  rcases extractP_eq_iff.1 he with e | e
  · by_cases hne : (chunks m.1 ≠ chunks m'.1 ∨ m.2 - m'.2 ≠ 0) ∨ s - s' ≠ 0
    · right
      refine ⟨_, List.mem_cons_self, ?_, ?_⟩
      · exact hne.imp (nontrivial_sub chunks_lt hlen (by rw [length_chunks, hm]; norm_num)) id
      · simp only
        rw [Lin.eval_add, Lin.eval_sub, eval_blindLin, ← ev, ← ev', sub_smul, sub_smul]
        rw [← sub_eq_zero] at e
        rw [← e]; abel
    · left
      push Not at hne
      obtain ⟨⟨h1, h2⟩, h3⟩ := hne
      exact ⟨Prod.ext (chunks_inj (by rw [hm, hm']) h1) (sub_eq_zero.1 h2), sub_eq_zero.1 h3⟩
  · right
    refine ⟨_, List.mem_cons_of_mem _ List.mem_cons_self, Or.inl (nontrivial_add hlen _), ?_⟩
    simp only
    rw [Lin.eval_add, Lin.eval_add, eval_blindLin, ← ev, ← ev', add_smul, add_smul]
    rw [← sub_eq_zero, sub_neg_eq_add] at e
    rw [← e]; abel

/-- **C94** (received notes are real). Whatever a wallet decrypts from an action on a chain is the note the
action creates, with the value that counts in the pool (C92); or the opening of the action's new note and
the decrypted note exhibit a relation among the generators of the note commitment. -/
theorem C94_received {bs : List (OpenedBundle T A V)} (hc : Chain P into bs) (j : ℕ)
    (oa : OpenedAction A) (hoa : (actionsOf bs)[j]? = some oa) (ivk : Fq) (note : Note) (addr : Address)
    (memo : Bytes 512) (hd : tryNoteDecryption P ivk oa.action = .ret (some (note, addr, memo))) :
    Creates P oa note ∨ SinsemillaRelation P Constants.qNoteCommit Constants.noteCommitR
      (newOpening oa) (noteOpening P note) := by
  obtain ⟨-, -, h3, -⟩ := ((C44_decryption P ivk oa.action).2 note addr memo).1 hd
  obtain ⟨hrho, ⟨cm, hcm, hcmx⟩, -, -⟩ := h3
  obtain ⟨f, anchor, hs, -⟩ := hc.action j oa hoa
  rcases hs.cmx with ⟨cm', h2, h3⟩ | h2
  swap; · exact Or.inr (relation_of_none _ _ (noteCommit_eq_none h2))
  have h3 : oa.action.cmx = extractP cm' := h3
  obtain ⟨x, hx, ex⟩ := noteCommit_eq_some h2
  obtain ⟨y, hy, ey⟩ := noteCommit_eq_some hcm
  rcases blinded_binding (by rw [length_noteBits, length_noteBits])
    (by rw [length_noteBits]; norm_num) hx hy (by rw [← ex, ← ey, ← h3, hcmx]) with ⟨h4, h5⟩ | h4
  · obtain ⟨e1, e2, e3, e4, e5⟩ := noteBits_inj hs.vNew note.value.inner.toNat_lt h4
    exact Or.inl ⟨e1, e2, e3, e4, e5, h5⟩
  · exact Or.inr h4

/-- **C94** (no roadblock, no theft). If an action on a chain reveals the nullifier of a note of the
holder of a full viewing key, then it spends exactly this note, and its signature validates only under a
randomisation of the holder's `±ak`; or it exhibits a relation. So nobody else can make the note
unspendable. -/
theorem C94_no_roadblock {bs : List (OpenedBundle T A V)} (hc : Chain P into bs) (fvk : FullViewingKey)
    (s : Scope) (note : Note) (hown : OwnedInScope P fvk s note.recipient) (nf : Fp)
    (hnf : note.nullifier P fvk = .ret nf) (a : OpenedAction A) (ha : a ∈ actionsOf bs)
    (hrev : a.action.nf = nf) :
    (SpendsNote P a note ∧ UnderKey a fvk.ak.point) ∨
      WalletRelation P a note fvk.ak.point fvk.nk (scopedRivk P fvk s) := by
  obtain ⟨i, hi⟩ := List.mem_iff_getElem?.1 ha
  obtain ⟨f, anchor, hs, -⟩ := hc.action i a hi
  rcases hs.cmOld with h1 | h1
  swap; · exact Or.inr (Or.inl (relation_of_none _ _ (noteCommit_eq_none h1)))
  obtain ⟨x, hx, ex⟩ := noteCommit_eq_some h1
  obtain ⟨cm, hcm⟩ : ∃ cm, commitmentOf P note = some cm := by
    cases hcm : commitmentOf P note with
    | some cm => exact ⟨cm, rfl⟩
    | none => rw [(C40_formula P note fvk).2 hcm] at hnf; simp at hnf
  rw [(C40_formula P note fvk).1 cm hcm, Outcome.ret.injEq] at hnf
  obtain ⟨y, hy, ey⟩ := noteCommit_eq_some hcm
  have e1 : a.action.nf = deriveNullifier P a.w.nk a.w.rhoOld a.w.psiOld a.w.cmOld := hs.nfOld
  rw [hrev, ← hnf] at e1
  unfold deriveNullifier at e1
  rw [ex, ey] at e1
  rcases nullifier_binding (m := oldOpening a) (m' := noteOpening P note)
    (length_noteBits ..) (length_noteBits ..) hx hy e1.symm with ⟨h4, h5⟩ | h4
  swap; · exact Or.inr (Or.inr (Or.inl h4))
  obtain ⟨h6, h7⟩ := Prod.mk.inj h4
  obtain ⟨g1, g2, g3, g4, g5⟩ := noteBits_inj hs.vOld note.value.inner.toNat_lt h6
  obtain ⟨ivk, hk, haddr⟩ := hown
  rcases C92_spend_authority P _ a.w hs _ _ _ ivk hk (by rw [g1, g2, haddr]) with ⟨-, h8⟩ | h8
  · exact Or.inl ⟨⟨g1, g2, g3, g4, g5, h7⟩, h8⟩
  · exact Or.inr (Or.inr (Or.inr h8))

/-- **C94** (received notes are spendable). A note decrypted from the `j`-th action of a chain with the
incoming viewing key of a valid full viewing key belongs to that key; and from the moment the action is on
the chain (among the first `n` bundles), `add_spend` accepts it with the path of leaf `j` in every builder
that enables spends and uses the root of that state as anchor. -/
theorem C94_spendable {bs : List (OpenedBundle T A V)} (hc : Chain P into bs) (fvk : FullViewingKey)
    (hv : ValidFvk P fvk.ak.point fvk.nk fvk.rivk) (s : Scope) (k : IncomingViewingKey)
    (hk : fvk.toIvk P s = .ret k) (n j : ℕ) (oa : OpenedAction A)
    (hoa : (actionsOf (bs.take n))[j]? = some oa) (note : Note) (addr : Address) (memo : Bytes 512)
    (hd : tryNoteDecryption P k.ivk oa.action = .ret (some (note, addr, memo))) :
    OwnedInScope P fvk s note.recipient ∧ (∃ nf, note.nullifier P fvk = .ret nf) ∧
    ∀ (path : MerklePath), path.position.toNat = j →
      (∀ l (h : l < 32), path.authPath[l]'(by rw [path.len]; exact h) =
        node P (leafAt (bs.take n)) l (sibling (j / 2 ^ l))) →
      ∀ b : Builder, b.bundleType.flags.spendsEnabled = true →
        b.anchor = node P (leafAt (bs.take n)) 32 0 →
        ∃ b' scope, b.addSpend P fvk note path = .ret (.ok (), b') ∧
          b'.spends = b.spends ++ [⟨none, fvk, scope, note, path⟩] := by
  obtain ⟨⟨cm, -, -, h1⟩, h2, h3⟩ := C64_received_is_spendable P fvk hv s k hk oa.action note addr memo hd
  refine ⟨h2, ⟨_, h1⟩, fun path hp hs b he ha => h3 _ _ path b rfl rfl he ?_⟩
  rw [← pathRoot_iff, ha]
  have hleaf : leafAt (bs.take n) path.position.toNat = oa.action.cmx := by
    unfold leafAt
    rw [cmxsOf_eq fun b hb => hc.length b (List.mem_of_mem_take hb), hp, List.getD_eq_getElem?_getD,
      List.getElem?_map, hoa]
    rfl
  rw [← hleaf]
  exact C45_path_authenticates P _ path (by rw [hp]; exact hs)

/-- **C94** (what is unspent stays fresh). If no action of the chain spends the note of a holder under their
key, its nullifier has not been revealed, so a bundle that spends it can still be accepted (`C92_honest`);
or an action on the chain exhibits a relation. -/
theorem C94_fresh {bs : List (OpenedBundle T A V)} (hc : Chain P into bs) (fvk : FullViewingKey)
    (s : Scope) (note : Note) (hown : OwnedInScope P fvk s note.recipient) (nf : Fp)
    (hnf : note.nullifier P fvk = .ret nf)
    (huns : ∀ a ∈ actionsOf bs, ¬ (SpendsNote P a note ∧ UnderKey a fvk.ak.point)) :
    nf ∉ nullifiersOf bs ∨
      ∃ a ∈ actionsOf bs, a.action.nf = nf ∧
        WalletRelation P a note fvk.ak.point fvk.nk (scopedRivk P fvk s) := by
  rw [or_iff_not_imp_left, not_not, nullifiersOf_eq hc.length]
  intro h
  obtain ⟨a, ha, he⟩ := List.mem_map.1 h
  exact ⟨a, ha, he, (C94_no_roadblock hc fvk s note hown nf hnf a ha he).resolve_left (huns a ha)⟩

/-- The path of a leaf in a tree. -/
theorem exists_path (P : Prims) (leaf : ℕ → Fp) (j : ℕ) (hj : j < 2 ^ 32) :
    ∃ path : MerklePath, path.position.toNat = j ∧
      ∀ l (h : l < 32), path.authPath[l]'(by rw [path.len]; exact h) =
        node P leaf l (sibling (j / 2 ^ l)) := by
  refine ⟨⟨UInt32.ofNat j, List.ofFn fun l : Fin 32 => node P leaf l (sibling (j / 2 ^ l.val)),
    List.length_ofFn⟩, ?_, ?_⟩
  · show (UInt32.ofNat j).toNat = j
    rw [UInt32.toNat_ofNat']; exact Nat.mod_eq_of_lt hj
  · intro l h
    rw [List.getElem_ofFn]

/-- Under `P0`: a wallet with a valid full viewing key receives 3 in a coinbase bundle that starts a chain.
The action reveals the nullifier of a dummy note, which belongs to another valid key.  All hypotheses of the
theorems above are met, and no exception arises in the first: the action creates the decrypted note, of
value 3, and the path of its leaf exists. -/
example : ∃ (bs : List (OpenedBundle (InProgress Unproven Unauthorized) SigningMetadata I64)) (oa : OpenedAction SigningMetadata)
    (fvk : FullViewingKey) (k : IncomingViewingKey) (note : Note) (addr : Address) (memo : Bytes 512)
    (path : MerklePath) (dfvk : FullViewingKey) (dnote : Note),
    Chain Examples.P0 id bs ∧ actionsOf bs = [oa] ∧
    ValidFvk Examples.P0 fvk.ak.point fvk.nk fvk.rivk ∧ fvk.toIvk Examples.P0 .external = .ret k ∧
    tryNoteDecryption Examples.P0 k.ivk oa.action = .ret (some (note, addr, memo)) ∧
    note.value.inner = 3 ∧
    path.position.toNat = 0 ∧
    (∀ l (h : l < 32), path.authPath[l]'(by rw [path.len]; exact h) =
        node Examples.P0 (leafAt (bs.take 1)) l (sibling (0 / 2 ^ l))) ∧
    OwnedInScope Examples.P0 dfvk .external dnote.recipient ∧
    dnote.nullifier Examples.P0 dfvk = .ret oa.action.nf := by
  obtain ⟨fvk, -, -, -, hv⟩ := Examples.fvk_P0 ⟨default⟩
  obtain ⟨k, hk, hk0, -⟩ := toIvk_valid hv .external
  have hP : Examples.P0.hashToCurve keyDiversificationPersonalization [] ≠ 0 := genG_ne_zero
  obtain ⟨o, ho⟩ : ∃ o, o = OutputInfo.new (some default) (k.address Examples.P0 default) ⟨3⟩ none :=
    ⟨_, rfl⟩
  have hor : o.recipient = k.address Examples.P0 default := by rw [ho]; rfl
  have hov : o.value = ⟨3⟩ := by rw [ho]; rfl
  obtain ⟨hk', he⟩ := Examples.rng_ok (rng := Examples.rng0 Examples.path0)
    (fun _ => rfl) (fun _ => rfl) (fun _ => rfl) (fun _ => rfl)
  have ho3 : Spec.totalOutputs [o] = 3 := by
    simp only [Spec.totalOutputs, List.map_cons, List.map_nil, List.sum_cons, List.sum_nil, hov]
    rfl
  have hpk : o.recipient.pkd ≠ 0 := by
    rw [hor]
    change k.ivk • diversifyHash Examples.P0 default ≠ 0
    rw [Ne, smul_eq_zero_iff', not_or]
    exact ⟨hk0, diversifyHash_ne_zero hP default⟩
  have key := (C13_outcome (tryFrom := some) (anchor := node Examples.P0 (fun _ => 2) 32 0)
    (ty := .coinbase) (spends := []) (outputs := [o]) (by simp) hk' he).2.2.2.2.2.2
    ⟨by simp, by simp, by simp [BundleType.flags, Flags.SPENDS_DISABLED], by
      rintro ⟨n, hn, h | h⟩
      · obtain ⟨g1, g2⟩ := numActions_ge hn
        exact h (plannedNets_ok g1 g2 (by simp [Spec.totalSpends]) (by rw [ho3]; norm_num))
      · have := h ⟨-3, by decide⟩ (by rw [ho3]; rfl)
        simp at this, by simp [BundleType.numActions]⟩
  obtain ⟨⟨b, m⟩, hb⟩ := key
  have hlen : b.actions.length = 1 := by
    have := C05_built _ _ _ _ _ _ _ _ _ hb
    simpa [BundleType.numActions] using this.symm
  rcases C92_honest (P := Examples.P0) (by exact genG_ne_zero) id (by
      intro i v h; cases h; rfl) hb (by simp)
    (by
      intro o' ho'
      rw [List.mem_singleton.1 ho']
      exact hpk)
    (Examples.rk_of_alpha hb (by simp) (fun _ => rfl)) b rfl []
    ⟨0, le_rfl, rfl⟩
    (by
      obtain ⟨a, ha⟩ := List.length_eq_one_iff.1 hlen
      rw [ha]; simp [nullifiersOf])
    (by rw [hlen]; simp [cmxsOf]) with ⟨secrets, h, -⟩ | ⟨c, -, x, -, hn, -⟩
  swap
  · obtain ⟨A, hA, -⟩ := Examples.hash_P0 (Q := Constants.qMerkleCrh)
      (msg := merkleBits x.1 x.2.1 x.2.2) (by simp [Examples.domainPoints]) (by simp)
    rw [hn] at hA; simp at hA
  obtain ⟨rows, hplan⟩ := C08_each_once hb
  obtain ⟨a, ha⟩ := List.length_eq_one_iff.1 hlen
  have hc : Chain Examples.P0 id [⟨b, secrets, b.authorization.sigs.bsk.s⟩] := .accept .empty h
  obtain ⟨⟨w, tr⟩, hsec⟩ := List.length_eq_one_iff.1 ((h.proof.length_eq).symm.trans hlen)
  have hsec : secrets = [(w, tr)] := hsec
  obtain ⟨r, hrows⟩ := List.length_eq_one_iff.1 (hplan.explains.1.length_eq.trans hlen)
  have hr := hplan.explains.1
  rw [hrows, ha, List.forall₂_cons] at hr
  replace hr := hr.1
  obtain ⟨dS, d1, d2, d3⟩ := hplan.spends
  rw [hrows, List.map_cons, List.map_nil, List.nil_append] at d1
  have d4 : dS = [r.spend] := List.perm_singleton.1 d1.symm
  obtain ⟨-, -, -, -, -, ⟨cm', hcm'⟩, -, hown, -⟩ := d3 0 r.spend (by rw [d4]; rfl)
  obtain ⟨dO, f1, f2, -⟩ := hplan.outputs
  have f3 : dO = [] := by
    apply List.eq_nil_of_length_eq_zero
    rw [f2, hlen]; rfl
  rw [hrows, f3, List.map_cons, List.map_nil, List.append_nil] at f1
  have f4 : r.output = o := by
    have := List.perm_singleton.1 f1
    simpa using this
  obtain ⟨cm, hcm, hcmx⟩ := hr.cmx
  obtain ⟨enc, g1, g2⟩ := C42_recipient_decrypts (T := SigningMetadata) Examples.P0 hP k.ivk r.note
    r.output.memo r.output.ovk r.rndOck r.rndOp (by rw [hr.recipient, f4, hor]; rfl) hr.esk cm hcm
    a.cvNet
  have hct := hr.ciphertext
  rw [hcmx, g1, Outcome.ret.injEq] at hct
  obtain ⟨g3, -⟩ := g2 a hr.rho.symm hcmx hct.symm
  obtain ⟨path, p1, p2⟩ := exists_path Examples.P0
    (leafAt [⟨b, secrets, b.authorization.sigs.bsk.s⟩]) 0 (by norm_num)
  obtain ⟨cm2, e1, e2⟩ := hr.nullifier
  refine ⟨_, ⟨a, w, tr⟩, fvk, k, r.note, _, _, path, r.spend.fvk, r.spend.note, hc, ?_, hv, hk, g3, ?_,
    p1, p2, hown, ?_⟩
  · simp [actionsOf, OpenedBundle.opened, ha, hsec]
  · rw [hr.value, f4, hov]
  · rw [(C40_formula Examples.P0 r.spend.note r.spend.fvk).1 cm2 e1, e2]

end Orchard
