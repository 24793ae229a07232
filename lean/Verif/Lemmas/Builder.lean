import Verif.Spec.Builder
import Verif.Lemmas.Value
import Verif.Props.Keys
import Verif.Props.Note
import Verif.Props.Tree

/-!
# Lemmas for the builder properties
-/

namespace Orchard

open RedPallas

/-! ### `Run` -/

namespace Run

theorem bind_eq_ok {E α β : Type} {x : Run E α} {f : α → Run E β} {b : β} :
    (x >>= f) = ok b ↔ ∃ a, x = ok a ∧ f a = ok b := by
  cases x <;> simp

theorem bind_eq_err {E α β : Type} {x : Run E α} {f : α → Run E β} {e : E} :
    (x >>= f) = err e ↔ x = err e ∨ ∃ a, x = ok a ∧ f a = err e := by
  cases x <;> simp

theorem bind_eq_panic {E α β : Type} {x : Run E α} {f : α → Run E β} :
    (x >>= f) = panic ↔ x = panic ∨ ∃ a, x = ok a ∧ f a = panic := by
  cases x <;> simp

@[simp] theorem ofOutcome_ret {E α : Type} (a : α) : (ofOutcome (.ret a) : Run E α) = ok a := rfl
@[simp] theorem ofOutcome_panic {E α : Type} : (ofOutcome .panic : Run E α) = panic := rfl
@[simp] theorem ofDraws_some {E α : Type} (a : α) : (ofDraws (some a) : Run E α) = ok a := rfl
@[simp] theorem ofDraws_none {E α : Type} : (ofDraws none : Run E α) = more := rfl

theorem ofOutcome_eq_ok {E α : Type} {x : Outcome α} {a : α} :
    (ofOutcome x : Run E α) = ok a ↔ x = .ret a := by
  cases x <;> simp

theorem ofOutcome_ne_err {E α : Type} {x : Outcome α} {e : E} : (ofOutcome x : Run E α) ≠ err e := by
  cases x <;> simp

theorem ofOutcome_eq_panic {E α : Type} {x : Outcome α} :
    (ofOutcome x : Run E α) = panic ↔ x = .panic := by
  cases x <;> simp

theorem ofDraws_eq_ok {E α : Type} {x : Option α} {a : α} :
    (ofDraws x : Run E α) = ok a ↔ x = some a := by
  cases x <;> simp

theorem ofDraws_ne_err {E α : Type} {x : Option α} {e : E} : (ofDraws x : Run E α) ≠ err e := by
  cases x <;> simp

theorem ofDraws_ne_panic {E α : Type} {x : Option α} : (ofDraws x : Run E α) ≠ panic := by
  cases x <;> simp

theorem mapM_eq_ok {E α β : Type} {f : α → Run E β} {l : List α} {bs : List β} :
    l.mapM f = ok bs ↔ List.Forall₂ (fun a b => f a = ok b) l bs := by
  induction l generalizing bs with
  | nil => simp [eq_comm]
  | cons a l ih =>
    rw [List.mapM_cons, bind_eq_ok]
    constructor
    · rintro ⟨b, hb, h⟩
      rw [bind_eq_ok] at h
      obtain ⟨bs', hbs, h⟩ := h
      simp only [pure_eq, ok.injEq] at h
      rw [← h]
      exact List.Forall₂.cons hb (ih.1 hbs)
    · intro h
      cases h with
      | cons hb hbs =>
        refine ⟨_, hb, ?_⟩
        rw [ih.2 hbs]; rfl

theorem mapM_ne_err {E α β : Type} {f : α → Run E β} {l : List α} {e : E}
    (h : ∀ a ∈ l, f a ≠ err e) : l.mapM f ≠ err e := by
  induction l with
  | nil => simp
  | cons a l ih =>
    rw [List.mapM_cons, Ne, bind_eq_err]
    rintro (h1 | ⟨b, -, h1⟩)
    · exact h a (by simp) h1
    · rw [bind_eq_err] at h1
      rcases h1 with h1 | ⟨_, -, h1⟩
      · exact ih (fun a ha => h a (by simp [ha])) h1
      · simp at h1

theorem mapM_ne_panic {E α β : Type} {f : α → Run E β} {l : List α}
    (h : ∀ a ∈ l, f a ≠ panic) : l.mapM f ≠ panic := by
  induction l with
  | nil => simp
  | cons a l ih =>
    rw [List.mapM_cons, Ne, bind_eq_panic]
    rintro (h1 | ⟨b, -, h1⟩)
    · exact h a (by simp) h1
    · rw [bind_eq_panic] at h1
      rcases h1 with h1 | ⟨_, -, h1⟩
      · exact ih (fun a ha => h a (by simp [ha])) h1
      · simp at h1

end Run

/-- `mapM` of a function that never panics. -/
theorem Outcome.mapM_of_ret {α β : Type} {f : α → Outcome β} {g : α → β} {l : List α}
    (h : ∀ a ∈ l, f a = .ret (g a)) : l.mapM f = .ret (l.map g) := by
  induction l with
  | nil => rfl
  | cons a l ih =>
    rw [List.mapM_cons, h a (by simp), Outcome.ret_bind, ih (fun a ha => h a (by simp [ha]))]
    rfl

/-! ### Shuffling -/

theorem swapIfInBounds_perm {α : Type} (v : Array α) (i j : ℕ) :
    (v.swapIfInBounds i j).toList.Perm v.toList := by
  rw [Array.swapIfInBounds_def]
  split_ifs
  · exact (Array.perm_iff_toList_perm.1 (Array.swap_perm ..))
  · rfl
  · rfl

theorem foldl_swap_perm {α : Type} (f : ℕ → ℕ) (is : List ℕ) (v : Array α) :
    (is.foldl (fun (v : Array α) i => v.swapIfInBounds i (f i)) v).toList.Perm v.toList := by
  induction is generalizing v with
  | nil => rfl
  | cons i is ih => exact (ih _).trans (swapIfInBounds_perm ..)

/-- Shuffling permutes. -/
theorem shuffle_perm {α : Type} (g : ℕ → ℕ) (l : List α) : (shuffle g l).Perm l := by
  unfold shuffle
  exact foldl_swap_perm (fun i => g i % (i + 1)) _ l.toArray

/-! ### Sums -/

theorem foldSum_eq (l : List ValueSum) : foldSum l = (ValueSum.sum l).toOption := by
  unfold foldSum ValueSum.sum
  have key : ∀ (l : List ValueSum) (a : Except OverflowError ValueSum),
      l.foldl (fun (acc : Option ValueSum) v => acc.bind fun a => a.add v) a.toOption =
        (l.foldl ValueSum.addResult a).toOption := by
    intro l
    induction l with
    | nil => intro a; rfl
    | cons v l ih =>
      intro a
      rw [List.foldl_cons, List.foldl_cons, ← ih]
      congr 1
      cases a with
      | error e => rfl
      | ok a =>
        simp only [Except.toOption, Option.bind_some, ValueSum.addResult]
        cases a.add v <;> rfl
  exact key l (.ok ⟨0⟩)

/-- The checked sum succeeds iff all partial sums are in range, and then is exact. -/
theorem foldSum_eq_some {l : List ValueSum} {s : ValueSum} :
    foldSum l = some s ↔
      PartialsOk 0 (l.map ValueSum.inner) ∧ s.inner = (l.map ValueSum.inner).sum := by
  rw [foldSum_eq, ← ValueSum.sum_ok_iff]
  cases ValueSum.sum l <;> simp [Except.toOption]

theorem foldSum_eq_none {l : List ValueSum} :
    foldSum l = none ↔ ¬ PartialsOk 0 (l.map ValueSum.inner) := by
  rw [foldSum_eq, ← ValueSum.sum_error_iff]
  cases h : ValueSum.sum l with
  | error e => cases e; simp [Except.toOption]
  | ok a => simp [Except.toOption]

theorem convertBalance_ok {V : Type} {tryFrom : I64 → Option V} {v : ValueSum} {x : V} :
    convertBalance tryFrom v = .ok x ↔ ∃ i : I64, i.val = v.inner ∧ tryFrom i = some x := by
  unfold convertBalance ValueSum.toI64 I64.ofInt?
  by_cases h : -(2 ^ 63) ≤ v.inner ∧ v.inner < 2 ^ 63
  · rw [dif_pos h]
    simp only
    constructor
    · intro hx
      refine ⟨⟨v.inner, h⟩, rfl, ?_⟩
      cases ht : tryFrom ⟨v.inner, h⟩ with
      | none => rw [ht] at hx; simp at hx
      | some y => rw [ht] at hx; simpa using hx
    · rintro ⟨i, hi, hx⟩
      have : i = ⟨v.inner, h⟩ := by ext; exact hi
      rw [← this, hx]
  · rw [dif_neg h]
    simp only [reduceCtorEq, false_iff, not_exists, not_and]
    intro i hi
    exact absurd (hi ▸ i.range) h

theorem convertBalance_error {V : Type} {tryFrom : I64 → Option V} {v : ValueSum} :
    convertBalance tryFrom v = .error .overflow ↔
      ∀ i : I64, i.val = v.inner → tryFrom i = none := by
  constructor
  · intro h i hi
    cases ht : tryFrom i with
    | none => rfl
    | some y => rw [convertBalance_ok.2 ⟨i, hi, ht⟩] at h; simp at h
  · intro h
    cases hc : convertBalance tryFrom v with
    | error e => cases e; rfl
    | ok x =>
      obtain ⟨i, hi, hx⟩ := convertBalance_ok.1 hc
      rw [h i hi] at hx; simp at hx

theorem valueSum_eq (a : ActionInfo) :
    a.valueSum = .ret ⟨Spec.intValue a.spend.note.value - Spec.intValue a.output.value⟩ := by
  unfold ActionInfo.valueSum
  rw [NoteValue.sub_eq]; rfl

/-! ### Anchors -/

theorem pathRoot_iff (P : Prims) (path : MerklePath) (leaf root : Fp) :
    path.root P leaf = .ret root ↔
      Spec.PathRoot P path.position.toNat path.authPath leaf root := by
  have hlen : path.authPath.length = 32 := path.len
  obtain ⟨nodes, h0, h1, h2⟩ := C45_placement P path leaf
  constructor
  · intro h
    rw [h1, Outcome.ret.injEq] at h
    exact ⟨nodes, h0, by rw [hlen]; exact h, fun l hl => h2 l (hlen ▸ hl)⟩
  · rintro ⟨nodes', e0, e1, e2⟩
    have : ∀ l, l ≤ 32 → nodes l = nodes' l := by
      intro l
      induction l with
      | zero => intro _; rw [h0, e0]
      | succ l ih =>
        intro hl
        rw [h2 l (by omega), e2 l (by omega), ih (by omega)]
    rw [h1, this 32 le_rfl]
    rw [hlen] at e1
    rw [e1]

theorem intValue_eq_zero {v : NoteValue} : Spec.intValue v = 0 ↔ v = NoteValue.zero := by
  unfold Spec.intValue NoteValue.zero
  cases v with
  | mk v =>
    simp only [NoteValue.mk.injEq]
    rw [← UInt64.toNat_inj]
    simp

theorem cmx_eq_ret {P : Prims} {n : Note} {cm : Point} (h : Spec.commitmentOf P n = some cm) :
    n.cmx P = .ret (extractP cm) := by
  unfold Note.cmx
  rw [commitment_eq_ret.2 h]; rfl

theorem hasMatchingAnchor_eq {P : Prims} {s : SpendInfo} {anchor : Fp}
    (h : ∃ cm, Spec.commitmentOf P s.note = some cm) :
    ∃ r, s.hasMatchingAnchor P anchor = .ret r ∧ (r = true ↔ Spec.AnchorOk P anchor s) := by
  obtain ⟨cm, hcm⟩ := h
  unfold SpendInfo.hasMatchingAnchor
  by_cases h0 : s.note.value = NoteValue.zero
  · rw [if_pos h0]
    exact ⟨true, rfl, by simp only [true_iff]; exact Or.inl (intValue_eq_zero.2 h0)⟩
  · rw [if_neg h0, cmx_eq_ret hcm, Outcome.ret_bind, root_eq, Outcome.ret_bind]
    refine ⟨_, rfl, ?_⟩
    rw [decide_eq_true_iff]
    have e := pathRoot_iff P s.merklePath (extractP cm) anchor
    rw [root_eq, Outcome.ret.injEq] at e
    rw [e]
    constructor
    · intro h; exact Or.inr ⟨cm, hcm, h⟩
    · rintro (h | ⟨cm', hcm', h⟩)
      · exact absurd (intValue_eq_zero.1 h) h0
      · rw [hcm, Option.some.injEq] at hcm'
        rw [hcm']; exact h

theorem allMatchAnchor_eq {P : Prims} {anchor : Fp} {l : List SpendInfo}
    (h : ∀ s ∈ l, ∃ cm, Spec.commitmentOf P s.note = some cm) :
    ∃ r, allMatchAnchor P anchor l = .ret r ∧ (r = true ↔ ∀ s ∈ l, Spec.AnchorOk P anchor s) := by
  induction l with
  | nil => exact ⟨true, rfl, by simp⟩
  | cons s l ih =>
    obtain ⟨r, h1, h2⟩ := hasMatchingAnchor_eq (anchor := anchor) (h s (by simp))
    obtain ⟨r', h3, h4⟩ := ih (fun s hs => h s (by simp [hs]))
    simp only [allMatchAnchor, h1, Outcome.ret_bind]
    cases r with
    | true => exact ⟨r', by simpa using h3, by simp [h4, h2.1 rfl]⟩
    | false =>
      refine ⟨false, rfl, ?_⟩
      simp only [Bool.false_eq_true, List.mem_cons, forall_eq_or_imp, false_iff, not_and]
      intro hs; simp [hs] at h2

/-- What a successful anchor check means, without assumptions on the notes. -/
theorem hasMatchingAnchor_true {P : Prims} {s : SpendInfo} {anchor : Fp}
    (h : s.hasMatchingAnchor P anchor = .ret true) : Spec.AnchorOk P anchor s := by
  by_cases h0 : s.note.value = NoteValue.zero
  · exact Or.inl (intValue_eq_zero.2 h0)
  · have h' := h
    unfold SpendInfo.hasMatchingAnchor at h
    rw [if_neg h0, Outcome.bind_eq_ret] at h
    obtain ⟨cmx, hcmx, -⟩ := h
    unfold Note.cmx at hcmx
    rw [Outcome.bind_eq_ret] at hcmx
    obtain ⟨cm, hcm, -⟩ := hcmx
    obtain ⟨r, e1, e2⟩ := hasMatchingAnchor_eq (P := P) (s := s) (anchor := anchor)
      ⟨cm, commitment_eq_ret.1 hcm⟩
    rw [h', Outcome.ret.injEq] at e1
    exact e2.1 e1.symm

theorem allMatchAnchor_true {P : Prims} {anchor : Fp} {l : List SpendInfo}
    (h : allMatchAnchor P anchor l = .ret true) : ∀ s ∈ l, Spec.AnchorOk P anchor s := by
  induction l with
  | nil => simp
  | cons s l ih =>
    simp only [allMatchAnchor] at h
    rw [Outcome.bind_eq_ret] at h
    obtain ⟨r, h1, h2⟩ := h
    cases r with
    | false => simp at h2
    | true =>
      intro s' hs'
      rcases List.mem_cons.1 hs' with rfl | hs'
      · exact hasMatchingAnchor_true h1
      · exact ih (by simpa using h2) s' hs'

/-! ### Recording positions -/

theorem vecSet_eq {α : Type} {l : List α} {i : ℕ} {x : α} (h : i < l.length) :
    vecSet l i x = .ret (l.set i x) := by
  unfold vecSet; rw [if_pos h]; rfl

/-- A planned action. -/
def planAt (rcv : ℕ → Fq) (x : ((SpendInfo × ℕ) × (OutputInfo × ℕ)) × ℕ) : ActionInfo :=
  ⟨x.1.1.1, x.1.2.1, ⟨rcv x.2⟩⟩

/-- One of the two vectors of positions after the loop: unchanged where the index does not occur, the
position where it does. -/
structure Recorded (n : ℕ) (idx : List ℕ) (k : ℕ) (before after : List ℕ) : Prop where
  length : after.length = before.length
  other : ∀ j, j ∉ idx → after[j]? = before[j]?
  at_ : idx.Nodup → ∀ i (h : i < idx.length), idx[i] < n → after[idx[i]]? = some (k + i)

theorem recorded_cons {n : ℕ} {j : ℕ} {idx : List ℕ} {k : ℕ} {before after : List ℕ}
    (hb : before.length = n)
    (h : Recorded n idx (k + 1) (if j < n then before.set j k else before) after) :
    Recorded n (j :: idx) k before after := by
  have hl : (if j < n then before.set j k else before).length = before.length := by
    split_ifs <;> simp
  refine ⟨h.length.trans hl, ?_, ?_⟩
  · intro m hm
    simp only [List.mem_cons, not_or] at hm
    rw [h.other m hm.2]
    split_ifs
    · rw [List.getElem?_set_ne (Ne.symm hm.1)]
    · rfl
  · intro hn i hi hlt
    rw [List.nodup_cons] at hn
    cases i with
    | zero =>
      simp only [List.getElem_cons_zero] at hlt ⊢
      rw [h.other j hn.1, if_pos hlt, List.getElem?_set_self (by omega)]
      simp
    | succ i =>
      simp only [List.getElem_cons_succ] at hlt ⊢
      rw [h.at_ hn.2 i (by simpa using hi) hlt]
      congr 1; omega

theorem recordActions_fold {S O : ℕ} (rcv : ℕ → Fq) :
    ∀ (l : List ((SpendInfo × ℕ) × (OutputInfo × ℕ))) (k : ℕ) (acc : BundleMetadata × List ActionInfo),
      acc.1.spendIndices.length = S → acc.1.outputIndices.length = O →
      ∃ m, (l.zipIdx k).foldlM (recordAction S O rcv) acc =
          .ret (m, acc.2 ++ (l.zipIdx k).map (planAt rcv)) ∧
        Recorded S (l.map fun x => x.1.2) k acc.1.spendIndices m.spendIndices ∧
        Recorded O (l.map fun x => x.2.2) k acc.1.outputIndices m.outputIndices := by
  intro l
  induction l with
  | nil =>
    intro k acc _ _
    refine ⟨acc.1, by simp, ⟨rfl, fun _ _ => rfl, ?_⟩, ⟨rfl, fun _ _ => rfl, ?_⟩⟩ <;>
      (intro _ i hi; simp at hi)
  | cons x l ih =>
    intro k acc hS hO
    have h1 : recordAction S O rcv acc (x, k) = .ret
        (⟨if x.1.2 < S then acc.1.spendIndices.set x.1.2 k else acc.1.spendIndices,
          if x.2.2 < O then acc.1.outputIndices.set x.2.2 k else acc.1.outputIndices⟩,
          acc.2 ++ [planAt rcv (x, k)]) := by
      unfold recordAction
      by_cases c1 : x.1.2 < S <;> by_cases c2 : x.2.2 < O <;>
        simp only [c1, c2, if_true, if_false, Outcome.pure_eq, Outcome.ret_bind,
          vecSet] <;> simp [hS, hO, c1, c2, planAt]
    obtain ⟨m, e1, e2, e3⟩ := ih (k + 1)
      (⟨if x.1.2 < S then acc.1.spendIndices.set x.1.2 k else acc.1.spendIndices,
        if x.2.2 < O then acc.1.outputIndices.set x.2.2 k else acc.1.outputIndices⟩,
        acc.2 ++ [planAt rcv (x, k)])
      (by simp only; split_ifs <;> simp [hS]) (by simp only; split_ifs <;> simp [hO])
    refine ⟨m, ?_, recorded_cons hS e2, recorded_cons hO e3⟩
    rw [List.zipIdx_cons, List.foldlM_cons, h1, Outcome.ret_bind, e1]
    simp

/-! ### Padding -/

theorem numActions_ge {ty : BundleType} {s o n : ℕ} (h : ty.numActions s o = some n) :
    s ≤ n ∧ o ≤ n := by
  unfold BundleType.numActions MIN_ACTIONS at h
  cases ty with
  | transactional flags req =>
    simp only at h
    split_ifs at h with h1 h2 h3
    · simp only [Option.some.injEq] at h; omega
    · simp only [Option.some.injEq] at h
      simp only [Bool.or_eq_true, decide_eq_true_eq, not_or, not_lt, nonpos_iff_eq_zero] at h3
      omega
  | coinbase =>
    simp only at h
    split_ifs at h with h1
    simp only [Option.some.injEq] at h
    omega

theorem indexedPadded_eq_ok {E α : Type} {dummy : ℕ → Run E α} {l : List α} {n : ℕ}
    (hn : l.length ≤ n) {r : List (α × ℕ)} :
    indexedPadded dummy l n = .ok r ↔
      ∃ ds, List.Forall₂ (fun i d => dummy i = .ok d) (List.range (n - l.length)) ds ∧
        r = (l ++ ds).zipIdx := by
  unfold indexedPadded
  rw [Run.bind_eq_ok]
  constructor
  · rintro ⟨ds, h1, h2⟩
    rw [Run.mapM_eq_ok] at h1
    refine ⟨ds, h1, ?_⟩
    simp only [Run.pure_eq, Run.ok.injEq] at h2
    have := h1.length_eq
    rw [List.length_range] at this
    rw [← h2, List.take_of_length_le]
    rw [List.length_zipIdx, List.length_append]; omega
  · rintro ⟨ds, h1, rfl⟩
    refine ⟨ds, Run.mapM_eq_ok.2 h1, ?_⟩
    have := h1.length_eq
    rw [List.length_range] at this
    simp only [Run.pure_eq, Run.ok.injEq]
    rw [List.take_of_length_le]
    rw [List.length_zipIdx, List.length_append]; omega

/-! ### Keys and dummies -/

theorem signBit_of_valid {P : Prims} {fvk : FullViewingKey}
    (hv : Spec.ValidFvk P fvk.ak.point fvk.nk fvk.rivk) :
    fvk.ak.point.toBytes.toNat / 2 ^ 255 = 0 := (validFvk_iff.1 hv).2.1

theorem rivkFor_valid {P : Prims} {fvk : FullViewingKey}
    (hv : Spec.ValidFvk P fvk.ak.point fvk.nk fvk.rivk) (scope : Scope) :
    fvk.rivkFor P scope = .ret (Spec.scopedRivk P fvk scope) := by
  cases scope with
  | external => rfl
  | internal => exact rivkFor_internal (signBit_of_valid hv)

theorem ownedInScope_iff {P : Prims} {fvk : FullViewingKey}
    (hv : Spec.ValidFvk P fvk.ak.point fvk.nk fvk.rivk) {scope : Scope} {k : IncomingViewingKey}
    (hk : fvk.toIvk P scope = .ret k) (a : Address) :
    Spec.OwnedBy P k.ivk a ↔ Spec.OwnedInScope P fvk scope a := by
  obtain ⟨hne, hs, ⟨i, hi⟩, ⟨j, hj⟩⟩ := validFvk_iff.1 hv
  unfold Spec.OwnedBy Spec.OwnedInScope
  cases scope with
  | external =>
    simp only [FullViewingKey.toIvk, IncomingViewingKey.ofFvk, ivkOfFvk_eq hi, Outcome.ret_bind,
        Outcome.pure_eq, Outcome.ret.injEq] at hk
    have hc := (ivkInner_eq_some.1 hi).1
    rw [← hk]
    simp only [Spec.scopedRivk, hc, Option.some.injEq, exists_eq_left']
    rfl
  | internal =>
    rw [FullViewingKey.toIvk, deriveInternal_eq hs, Outcome.ret_bind, IncomingViewingKey.ofFvk,
      ivkOfFvk_eq hj] at hk
    simp only [Outcome.ret_bind, Outcome.pure_eq, Outcome.ret.injEq] at hk
    have hc := (ivkInner_eq_some.1 hj).1
    rw [← hk]
    have hc' : commitIvk P (extractP fvk.ak.point) fvk.nk
      (Spec.rivkInternal P fvk.ak.point fvk.nk fvk.rivk) = some j := hc
    simp only [Spec.scopedRivk, hc', Option.some.injEq, exists_eq_left']
    rfl

theorem random_spec {P : Prims} {draws : List (Bytes 32)} {sk : SpendingKey} {rest : List (Bytes 32)}
    (h : SpendingKey.random P draws = .ret (some (sk, rest))) :
    sk.bytes ∈ draws ∧ ∃ ask fvk, SpendAuthorizingKey.ofSk P sk = .ret ask ∧
      FullViewingKey.ofSk P sk = .ret fvk ∧ fvk.ak = ask.vk ∧
      Spec.ValidFvk P fvk.ak.point fvk.nk fvk.rivk := by
  induction draws with
  | nil => simp [SpendingKey.random] at h
  | cons b t ih =>
    simp only [SpendingKey.random] at h
    rw [Outcome.bind_eq_ret] at h
    obtain ⟨x, hx, h1⟩ := h
    cases x with
    | none =>
      obtain ⟨i1, i2⟩ := ih h1
      exact ⟨List.mem_cons_of_mem _ i1, i2⟩
    | some sk' =>
      simp only [Outcome.pure_eq, Outcome.ret.injEq, Option.some.injEq, Prod.mk.injEq] at h1
      obtain ⟨rfl, -⟩ := h1
      have hz : Spec.askScalar P b ≠ 0 := by
        intro h0
        rw [(C30_panics_on_zero_ask P b).2 h0] at hx; simp at hx
      obtain ⟨r, fvk, e1, e2, e3, e4⟩ := C30_spending_key_partial P b hz
      rw [hx, Outcome.ret.injEq] at e1
      have hb := e3 sk' e1.symm
      have hsk : sk' = ⟨b⟩ := by cases sk'; simp only at hb; rw [hb]
      subst hsk
      refine ⟨List.mem_cons_self, ?_⟩
      obtain ⟨ask, ha⟩ := askOfSk_spec (P := P) (sk := ⟨b⟩) hz
      refine ⟨ask, fvk, ha.1, e2, ?_, e4.1 (by rw [← e1]; rfl)⟩
      unfold FullViewingKey.ofSk at e2
      rw [ha.1] at e2
      simp only [Outcome.ret_bind, Outcome.pure_eq, Outcome.ret.injEq] at e2
      rw [← e2]

theorem addressAt_owned {P : Prims} {fvk : FullViewingKey}
    (hv : Spec.ValidFvk P fvk.ak.point fvk.nk fvk.rivk) (j : Bytes 11) (scope : Scope) :
    ∃ a, fvk.addressAt P j scope = .ret a ∧ Spec.OwnedInScope P fvk scope a := by
  obtain ⟨k, hk, -, -⟩ := toIvk_valid hv scope
  refine ⟨k.addressAt P j, ?_, (ownedInScope_iff hv hk _).1 rfl⟩
  unfold FullViewingKey.addressAt
  rw [hk]; rfl

theorem spendDummy_spec {E : Type} {P : Prims} {d : SpendDummyDraws} {s : SpendInfo}
    (h : (SpendInfo.dummy P d : Run E SpendInfo) = .ok s) : Spec.DummySpend P d s := by
  unfold SpendInfo.dummy at h
  rw [Run.bind_eq_ok] at h
  obtain ⟨r, h1, h⟩ := h
  rw [Run.ofOutcome_eq_ok] at h1
  rw [Run.bind_eq_ok] at h
  obtain ⟨⟨sk, fvk, n⟩, h2, h⟩ := h
  rw [Run.ofDraws_eq_ok] at h2
  subst h2
  simp only [Run.pure_eq, Run.ok.injEq] at h
  rw [← h]
  obtain ⟨⟨rest', r1⟩, r2, r3, rest, r4⟩ := dummy_eq_ret h1
  obtain ⟨cm, -, hcm⟩ := C38_commitment_never_panics P n (.dummy h1)
  obtain ⟨c1, c2, -, -, -, c6⟩ := C38_dummy P _ _ _ _ _ _ _ h1
  obtain ⟨m, ask, fvk', a1, a2, a3, a4⟩ := random_spec r1
  rw [r2, Outcome.ret.injEq] at a2
  subst a2
  obtain ⟨a, b1, b2⟩ := addressAt_owned a4 (Bytes.ofNat 11 0) .external
  rw [r3, Outcome.ret.injEq] at b1
  refine ⟨?_, ?_, rfl, rfl, ?_, ?_, a4, ?_, sk, rfl, m, ask, a1, a3, r2, r3⟩
  · unfold Spec.intValue
    rw [c1]; rfl
  · exact c2
  · exact c6
  · exact ⟨cm, hcm⟩
  · rw [b1]; exact b2

theorem defaultMemo_toList : defaultMemo.toList = 0xf6 :: List.replicate 511 0 := by
  unfold defaultMemo
  rw [Bytes.toList_append]; rfl

theorem outputDummy_spec {E : Type} {P : Prims} {d : List (Bytes 32)} {o : OutputInfo}
    (h : (OutputInfo.dummy P d : Run E OutputInfo) = .ok o) : Spec.DummyOutput P d o := by
  unfold OutputInfo.dummy at h
  rw [Run.bind_eq_ok] at h
  obtain ⟨r, h1, h⟩ := h
  rw [Run.ofOutcome_eq_ok] at h1
  rw [Run.bind_eq_ok] at h
  obtain ⟨⟨sk, rest⟩, h2, h⟩ := h
  rw [Run.ofDraws_eq_ok] at h2
  subst h2
  rw [Run.bind_eq_ok] at h
  obtain ⟨fvk, h3, h⟩ := h
  rw [Run.ofOutcome_eq_ok] at h3
  rw [Run.bind_eq_ok] at h
  obtain ⟨a, h4, h⟩ := h
  rw [Run.ofOutcome_eq_ok] at h4
  simp only [Run.pure_eq, Run.ok.injEq] at h
  obtain ⟨m, ask, fvk', a1, a2, a3, a4⟩ := random_spec h1
  simp only at h3
  rw [h3, Outcome.ret.injEq] at a2
  subst a2
  obtain ⟨a', b1, b2⟩ := addressAt_owned a4 (Bytes.ofNat 11 0) .external
  rw [h4, Outcome.ret.injEq] at b1
  rw [← h]
  exact ⟨intValue_eq_zero.2 rfl, rfl, defaultMemo_toList, sk, fvk, m, h3, a4, b1 ▸ b2, h4⟩

/-! ### No panics in the dummies -/

theorem random_ne_panic {P : Prims} {draws : List (Bytes 32)}
    (h : ∀ b ∈ draws, Spec.askScalar P b ≠ 0) : SpendingKey.random P draws ≠ .panic := by
  induction draws with
  | nil => simp [SpendingKey.random]
  | cons b t ih =>
    simp only [SpendingKey.random]
    obtain ⟨r, _, e1, -⟩ := C30_spending_key_partial P b (h b (by simp))
    rw [e1, Outcome.ret_bind]
    cases r with
    | none => exact ih (fun b hb => h b (by simp [hb]))
    | some sk => simp

theorem spendDummy_ne_err {E : Type} {P : Prims} {d : SpendDummyDraws} {e : E} :
    (SpendInfo.dummy P d : Run E SpendInfo) ≠ .err e := by
  unfold SpendInfo.dummy
  rw [Ne, Run.bind_eq_err]
  rintro (h | ⟨a, -, h⟩)
  · exact Run.ofOutcome_ne_err h
  · rw [Run.bind_eq_err] at h
    rcases h with h | ⟨b, -, h⟩
    · exact Run.ofDraws_ne_err h
    · simp at h

theorem outputDummy_ne_err {E : Type} {P : Prims} {d : List (Bytes 32)} {e : E} :
    (OutputInfo.dummy P d : Run E OutputInfo) ≠ .err e := by
  unfold OutputInfo.dummy
  rw [Ne, Run.bind_eq_err]
  rintro (h | ⟨a, -, h⟩)
  · exact Run.ofOutcome_ne_err h
  rw [Run.bind_eq_err] at h
  rcases h with h | ⟨b, -, h⟩
  · exact Run.ofDraws_ne_err h
  rw [Run.bind_eq_err] at h
  rcases h with h | ⟨b, -, h⟩
  · exact Run.ofOutcome_ne_err h
  rw [Run.bind_eq_err] at h
  rcases h with h | ⟨b, -, h⟩
  · exact Run.ofOutcome_ne_err h
  · simp at h

theorem spendDummy_ne_panic {E : Type} {P : Prims} {d : SpendDummyDraws}
    (hd : ∀ b ∈ d.skDraws, Spec.askScalar P b ≠ 0) :
    (SpendInfo.dummy P d : Run E SpendInfo) ≠ .panic := by
  unfold SpendInfo.dummy
  rw [Ne, Run.bind_eq_panic]
  rintro (h | ⟨a, -, h⟩)
  · rw [Run.ofOutcome_eq_panic] at h
    unfold Note.dummy at h
    cases hr : SpendingKey.random P d.skDraws with
    | panic => exact random_ne_panic hd hr
    | ret x =>
      rw [hr, Outcome.ret_bind] at h
      cases x with
      | none => simp at h
      | some x =>
        obtain ⟨sk, rest⟩ := x
        obtain ⟨m, ask, fvk', a1, a2, a3, a4⟩ := random_spec hr
        obtain ⟨a', b1, b2⟩ := addressAt_owned a4 (Bytes.ofNat 11 0) .external
        simp only [a2, Outcome.ret_bind, b1] at h
        revert h
        cases Note.new P a' NoteValue.zero _ d.seedDraws <;> simp
  · rw [Run.bind_eq_panic] at h
    rcases h with h | ⟨b, -, h⟩
    · exact Run.ofDraws_ne_panic h
    · simp at h

theorem outputDummy_ne_panic {E : Type} {P : Prims} {d : List (Bytes 32)}
    (hd : ∀ b ∈ d, Spec.askScalar P b ≠ 0) : (OutputInfo.dummy P d : Run E OutputInfo) ≠ .panic := by
  unfold OutputInfo.dummy
  cases hr : SpendingKey.random P d with
  | panic => exact absurd hr (random_ne_panic hd)
  | ret x =>
    cases x with
    | none => simp
    | some x =>
      obtain ⟨sk, rest⟩ := x
      obtain ⟨m, ask, fvk', a1, a2, a3, a4⟩ := random_spec hr
      obtain ⟨a', b1, b2⟩ := addressAt_owned a4 (Bytes.ofNat 11 0) .external
      simp [a2, b1]

/-! ### Building one action -/

theorem rivkFor_eq_ret {P : Prims} {fvk : FullViewingKey} {scope : Scope} {r : Fq}
    (h : fvk.rivkFor P scope = .ret r) : r = Spec.scopedRivk P fvk scope := by
  cases scope with
  | external =>
    simp only [FullViewingKey.rivkFor, Outcome.pure_eq, Outcome.ret.injEq] at h
    exact h.symm
  | internal =>
    have hs : fvk.ak.point.toBytes.toNat / 2 ^ 255 = 0 := by
      by_contra hc
      unfold FullViewingKey.rivkFor SpendValidatingKey.toBytes VerificationKey.toBytes at h
      simp only [decide_eq_false hc, assertO_false, Outcome.panic_bind, reduceCtorEq] at h
    rw [rivkFor_internal hs, Outcome.ret.injEq] at h
    exact h.symm

theorem circuit_eq_ret {P : Prims} {s : SpendInfo} {n : Note} {α : Fq} {rcv : ValueCommitTrapdoor}
    {c : Circuit} (h : Circuit.fromActionContextUnchecked P s n α rcv = .ret c) (o : OutputInfo)
    (x : Bytes 32) (y : Bytes 64) : Spec.IsWitness P ⟨s, o, rcv.inner, α, n, x, y⟩ c := by
  unfold Circuit.fromActionContextUnchecked at h
  simp only at h
  rw [Outcome.bind_eq_ret] at h
  obtain ⟨cm, h1, h⟩ := h
  rw [Outcome.bind_eq_ret] at h
  obtain ⟨rivk, h2, h⟩ := h
  simp only [Outcome.pure_eq, Outcome.ret.injEq] at h
  rw [← h]
  exact ⟨rfl, rfl, rfl, rfl, rfl, rfl, psi_eq .., rcm_eq .., commitment_eq_ret.1 h1, rfl, rfl, rfl,
    rivkFor_eq_ret h2, rfl, rfl, rfl, psi_eq .., rcm_eq .., rfl⟩

theorem derive_net (a : ActionInfo) :
    ValueCommitment.derive ⟨Spec.intValue a.spend.note.value - Spec.intValue a.output.value⟩ a.rcv =
      some ⟨((Spec.intValue a.spend.note.value - Spec.intValue a.output.value : ℤ) : Fq) •
        Constants.valueCommitV + a.rcv.inner • Constants.valueCommitR⟩ := by
  have h1 := u64_lt a.spend.note.value.inner
  have h2 := u64_lt a.output.value.inner
  rw [ValueCommitment.derive_eq]
  unfold Spec.intValue
  constructor <;> simp only <;> omega

/-- What a built action looks like. -/
theorem build_eq_ok {E : Type} {P : Prims} {a : ActionInfo} {rng : ActionDraws}
    {x : Action SigningMetadata × Circuit} (h : (a.build P rng : Run E _) = .ok x) :
    ∃ note : Note, note.rseed ∈ rng.seedDraws ∧
      Spec.Realises P ⟨a.spend, a.output, a.rcv.inner, rng.alpha, note, rng.rndOck, rng.rndOp⟩ x.1 ∧
      Spec.IsWitness P ⟨a.spend, a.output, a.rcv.inner, rng.alpha, note, rng.rndOck, rng.rndOp⟩ x.2 := by
  unfold ActionInfo.build at h
  rw [valueSum_eq, Run.ofOutcome_ret, Run.ok_bind, derive_net, Option.unwrapO_some,
    Run.ofOutcome_ret, Run.ok_bind, Run.bind_eq_ok] at h
  obtain ⟨nf, h1, h⟩ := h
  rw [Run.ofOutcome_eq_ok] at h1
  simp only at h
  rw [Run.bind_eq_ok] at h
  obtain ⟨⟨note, rest⟩, h2, h⟩ := h
  rw [Run.ofDraws_eq_ok] at h2
  rw [Run.bind_eq_ok] at h
  obtain ⟨cmx, h3, h⟩ := h
  rw [Run.ofOutcome_eq_ok] at h3
  rw [Run.bind_eq_ok] at h
  obtain ⟨enc, h4, h⟩ := h
  rw [Run.ofOutcome_eq_ok] at h4
  rw [Run.bind_eq_ok] at h
  obtain ⟨dask, h5, h⟩ := h
  rw [Run.ofOutcome_eq_ok] at h5
  rw [Run.bind_eq_ok] at h
  obtain ⟨c, h6, h⟩ := h
  rw [Run.ofOutcome_eq_ok] at h6
  simp only [Run.pure_eq, Run.ok.injEq] at h
  obtain ⟨pre, s, hd, hn, ⟨hesk, cm, hcm⟩, -⟩ := (new_eq_some ..).1 h2
  have hcmx : cmx = extractP cm := by
    have : Spec.commitmentOf P note = some cm := by rw [hn]; exact hcm
    rw [cmx_eq_ret this, Outcome.ret.injEq] at h3
    exact h3.symm
  refine ⟨note, by rw [hd, hn]; simp, ?_, ?_⟩
  · rw [← h]
    refine ⟨?_, rfl, by rw [hn], by rw [hn], by rw [hn]; rfl,
      ⟨cm, by rw [hn]; exact hcm, hcmx⟩, by rw [hn]; exact hesk, rfl, h4, rfl, ?_, ?_⟩
    · cases hc : Spec.commitmentOf P a.spend.note with
      | none =>
        rw [(C40_formula P a.spend.note a.spend.fvk).2 hc] at h1; simp at h1
      | some cmo =>
        refine ⟨cmo, rfl, ?_⟩
        rw [(C40_formula P a.spend.note a.spend.fvk).1 cmo hc, Outcome.ret.injEq] at h1
        exact h1.symm
    · intro hs
      simp only at hs
      rw [hs] at h5
      simp only [ActionInfo.mapO, Outcome.pure_eq, Outcome.ret.injEq] at h5
      exact h5.symm
    · intro sk hs
      simp only at hs
      rw [hs] at h5
      simp only [ActionInfo.mapO] at h5
      rw [Outcome.bind_eq_ret] at h5
      obtain ⟨ask, h5, h7⟩ := h5
      simp only [Outcome.pure_eq, Outcome.ret.injEq] at h7
      exact ⟨ask, h7.symm, h5⟩
  · rw [← h]
    exact circuit_eq_ret h6 a.output rng.rndOck rng.rndOp

theorem build_ne_err {E : Type} {P : Prims} {a : ActionInfo} {rng : ActionDraws} {e : E} :
    (a.build P rng : Run E _) ≠ .err e := by
  unfold ActionInfo.build
  intro h
  rw [Run.bind_eq_err] at h
  rcases h with h | ⟨_, -, h⟩
  · exact Run.ofOutcome_ne_err h
  rw [Run.bind_eq_err] at h
  rcases h with h | ⟨_, -, h⟩
  · exact Run.ofOutcome_ne_err h
  rw [Run.bind_eq_err] at h
  rcases h with h | ⟨_, -, h⟩
  · exact Run.ofOutcome_ne_err h
  simp only at h
  rw [Run.bind_eq_err] at h
  rcases h with h | ⟨_, -, h⟩
  · exact Run.ofDraws_ne_err h
  rw [Run.bind_eq_err] at h
  rcases h with h | ⟨_, -, h⟩
  · exact Run.ofOutcome_ne_err h
  rw [Run.bind_eq_err] at h
  rcases h with h | ⟨_, -, h⟩
  · exact Run.ofOutcome_ne_err h
  rw [Run.bind_eq_err] at h
  rcases h with h | ⟨_, -, h⟩
  · exact Run.ofOutcome_ne_err h
  rw [Run.bind_eq_err] at h
  rcases h with h | ⟨_, -, h⟩
  · exact Run.ofOutcome_ne_err h
  simp at h

/-- What an action needs in order to be built without panicking. -/
def Buildable (P : Prims) (s : SpendInfo) : Prop :=
  Spec.ValidFvk P s.fvk.ak.point s.fvk.nk s.fvk.rivk ∧ (∃ cm, Spec.commitmentOf P s.note = some cm) ∧
    ∀ sk, s.dummySk = some sk → ∃ ask, SpendAuthorizingKey.ofSk P sk = .ret ask

theorem build_ne_panic {E : Type} {P : Prims} {a : ActionInfo} {rng : ActionDraws}
    (hs : Buildable P a.spend) : (a.build P rng : Run E _) ≠ .panic := by
  obtain ⟨hv, ⟨cm, hcm⟩, hd⟩ := hs
  unfold ActionInfo.build
  rw [valueSum_eq, Run.ofOutcome_ret, Run.ok_bind, derive_net, Option.unwrapO_some,
    Run.ofOutcome_ret, Run.ok_bind, (C40_formula P a.spend.note a.spend.fvk).1 cm hcm,
    Run.ofOutcome_ret, Run.ok_bind]
  simp only
  cases hn : Note.new P a.output.recipient a.output.value (Spec.deriveNullifier P a.spend.fvk.nk
    a.spend.note.rho (Spec.psi P a.spend.note.rseed a.spend.note.rho) cm) rng.seedDraws with
  | none => simp
  | some x =>
    obtain ⟨note, rest⟩ := x
    obtain ⟨pre, s, -, hn', ⟨hesk, cm', hcm'⟩, -⟩ := (new_eq_some ..).1 hn
    have hcn : Spec.commitmentOf P note = some cm' := by rw [hn']; exact hcm'
    have hen : ∃ k, note.esk P = .ret k := by
      unfold Note.esk RandomSeed.esk
      rw [hn', eskInner_eq, if_neg hesk]; exact ⟨_, rfl⟩
    obtain ⟨k, hk⟩ := hen
    simp only [Run.ofDraws_some, Run.ok_bind, cmx_eq_ret hcn, Run.ofOutcome_ret, encryptNote, hk,
      Outcome.ret_bind, Outcome.pure_eq, Circuit.fromActionContextUnchecked,
      commitment_eq_ret.2 hcm, rivkFor_valid hv]
    cases hsk : a.spend.dummySk with
    | none => simp [ActionInfo.mapO]
    | some sk =>
      obtain ⟨ask, ha⟩ := hd sk hsk
      simp [ActionInfo.mapO, ha]

theorem requestable_buildable {P : Prims} {s : SpendInfo} (h : Spec.Requestable P s) :
    Buildable P s :=
  ⟨h.2.1, h.2.2.2, fun sk hsk => by rw [h.1] at hsk; simp at hsk⟩

theorem dummy_buildable {P : Prims} {d : SpendDummyDraws} {s : SpendInfo}
    (h : Spec.DummySpend P d s) : Buildable P s := by
  obtain ⟨-, -, -, -, -, h1, h2, -, sk, h3, -, ask, h4, -⟩ := h
  refine ⟨h2, h1, fun sk' hsk => ⟨ask, ?_⟩⟩
  rw [h3, Option.some.injEq] at hsk
  rw [← hsk]; exact h4

end Orchard
