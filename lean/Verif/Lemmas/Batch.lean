import Verif.Model.Batch
import Verif.Lemmas.RedPallas
import Verif.Lemmas.Value
import Mathlib.Data.List.OfFn
import Mathlib.Data.Fintype.BigOperators
import Mathlib.Algebra.BigOperators.Fin

/-! # Lemmas on batch verification -/

namespace Orchard

open RedPallas

/-- By how much the verification equation of a decoded item is off. -/
noncomputable def BatchTerm.err (t : BatchTerm) : Point := t.R + t.c • t.vk - t.s • basepoint t.ty

theorem multiscalar_append (l l' : List (Fq × Point)) :
    multiscalar (l ++ l') = multiscalar l + multiscalar l' := by
  simp [multiscalar]

/-- The linear combination held by the loop state. -/
noncomputable def BatchAcc.value (acc : BatchAcc) : Point :=
  acc.spendAuthCoeff • basepoint .spendAuth + acc.bindingCoeff • basepoint .binding +
    multiscalar acc.vks + multiscalar acc.rs

theorem BatchAcc.value_step (acc : BatchAcc) (z : Fq) (t : BatchTerm) :
    (acc.step z t).value = acc.value + z • t.err := by
  obtain ⟨ty, vk, c, R, s⟩ := t
  unfold BatchAcc.value BatchAcc.step BatchTerm.err
  simp only [multiscalar_append]
  cases ty
  · simp only [multiscalar, List.map_cons, List.map_nil, List.sum_cons, List.sum_nil, if_true,
      reduceCtorEq, if_false]
    module
  · simp only [multiscalar, List.map_cons, List.map_nil, List.sum_cons, List.sum_nil, if_true,
      reduceCtorEq, if_false]
    module

theorem BatchAcc.value_foldl (l : List (Fq × BatchTerm)) (acc : BatchAcc) :
    (l.foldl (fun acc x => BatchAcc.step acc x.1 x.2) acc).value =
      acc.value + (l.map fun x => x.1 • x.2.err).sum := by
  induction l generalizing acc with
  | nil => simp
  | cons x l ih =>
    rw [List.foldl_cons, ih, BatchAcc.value_step, List.map_cons, List.sum_cons, add_assoc]

theorem batchVerify_iff {items : List BatchItem} {z : List Fq} :
    batchVerify items z = true ↔ ∃ ts, items.mapM BatchItem.decode = some ts ∧
      ((z.zip ts).map fun x => x.1 • x.2.err).sum = 0 := by
  unfold batchVerify
  cases h : items.mapM BatchItem.decode with
  | none => simp
  | some ts =>
    simp only [decide_eq_true_eq, Option.some.injEq, exists_eq_left']
    have := BatchAcc.value_foldl (z.zip ts) ⟨0, 0, [], []⟩
    rw [show (⟨0, 0, [], []⟩ : BatchAcc).value = 0 by
      simp [BatchAcc.value, multiscalar, Orchard.zero_smul], zero_add] at this
    rw [← this, multiscalar_append, multiscalar_append]
    unfold BatchAcc.value
    rw [show ∀ a b : Fq, ∀ x y : Point, multiscalar [(a, x), (b, y)] = a • x + b • y from
      fun a b x y => by simp [multiscalar]]

/-- An item made by `create_batch_item` decodes to a term without error exactly if the signature
verifies. -/
theorem createBatchItem_valid {T : SigType} {P : Prims} {vk : VerificationKey T} {sig : Signature T}
    {msg : List UInt8} :
    (∃ t, (vk.createBatchItem P sig msg).decode = some t ∧ t.err = 0) ↔
      vk.verify P msg sig = true := by
  unfold VerificationKey.verify BatchItem.decode VerificationKey.createBatchItem
  simp only
  cases hR : Point.fromBytes (Bytes.slice sig 0 32 (by norm_num)) with
  | none => 
    cases hs : Fq.fromRepr (Bytes.slice sig 32 32 (by norm_num)) <;> simp
  | some R =>
    cases hs : Fq.fromRepr (Bytes.slice sig 32 32 (by norm_num)) with
    | none => simp
    | some s =>
      simp only [Option.some.injEq, exists_eq_left', decide_eq_true_eq, BatchTerm.err]
      rw [sub_eq_zero]
      exact eq_comm

/-- All items decode without error. -/
def ItemsValid (items : List BatchItem) : Prop := ∀ i ∈ items, ∃ t, i.decode = some t ∧ t.err = 0

theorem mapM_decode_of_valid {items : List BatchItem} (h : ItemsValid items) :
    ∃ ts, items.mapM BatchItem.decode = some ts ∧ ∀ t ∈ ts, t.err = 0 := by
  induction items with
  | nil => exact ⟨[], rfl, by simp⟩
  | cons i l ih =>
    obtain ⟨ts, h1, h2⟩ := ih fun j hj => h j (List.mem_cons_of_mem _ hj)
    obtain ⟨t, ht, he⟩ := h i List.mem_cons_self
    refine ⟨t :: ts, by rw [List.mapM_cons, ht, h1]; rfl, ?_⟩
    intro x hx
    rcases List.mem_cons.1 hx with rfl | hx
    · exact he
    · exact h2 x hx

theorem mapM_option_spec {A B : Type} {f : A → Option B} {l : List A} {ts : List B}
    (h : l.mapM f = some ts) : l.map f = ts.map some := by
  induction l generalizing ts with
  | nil => simp at h; subst h; rfl
  | cons a l ih =>
    rw [List.mapM_cons] at h
    cases ha : f a with
    | none => rw [ha] at h; simp at h
    | some b =>
      cases hl : l.mapM f with
      | none => rw [ha, hl] at h; simp at h
      | some bs =>
        rw [ha, hl] at h
        simp only [Option.pure_def, Option.bind_eq_bind, Option.bind_some, Option.some.injEq] at h
        subst h
        rw [List.map_cons, List.map_cons, ha, ih hl]

theorem mapM_option_of_map {A B : Type} {f : A → Option B} {l : List A} {ts : List B}
    (h : l.map f = ts.map some) : l.mapM f = some ts := by
  induction l generalizing ts with
  | nil => 
    cases ts with
    | nil => rfl
    | cons t ts => simp at h
  | cons a l ih =>
    cases ts with
    | nil => simp at h
    | cons t ts =>
      simp only [List.map_cons, List.cons.injEq] at h
      rw [List.mapM_cons, h.1, ih h.2]; rfl

/-- Valid items pass, whatever the random scalars. -/
theorem batchVerify_of_valid {items : List BatchItem} (h : ItemsValid items) (z : List Fq) :
    batchVerify items z = true := by
  rw [batchVerify_iff]
  obtain ⟨ts, h1, h2⟩ := mapM_decode_of_valid h
  refine ⟨ts, h1, ?_⟩
  apply List.sum_eq_zero
  intro x hx
  obtain ⟨y, hy, rfl⟩ := List.mem_map.1 hx
  rw [h2 y.2 (List.of_mem_zip hy).2, smul_zero]

/-- Sum over a zip as a sum over indices. -/
theorem zip_sum_ofFn {n : ℕ} (z : Fin n → Fq) (ts : List BatchTerm) (hn : ts.length = n) :
    (((List.ofFn z).zip ts).map fun x => x.1 • x.2.err).sum =
      ∑ i : Fin n, z i • (ts[i.1]'(by rw [hn]; exact i.2)).err := by
  subst hn
  have : ((List.ofFn z).zip ts).map (fun x => x.1 • x.2.err) =
      List.ofFn fun i : Fin ts.length => z i • (ts[i.1]).err := by
    apply List.ext_getElem
    · simp
    · intro i h1 h2
      simp
  rw [this, List.sum_ofFn]

/-- If some item is not valid, then for every choice of the other scalars at most one value of the
scalar of a certain item makes the check pass. -/
theorem batchVerify_subsingleton {n : ℕ} {items : List BatchItem} (hn : items.length = n)
    (h : ¬ ItemsValid items) :
    ∃ i : Fin n, ∀ (z : Fin n → Fq) (x y : Fq),
      batchVerify items (List.ofFn (Function.update z i x)) = true →
      batchVerify items (List.ofFn (Function.update z i y)) = true → x = y := by
  unfold ItemsValid at h
  push Not at h
  obtain ⟨it, hit, hbad⟩ := h
  obtain ⟨k, hk, rfl⟩ := List.getElem_of_mem hit
  refine ⟨⟨k, hn ▸ hk⟩, fun z x y hx hy => ?_⟩
  rw [batchVerify_iff] at hx hy
  obtain ⟨ts, h1, h2⟩ := hx
  obtain ⟨ts', h1', h2'⟩ := hy
  rw [h1] at h1'
  simp only [Option.some.injEq] at h1'
  subst h1'
  have hmap := mapM_option_spec h1
  have hlen : ts.length = n := by
    have := congrArg List.length hmap
    simp at this
    omega
  have hkt : k < ts.length := by omega
  have hdec : items[k].decode = some ts[k] := by
    have := congrArg (fun l => l[k]?) hmap
    simp only [List.getElem?_map, List.getElem?_eq_getElem hk, List.getElem?_eq_getElem hkt,
      Option.map_some, Option.some.injEq] at this
    exact this
  have herr := hbad _ hdec
  rw [zip_sum_ofFn _ ts hlen] at h2 h2'
  have hdiff : ∀ w : Fq, ∑ i : Fin n, (Function.update z ⟨k, hn ▸ hk⟩ w) i •
        (ts[i.1]'(by rw [hlen]; exact i.2)).err =
      w • ts[k].err + ∑ i ∈ Finset.univ.erase (⟨k, hn ▸ hk⟩ : Fin n), z i •
        (ts[i.1]'(by rw [hlen]; exact i.2)).err := by
    intro w
    rw [← Finset.add_sum_erase _ _ (Finset.mem_univ (⟨k, hn ▸ hk⟩ : Fin n))]
    congr 1
    · simp
    · apply Finset.sum_congr rfl
      intro i hi
      rw [Function.update_of_ne (Finset.ne_of_mem_erase hi)]
  rw [hdiff] at h2 h2'
  have h3 : (x - y) • ts[k].err = 0 := by
    rw [sub_smul, sub_eq_zero]
    exact add_right_cancel (h2.trans h2'.symm)
  rcases (smul_eq_zero_iff').1 h3 with h4 | h4
  · exact sub_eq_zero.1 h4
  · exact absurd h4 herr

/-- Counting: a set of vectors in which one coordinate is determined by the others is small. -/
theorem card_of_subsingleton {n : ℕ} (Z : Finset Fq) (i : Fin n) (p : (Fin n → Fq) → Prop)
    [DecidablePred p]
    (h : ∀ (z : Fin n → Fq) (x y : Fq), p (Function.update z i x) → p (Function.update z i y) → x = y) :
    ((Fintype.piFinset fun _ : Fin n => Z).filter p).card * Z.card ≤ Z.card ^ n := by
  classical
  have hinj : Set.InjOn (fun v : (Fin n → Fq) × Fq => Function.update v.1 i v.2)
      ((((Fintype.piFinset fun _ : Fin n => Z).filter p) ×ˢ Z :
        Finset ((Fin n → Fq) × Fq)) : Set ((Fin n → Fq) × Fq)) := by
    rintro ⟨u, x⟩ hu ⟨v, y⟩ hv heq
    simp only [Finset.coe_product, Finset.coe_filter, Set.mem_prod, Set.mem_ofPred_eq] at hu hv
    simp only at heq
    have hxy : x = y := by
      have := congrFun heq i
      simpa using this
    subst hxy
    have huv : u = v := by
      have hoff : ∀ j, j ≠ i → u j = v j := by
        intro j hj
        have := congrFun heq j
        simpa [Function.update_of_ne hj] using this
      have hi : u i = v i := by
        apply h u
        · rw [Function.update_eq_self]; exact hu.1.2
        · have : Function.update u i (v i) = v := by
            funext j
            by_cases hj : j = i
            · subst hj; simp
            · rw [Function.update_of_ne hj, hoff j hj]
          rw [this]; exact hv.1.2
      funext j
      by_cases hj : j = i
      · rw [hj, hi]
      · exact hoff j hj
    rw [huv]
  have hmaps : Set.MapsTo (fun v : (Fin n → Fq) × Fq => Function.update v.1 i v.2)
      ((((Fintype.piFinset fun _ : Fin n => Z).filter p) ×ˢ Z :
        Finset ((Fin n → Fq) × Fq)) : Set ((Fin n → Fq) × Fq))
      ((Fintype.piFinset fun _ : Fin n => Z : Finset (Fin n → Fq)) : Set (Fin n → Fq)) := by
    rintro ⟨u, x⟩ hu
    simp only [Finset.coe_product, Finset.coe_filter, Set.mem_prod, Set.mem_ofPred_eq,
      Fintype.mem_piFinset, Finset.mem_coe] at hu ⊢
    intro j
    by_cases hj : j = i
    · subst hj; simpa using hu.2
    · rw [Function.update_of_ne hj]; exact hu.1.1 j
  have := Finset.card_le_card_of_injOn _ hmaps hinj
  rw [Finset.card_product, Fintype.card_piFinset_const] at this
  exact this

/-- The binding validating key never panics. -/
theorem bindingValidatingKey_eq {T A V : Type} (into : V → I64) (b : Bundle T A V) :
    b.bindingValidatingKey into = .ret ⟨(b.actions.map fun a => a.cvNet.inner).sum -
      (((into b.valueBalance).val : ℤ) : Fq) • Constants.valueCommitV⟩ := by
  unfold Bundle.bindingValidatingKey
  have h := (into b.valueBalance).range
  rw [ValueCommitment.derive_eq (v := ValueSum.fromRaw (into b.valueBalance))
    ⟨by simp only [ValueSum.fromRaw]; omega, by simp only [ValueSum.fromRaw]; omega⟩]
  simp only [Option.unwrapO_some, Outcome.ret_bind, Outcome.pure_eq, Outcome.ret.injEq,
    VerificationKey.mk.injEq]
  unfold ValueCommitment.sub
  simp only [ValueCommitment.sum_inner, List.map_map]
  simp [ValueCommitTrapdoor.zero, ValueSum.fromRaw, Orchard.zero_smul]
  rfl

end Orchard
