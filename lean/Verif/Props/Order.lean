import Verif.Lemmas.Keys
import Verif.Model.Order

/-!
# C91: equality and order of keys and nullifiers
-/

namespace Orchard

open RedPallas

/-- `cmp` is a total order and `eq` is equality, as Rust's `Eq` and `Ord` demand. -/
def Spec.LawfulOrder {T : Type} (cmp : T → T → Ordering) : Prop :=
  (∀ a b, cmp a b = .eq ↔ a = b) ∧ (∀ a b, cmp a b = .lt ↔ cmp b a = .gt) ∧
  (∀ a b c, cmp a b = .lt → cmp b c = .lt → cmp a c = .lt)

/-- The first difference of two byte strings is `x` on the left and a larger `y` on the right. -/
def Spec.FirstDifferenceSmaller (a b : List UInt8) : Prop :=
  ∃ pre x y l m, a = pre ++ x :: l ∧ b = pre ++ y :: m ∧ x < y

local instance : LinearOrder UInt8 where
  le_refl _ := UInt8.le_refl _
  le_trans _ _ _ := UInt8.le_trans
  lt_iff_le_not_ge a b := by
    rw [UInt8.lt_iff_toNat_lt, UInt8.le_iff_toNat_le, UInt8.le_iff_toNat_le]; omega
  le_antisymm _ _ := UInt8.le_antisymm
  le_total _ _ := UInt8.le_total _ _
  toDecidableLE := inferInstance

theorem cmpBytes_lt {a b : List UInt8} (hl : a.length = b.length) :
    cmpBytes a b = .lt ↔ Spec.FirstDifferenceSmaller a b := by
  induction a generalizing b with
  | nil =>
    have hb : b = [] := List.length_eq_zero_iff.1 (by simpa using hl.symm)
    subst hb
    constructor
    · intro h; simp [cmpBytes] at h
    · rintro ⟨pre, x, y, l, m, h, -⟩; simp at h
  | cons u a ih =>
    cases b with
    | nil => simp at hl
    | cons v b =>
      have hl' : a.length = b.length := by simpa using hl
      unfold cmpBytes
      constructor
      · intro h
        split at h
        · exact ⟨[], u, v, a, b, rfl, rfl, by assumption⟩
        · split at h
          · simp at h
          · obtain ⟨pre, x, y, l, m, rfl, rfl, hxy⟩ := (ih hl').1 h
            have huv : u = v := by
              rcases lt_trichotomy u v with h | h | h
              · contradiction
              · exact h
              · contradiction
            subst huv
            exact ⟨u :: pre, x, y, l, m, rfl, rfl, hxy⟩
      · rintro ⟨pre, x, y, l, m, ha, hb, hxy⟩
        cases pre with
        | nil =>
          simp only [List.nil_append, List.cons.injEq] at ha hb
          rw [ha.1, hb.1, if_pos hxy]
        | cons w pre =>
          simp only [List.cons_append, List.cons.injEq] at ha hb
          rw [ha.1, hb.1, if_neg (lt_irrefl w), if_neg (lt_irrefl w)]
          exact (ih hl').2 ⟨pre, x, y, l, m, ha.2, hb.2, hxy⟩

theorem cmpBytes_eq {a b : List UInt8} (hl : a.length = b.length) : cmpBytes a b = .eq ↔ a = b := by
  induction a generalizing b with
  | nil =>
    have hb : b = [] := List.length_eq_zero_iff.1 (by simpa using hl.symm)
    subst hb
    simp [cmpBytes]
  | cons u a ih =>
    cases b with
    | nil => simp at hl
    | cons v b =>
      have hl' : a.length = b.length := by simpa using hl
      unfold cmpBytes
      rcases lt_trichotomy u v with h | h | h
      · rw [if_pos h]; simp [h.ne]
      · subst h; rw [if_neg (lt_irrefl u), if_neg (lt_irrefl u), ih hl']; simp
      · rw [if_neg h.not_gt, if_pos h]; simp [h.ne']

theorem cmpBytes_swap (a b : List UInt8) : cmpBytes a b = .lt ↔ cmpBytes b a = .gt := by
  induction a generalizing b with
  | nil => cases b <;> simp [cmpBytes]
  | cons u a ih =>
    cases b with
    | nil => simp [cmpBytes]
    | cons v b =>
      unfold cmpBytes
      rcases lt_trichotomy u v with h | h | h
      · rw [if_pos h, if_neg h.not_gt, if_pos h]; simp
      · subst h; rw [if_neg (lt_irrefl u), if_neg (lt_irrefl u), if_neg (lt_irrefl u), if_neg (lt_irrefl u)]
        exact ih b
      · rw [if_neg h.not_gt, if_pos h, if_pos h]; simp

theorem cmpBytes_trans {a b c : List UInt8} (hab : a.length = b.length) (hbc : b.length = c.length)
    (h : cmpBytes a b = .lt) (h' : cmpBytes b c = .lt) : cmpBytes a c = .lt := by
  induction a generalizing b c with
  | nil =>
    have hb : b = [] := List.length_eq_zero_iff.1 (by simpa using hab.symm)
    subst hb
    simp [cmpBytes] at h
  | cons u a ih =>
    cases b with
    | nil => simp at hab
    | cons v b =>
      cases c with
      | nil => simp at hbc
      | cons w c =>
        have hab' : a.length = b.length := by simpa using hab
        have hbc' : b.length = c.length := by simpa using hbc
        unfold cmpBytes at h h' ⊢
        rcases lt_trichotomy u v with h1 | h1 | h1
        · rcases lt_trichotomy v w with h2 | h2 | h2
          · rw [if_pos (h1.trans h2)]
          · subst h2; rw [if_pos h1]
          · rw [if_neg h2.not_gt, if_pos h2] at h'; simp at h'
        · subst h1
          rcases lt_trichotomy u w with h2 | h2 | h2
          · rw [if_pos h2]
          · subst h2
            rw [if_neg (lt_irrefl u), if_neg (lt_irrefl u)] at h h' ⊢
            exact ih hab' hbc' h h'
          · rw [if_neg h2.not_gt, if_pos h2] at h'; simp at h'
        · rw [if_neg h1.not_gt, if_pos h1] at h; simp at h

/-- The order of the reversed little-endian encodings is the order of the numbers. -/
theorem cmpBytes_reverse {a b : List UInt8} (hl : a.length = b.length) :
    cmpBytes a.reverse b.reverse = compare (leNat a) (leNat b) := by
  induction a using List.reverseRecOn generalizing b with
  | nil =>
    have hb : b = [] := List.length_eq_zero_iff.1 (by simpa using hl.symm)
    subst hb
    simp [cmpBytes]
  | append_singleton a u ih =>
    cases b using List.reverseRecOn with
    | nil => simp at hl
    | append_singleton b v =>
      have hl' : a.length = b.length := by simpa using hl
      rw [List.reverse_append, List.reverse_append, leNat_append, leNat_append]
      simp only [List.reverse_cons, List.reverse_nil, List.nil_append, List.cons_append]
      unfold cmpBytes
      have ha := leNat_lt a
      have hb := leNat_lt b
      rw [hl'] at ha ⊢
      have e : ∀ x : UInt8, leNat [x] = x.toNat := fun x => by simp [leNat]
      rw [e, e]
      generalize 256 ^ b.length = N at ha hb ⊢
      rcases lt_trichotomy u v with h | h | h
      · rw [if_pos h, eq_comm, compare_lt_iff_lt]
        have : u.toNat + 1 ≤ v.toNat := UInt8.lt_iff_toNat_lt.1 h
        nlinarith
      · subst h
        rw [if_neg (lt_irrefl u), if_neg (lt_irrefl u), ih hl']
        generalize N * u.toNat = k
        rcases lt_trichotomy (leNat a) (leNat b) with h | h | h
        · rw [compare_lt_iff_lt.2 h, eq_comm, compare_lt_iff_lt]; omega
        · rw [h, compare_eq_iff_eq.2 rfl, eq_comm, compare_eq_iff_eq]
        · rw [compare_gt_iff_gt.2 h, eq_comm, compare_gt_iff_gt]; omega
      · rw [if_neg h.not_gt, if_pos h, eq_comm, compare_gt_iff_gt]
        have : v.toNat + 1 ≤ u.toNat := UInt8.lt_iff_toNat_lt.1 h
        show _ < _
        nlinarith

theorem lawful_nat {T : Type} (f : T → ℕ) (hf : Function.Injective f) :
    Spec.LawfulOrder fun a b => compare (f a) (f b) := by
  refine ⟨fun a b => ?_, fun a b => ?_, fun a b c h h' => ?_⟩
  · rw [compare_eq_iff_eq]; exact hf.eq_iff
  · rw [compare_lt_iff_lt, compare_gt_iff_gt]
  · rw [compare_lt_iff_lt] at *; exact h.trans h'

theorem lawful_bytes {T : Type} {n : ℕ} (f : T → Bytes n) (hf : Function.Injective f) :
    Spec.LawfulOrder fun a b => cmpBytes (f a).toList (f b).toList := by
  have hl : ∀ a b : T, (f a).toList.length = (f b).toList.length := fun a b => by simp
  exact ⟨fun a b => (cmpBytes_eq (hl a b)).trans (Bytes.toList_injective.eq_iff.trans hf.eq_iff),
    fun a b => cmpBytes_swap _ _, fun a b c => cmpBytes_trans (hl a b) (hl b c)⟩

theorem lawful_then {T A B : Type} {f : T → A} {g : T → B} {ca : A → A → Ordering} {cb : B → B → Ordering}
    (ha : Spec.LawfulOrder ca) (hb : Spec.LawfulOrder cb) (h : ∀ x y, f x = f y → g x = g y → x = y) :
    Spec.LawfulOrder fun x y => (ca (f x) (f y)).then (cb (g x) (g y)) := by
  have he : ∀ a, ca a a = .eq := fun a => (ha.1 a a).2 rfl
  refine ⟨fun a b => ?_, fun a b => ?_, fun a b c h1 h2 => ?_⟩
  · rw [Ordering.then_eq_eq, ha.1, hb.1]
    exact ⟨fun e => h a b e.1 e.2, fun e => e ▸ ⟨rfl, rfl⟩⟩
  · rw [Ordering.then_eq_lt, Ordering.then_eq_gt, ha.1, ha.1, ← ha.2.1, ← hb.2.1, eq_comm (a := f b)]
  · rw [Ordering.then_eq_lt] at *
    rcases h1 with h1 | ⟨h1, h1'⟩ <;> rcases h2 with h2 | ⟨h2, h2'⟩
    · exact .inl (ha.2.2 _ _ _ h1 h2)
    · rw [ha.1] at h2; rw [← h2]; exact .inl h1
    · rw [ha.1] at h1; rw [h1]; exact .inl h2
    · rw [ha.1] at h1 h2; rw [h1, h2]; exact .inr ⟨he _, hb.2.2 _ _ _ h1' h2'⟩

/-- **C91.** Field elements are ordered as their canonical integers. -/
theorem C91_fields : (∀ a b : Fp, Fp.cmp a b = compare a.val b.val) ∧
    ∀ a b : Fq, Fq.cmp a b = compare a.val b.val := by
  constructor
  · intro a b
    rw [Fp.cmp, cmpBytes_reverse (by simp)]
    exact congrArg₂ compare (Fp.toNat_toRepr a) (Fp.toNat_toRepr b)
  · intro a b
    rw [Fq.cmp, cmpBytes_reverse (by simp)]
    exact congrArg₂ compare (Fq.toNat_toRepr a) (Fq.toNat_toRepr b)

theorem lawful_fp : Spec.LawfulOrder Fp.cmp := by
  have e : Fp.cmp = fun a b => compare a.val b.val := funext₂ C91_fields.1
  rw [e]; exact lawful_nat _ (ZMod.val_injective p)

theorem lawful_fq : Spec.LawfulOrder Fq.cmp := by
  have e : Fq.cmp = fun a b => compare a.val b.val := funext₂ C91_fields.2
  rw [e]; exact lawful_nat _ (ZMod.val_injective q)

theorem lawful_vk (T : SigType) : Spec.LawfulOrder (VerificationKey.cmp (T := T)) :=
  lawful_bytes VerificationKey.toBytes fun a b h => by
    have := Point.toBytes_injective h
    cases a; cases b; exact congrArg _ this

/-- **C91.** The orders of verification keys, full and incoming viewing keys, diversifier keys, nullifiers and `rho` are
total orders in which only equal values compare equal: they can be keys of ordered maps. -/
theorem C91_lawful : (∀ T, Spec.LawfulOrder (VerificationKey.cmp (T := T))) ∧
    Spec.LawfulOrder SpendValidatingKey.cmp ∧ Spec.LawfulOrder FullViewingKey.cmp ∧
    Spec.LawfulOrder IncomingViewingKey.cmp ∧ Spec.LawfulOrder diversifierKeyCmp ∧
    Spec.LawfulOrder nullifierCmp ∧ Spec.LawfulOrder rhoCmp := by
  refine ⟨lawful_vk, lawful_vk _, ?_, ?_, lawful_bytes id Function.injective_id, lawful_fp, lawful_fp⟩
  · refine lawful_then (f := FullViewingKey.ak) (g := fun k => (k.nk, k.rivk))
      (cb := fun a b => (Fp.cmp a.1 b.1).then (Fq.cmp a.2 b.2)) (lawful_vk _)
      (lawful_then (f := Prod.fst) (g := Prod.snd) lawful_fp lawful_fq fun x y h h' => Prod.ext h h') ?_
    rintro ⟨a, n, r⟩ ⟨a', n', r'⟩ h h'
    cases h; cases h'; rfl
  · refine lawful_then (f := IncomingViewingKey.dk) (g := IncomingViewingKey.ivk)
      (lawful_bytes id Function.injective_id) lawful_fq ?_
    rintro ⟨a, n⟩ ⟨a', n'⟩ h h'
    cases h; cases h'; rfl

/-- **C91.** What the orders are: verification keys by the first differing byte of their encodings; full viewing keys by
`ak`, then `nk`, then `rivk`; incoming viewing keys by `dk`, then `ivk`; nullifiers and `rho` by their integers. -/
theorem C91_orders :
    (∀ T (a b : VerificationKey T), VerificationKey.cmp a b = .lt ↔
      Spec.FirstDifferenceSmaller a.point.toBytes.toList b.point.toBytes.toList) ∧
    (∀ a b : FullViewingKey, FullViewingKey.cmp a b = .lt ↔
      Spec.FirstDifferenceSmaller a.ak.point.toBytes.toList b.ak.point.toBytes.toList ∨
      a.ak = b.ak ∧ (a.nk.val < b.nk.val ∨ a.nk = b.nk ∧ a.rivk.val < b.rivk.val)) ∧
    (∀ a b : IncomingViewingKey, IncomingViewingKey.cmp a b = .lt ↔
      Spec.FirstDifferenceSmaller a.dk.toList b.dk.toList ∨ a.dk = b.dk ∧ a.ivk.val < b.ivk.val) ∧
    (∀ a b : Fp, nullifierCmp a b = .lt ↔ a.val < b.val) ∧ (∀ a b : Fp, rhoCmp a b = .lt ↔ a.val < b.val) := by
  have hvk : ∀ T (a b : VerificationKey T), VerificationKey.cmp a b = .lt ↔
      Spec.FirstDifferenceSmaller a.point.toBytes.toList b.point.toBytes.toList := fun T a b =>
    cmpBytes_lt (by simp [VerificationKey.toBytes])
  have hp : ∀ a b : Fp, Fp.cmp a b = .lt ↔ a.val < b.val := fun a b => by
    rw [C91_fields.1, compare_lt_iff_lt]
  have hq : ∀ a b : Fq, Fq.cmp a b = .lt ↔ a.val < b.val := fun a b => by
    rw [C91_fields.2, compare_lt_iff_lt]
  refine ⟨hvk, fun a b => ?_, fun a b => ?_, hp, hp⟩
  · unfold FullViewingKey.cmp SpendValidatingKey.cmp
    rw [Ordering.then_eq_lt, Ordering.then_eq_lt, hvk, hp, hq, (lawful_vk _).1, lawful_fp.1]
  · unfold IncomingViewingKey.cmp diversifierKeyCmp
    rw [Ordering.then_eq_lt, hq, cmpBytes_lt (by simp), cmpBytes_eq (by simp), Bytes.toList_injective.eq_iff]

/-- **C91.** Equality of verification keys, spend validating keys, full viewing keys and spending keys, which the code
decides on encodings, is equality of the keys. -/
theorem C91_equality : (∀ T (a b : VerificationKey T), VerificationKey.eq a b = true ↔ a = b) ∧
    (∀ a b : SpendValidatingKey, SpendValidatingKey.eq a b = true ↔ a = b) ∧
    (∀ a b : FullViewingKey, FullViewingKey.eq a b = true ↔ a = b) ∧
    ∀ a b : SpendingKey, SpendingKey.ctEq a b = true ↔ a = b := by
  have hvk : ∀ T (a b : VerificationKey T), VerificationKey.eq a b = true ↔ a = b := by
    intro T a b
    unfold VerificationKey.eq
    rw [beq_iff_eq, ← cmpBytes_eq (by simp)]
    exact (lawful_vk T).1 a b
  refine ⟨hvk, fun a b => hvk _ a b, fun a b => ?_, fun a b => ?_⟩
  · unfold FullViewingKey.eq
    rw [Bool.and_eq_true, Bool.and_eq_true, beq_iff_eq, beq_iff_eq]
    have := hvk _ a.ak b.ak
    constructor
    · rintro ⟨⟨h, h'⟩, h''⟩
      have h := this.1 h
      cases a; cases b
      simp_all
    · rintro rfl
      exact ⟨⟨this.2 rfl, rfl⟩, rfl⟩
  · unfold SpendingKey.ctEq
    rw [beq_iff_eq, Bytes.toList_injective.eq_iff]
    cases a; cases b; simp

/-- Not the order of the first bytes of the encodings: 1 is before 256, although its encoding starts with 1 and that of
256 with 0. -/
example : nullifierCmp 1 256 = .lt ∧ cmpBytes (Fp.toRepr 1).toList (Fp.toRepr 256).toList = .gt := by
  decide +kernel

end Orchard
