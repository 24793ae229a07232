import Verif.Lemmas.Spec

/-!
# Sinsemilla: injectivity of the word decomposition and reduction to discrete logarithms

A collision of Sinsemilla, or an input on which it is undefined, gives a non-trivial linear
relation between the generators.  The relation is taken from an explicit list of candidates
computed from the messages alone (so it is not merely an existence statement, which would be
trivial in a cyclic group).
-/

namespace Orchard

/-! ### Words -/

theorem chunksAux_lt (fuel : ℕ) : ∀ l : List Bool, ∀ m ∈ chunksAux fuel l, m < 1024 := by
  induction fuel with
  | zero => intro l m hm; simp [chunksAux] at hm
  | succ fuel ih =>
    intro l m hm
    cases l with
    | nil => simp [chunksAux] at hm
    | cons a l =>
      simp only [chunksAux, List.mem_cons] at hm
      rcases hm with rfl | hm
      · have h := bitsNat_lt ((a :: l).take 10)
        have hl : ((a :: l).take 10).length ≤ 10 := by simp
        calc _ < 2 ^ ((a :: l).take 10).length := h
          _ ≤ 2 ^ 10 := Nat.pow_le_pow_right (by norm_num) hl
          _ = 1024 := by norm_num
      · exact ih _ m hm

theorem chunks_lt {l : List Bool} : ∀ m ∈ chunks l, m < 1024 := chunksAux_lt _ _

theorem length_chunksAux (fuel : ℕ) : ∀ l : List Bool, l.length ≤ fuel →
    (chunksAux fuel l).length = (l.length + 9) / 10 := by
  induction fuel with
  | zero => intro l hl; simp [chunksAux, List.length_eq_zero_iff.1 (Nat.le_zero.1 hl)]
  | succ fuel ih =>
    intro l hl
    cases l with
    | nil => simp [chunksAux]
    | cons a l =>
      rw [List.length_cons] at hl
      simp only [chunksAux, List.length_cons]
      rw [ih _ (by simp; omega), List.length_drop, List.length_cons]
      omega

theorem length_chunks (l : List Bool) : (chunks l).length = (l.length + 9) / 10 :=
  length_chunksAux _ _ le_rfl

theorem chunksAux_inj (fuel : ℕ) : ∀ l l' : List Bool, l.length = l'.length → l.length ≤ fuel →
    chunksAux fuel l = chunksAux fuel l' → l = l' := by
  induction fuel with
  | zero =>
    intro l l' hl hf _
    have h0 : l = [] := List.length_eq_zero_iff.1 (by omega)
    have h0' : l' = [] := List.length_eq_zero_iff.1 (by omega)
    rw [h0, h0']
  | succ fuel ih =>
    intro l l' hl hf h
    cases l with
    | nil => exact (List.length_eq_zero_iff.1 hl.symm).symm
    | cons a l =>
      cases l' with
      | nil => simp at hl
      | cons a' l' =>
        simp only [chunksAux, List.cons.injEq] at h
        have h1 : (a :: l).take 10 = (a' :: l').take 10 :=
          bitsNat_inj (by rw [List.length_take, List.length_take, hl]) h.1
        have h2 : (a :: l).drop 10 = (a' :: l').drop 10 := by
          refine ih _ _ (by rw [List.length_drop, List.length_drop, hl]) ?_ h.2
          rw [List.length_drop]; rw [List.length_cons] at *; omega
        rw [← List.take_append_drop 10 (a :: l), h1, h2, List.take_append_drop]

theorem chunks_inj {l l' : List Bool} (hl : l.length = l'.length) (h : chunks l = chunks l') :
    l = l' := by
  unfold chunks at h
  rw [← hl] at h
  exact chunksAux_inj _ _ _ hl le_rfl h

/-! ### Linear forms in the generators -/

/-- Coefficients of `Q`, of the table entries `S(0), ..., S(1023)`, and of `R`. -/
abbrev Lin : Type := Fq × (ℕ → Fq) × Fq

/-- The point a linear form denotes. -/
noncomputable def Lin.eval (P : Prims) (Q R : Point) (L : Lin) : Point :=
  L.1 • Q + (∑ j ∈ Finset.range 1024, L.2.1 j • P.sinsemillaS j) + L.2.2 • R

/-- Some coefficient of an actual generator is non-zero. -/
def Lin.Nontrivial (L : Lin) : Prop := L.1 ≠ 0 ∨ (∃ j < 1024, L.2.1 j ≠ 0) ∨ L.2.2 ≠ 0

/-- A discrete-logarithm relation: a non-trivial linear form that vanishes. -/
def Lin.IsRelation (P : Prims) (Q R : Point) (L : Lin) : Prop :=
  L.Nontrivial ∧ L.eval P Q R = 0

theorem Lin.eval_add (P : Prims) (Q R : Point) (L M : Lin) :
    (L + M).eval P Q R = L.eval P Q R + M.eval P Q R := by
  simp only [Lin.eval, Prod.fst_add, Prod.snd_add, Pi.add_apply, add_smul, Finset.sum_add_distrib]
  abel

theorem Lin.eval_neg (P : Prims) (Q R : Point) (L : Lin) : (-L).eval P Q R = -L.eval P Q R := by
  simp only [Lin.eval, Prod.fst_neg, Prod.snd_neg, Pi.neg_apply, neg_smul, Finset.sum_neg_distrib]
  abel

theorem Lin.eval_sub (P : Prims) (Q R : Point) (L M : Lin) :
    (L - M).eval P Q R = L.eval P Q R - M.eval P Q R := by
  rw [sub_eq_add_neg, Lin.eval_add, Lin.eval_neg, sub_eq_add_neg]

/-- Coefficient of `S(j)` after absorbing the words. -/
def wcoef (j : ℕ) (ms : List ℕ) : ℕ := ms.foldl (fun a m => 2 * a + if m = j then 1 else 0) 0

/-- The accumulator after absorbing the words, as a linear form. -/
def accLin (ms : List ℕ) : Lin := (2 ^ ms.length, fun j => (wcoef j ms : Fq), 0)

/-- The form `S(m)`. -/
def wordLin (m : ℕ) : Lin := (0, fun j => if m = j then 1 else 0, 0)

/-- The form `[r] R`. -/
def blindLin (r : Fq) : Lin := (0, fun _ => 0, r)

theorem wcoef_append (j : ℕ) (ms : List ℕ) (m : ℕ) :
    wcoef j (ms ++ [m]) = 2 * wcoef j ms + if m = j then 1 else 0 := by
  simp [wcoef, List.foldl_append]

theorem accLin_append (ms : List ℕ) (m : ℕ) :
    accLin (ms ++ [m]) = accLin ms + accLin ms + wordLin m := by
  unfold accLin wordLin
  refine Prod.ext ?_ (Prod.ext ?_ ?_)
  · simp [pow_succ]; ring
  · funext j
    simp only [wcoef_append, Prod.snd_add, Prod.fst_add, Pi.add_apply]
    push_cast
    ring
  · simp

theorem eval_accLin_nil (P : Prims) (Q R : Point) : (accLin []).eval P Q R = Q := by
  unfold Lin.eval accLin wcoef
  simp

theorem eval_wordLin (P : Prims) (Q R : Point) {m : ℕ} (hm : m < 1024) :
    (wordLin m).eval P Q R = P.sinsemillaS m := by
  unfold Lin.eval wordLin
  simp only [zero_smul, zero_add, add_zero, ite_smul, one_smul]
  rw [Finset.sum_ite_eq, if_pos (Finset.mem_range.2 hm)]

theorem eval_blindLin (P : Prims) (Q R : Point) (r : Fq) : (blindLin r).eval P Q R = r • R := by
  unfold Lin.eval blindLin
  simp

theorem wcoef_lt (j : ℕ) (ms : List ℕ) : wcoef j ms < 2 ^ ms.length := by
  induction ms using List.reverseRecOn with
  | nil => simp [wcoef]
  | append_singleton ms m ih =>
    rw [wcoef_append, List.length_append, List.length_singleton, pow_succ]
    split_ifs <;> omega

theorem wcoef_inj (ms : List ℕ) : ∀ ms' : List ℕ, ms.length = ms'.length →
    (∀ m ∈ ms, m < 1024) → (∀ j < 1024, wcoef j ms = wcoef j ms') → ms = ms' := by
  induction ms using List.reverseRecOn with
  | nil => intro ms' hl _ _; exact (List.length_eq_zero_iff.1 hl.symm).symm
  | append_singleton ms m ih =>
    intro ms' hl hm h
    rcases ms'.eq_nil_or_concat with rfl | ⟨ms', m', rfl⟩
    · simp at hl
    · rw [List.concat_eq_append] at *
      simp only [wcoef_append] at h
      have hm1 : m < 1024 := hm m (by simp)
      have hmm : m' = m := by
        have := h m hm1
        split_ifs at this with h1 h2
        · exact h2
        · omega
        · exact absurd rfl h1
        · exact absurd rfl h1
      subst hmm
      rw [ih ms' (by simpa using hl) (fun a ha => hm a (by simp [ha]))
        (fun j hj => by have := h j hj; omega)]

theorem two_pow_ne_zero_Fq (n : ℕ) : (2 : Fq) ^ n ≠ 0 := pow_ne_zero _ (by decide +kernel)

theorem two_pow_254_lt_q : 2 ^ 254 < q := by decide +kernel

/-- Candidate relations when the hash of `ms` is undefined: for each step, the accumulator, the
table entry, and the three ways in which an incomplete addition can fail. -/
def botCandidates (ms : List ℕ) : List Lin :=
  (List.range ms.length).flatMap fun i =>
    let acc := accLin (ms.take i)
    let s := wordLin (ms.getD i 0)
    [acc, s, acc - s, acc + s, acc + acc + s]

/-- Candidate relations for a collision of blinded hashes, for equal and for opposite points. -/
def collisionCandidates (ms ms' : List ℕ) (r r' : Fq) : List Lin :=
  [accLin ms - accLin ms' + blindLin (r - r'), accLin ms + accLin ms' + blindLin (r + r')]

theorem incompleteAdd_eq_some {A B C : Point} (h : incompleteAdd A B = some C) :
    C = A + B ∧ C ≠ 0 := by
  unfold incompleteAdd at h
  split_ifs at h with hc
  simp only [Option.some.injEq] at h
  refine ⟨h.symm, ?_⟩
  rintro rfl
  exact hc (Or.inr (Or.inr (Or.inr (eq_neg_of_add_eq_zero_left h))))

theorem sinsemillaStep_eq_some {P : Prims} {A C : Point} {m : ℕ} (h : sinsemillaStep P A m = some C) :
    C = A + A + P.sinsemillaS m ∧ C ≠ 0 := by
  unfold sinsemillaStep at h
  rw [Option.bind_eq_some_iff] at h
  obtain ⟨B, h1, h2⟩ := h
  obtain ⟨e1, -⟩ := incompleteAdd_eq_some h1
  obtain ⟨e2, h0⟩ := incompleteAdd_eq_some h2
  exact ⟨by rw [e2, e1]; abel, h0⟩

theorem sinsemillaStep_eq_none {P : Prims} {A : Point} {m : ℕ} (h : sinsemillaStep P A m = none) :
    A = 0 ∨ P.sinsemillaS m = 0 ∨ A - P.sinsemillaS m = 0 ∨ A + P.sinsemillaS m = 0 ∨
      A + A + P.sinsemillaS m = 0 := by
  unfold sinsemillaStep at h
  generalize P.sinsemillaS m = S at *
  cases hS : incompleteAdd A S with
  | none =>
    unfold incompleteAdd at hS
    split_ifs at hS with hc
    rcases hc with hc | hc | hc | hc
    · exact Or.inl hc
    · exact Or.inr (Or.inl hc)
    · exact Or.inr (Or.inr (Or.inl (sub_eq_zero.2 hc)))
    · exact Or.inr (Or.inr (Or.inr (Or.inl (by rw [hc]; abel))))
  | some B =>
    rw [hS, Option.bind_some] at h
    obtain ⟨e1, h0⟩ := incompleteAdd_eq_some hS
    unfold incompleteAdd at h
    split_ifs at h with hc
    rcases hc with hc | hc | hc | hc
    · exact absurd hc h0
    · exact Or.inl hc
    · rw [e1] at hc; exact Or.inr (Or.inl (by simpa using hc))
    · rw [e1] at hc
      refine Or.inr (Or.inr (Or.inr (Or.inr ?_)))
      have : A + A + S = (A + S) + A := by abel
      rw [this, hc]; abel

/-- A defined hash is the linear form of its words. -/
theorem hash_eq_eval {P : Prims} {Q : Point} (R : Point) {ms : List ℕ} (hms : ∀ m ∈ ms, m < 1024)
    {h : Point} (hh : ms.foldlM (sinsemillaStep P) Q = some h) :
    h = (accLin ms).eval P Q R ∧ (ms ≠ [] → h ≠ 0) := by
  induction ms using List.reverseRecOn generalizing h with
  | nil =>
    simp only [List.foldlM_nil, Option.pure_def, Option.some.injEq] at hh
    rw [← hh, eval_accLin_nil]; exact ⟨rfl, fun h => absurd rfl h⟩
  | append_singleton ms m ih =>
    rw [List.foldlM_append, Option.bind_eq_bind, Option.bind_eq_some_iff] at hh
    obtain ⟨A, hA, hs⟩ := hh
    simp only [List.foldlM_cons, List.foldlM_nil, Option.bind_eq_bind, Option.pure_def,
      Option.bind_fun_some] at hs
    obtain ⟨e, h0⟩ := sinsemillaStep_eq_some hs
    obtain ⟨eA, -⟩ := ih (fun m hm => hms m (by simp [hm])) hA
    refine ⟨?_, fun _ => h0⟩
    rw [accLin_append, Lin.eval_add, Lin.eval_add, ← eA, eval_wordLin _ _ _ (hms m (by simp)), e]

/-- An undefined hash gives a relation among the candidates. -/
theorem relation_of_bot {P : Prims} {Q : Point} (R : Point) {ms : List ℕ} (hms : ∀ m ∈ ms, m < 1024)
    (hh : ms.foldlM (sinsemillaStep P) Q = none) :
    ∃ L ∈ botCandidates ms, L.IsRelation P Q R := by
  induction ms using List.reverseRecOn with
  | nil => simp at hh
  | append_singleton ms m ih =>
    rw [List.foldlM_append, Option.bind_eq_bind] at hh
    cases hA : ms.foldlM (sinsemillaStep P) Q with
    | none =>
      obtain ⟨L, hL, hr⟩ := ih (fun m hm => hms m (by simp [hm])) hA
      refine ⟨L, ?_, hr⟩
      simp only [botCandidates, List.mem_flatMap, List.mem_range] at hL ⊢
      obtain ⟨i, hi, hL⟩ := hL
      refine ⟨i, by simp; omega, ?_⟩
      rw [List.take_append_of_le_length (by omega), List.getD_append _ _ _ _ hi]
      exact hL
    | some A =>
      rw [hA, Option.bind_some] at hh
      simp only [List.foldlM_cons, List.foldlM_nil, Option.bind_eq_bind, Option.pure_def,
        Option.bind_fun_some] at hh
      obtain ⟨eA, -⟩ := hash_eq_eval R (fun m hm => hms m (by simp [hm])) hA
      have hm : m < 1024 := hms m (by simp)
      have hmem : ∀ L, L ∈ [accLin ms, wordLin m, accLin ms - wordLin m, accLin ms + wordLin m,
          accLin ms + accLin ms + wordLin m] → L ∈ botCandidates (ms ++ [m]) := by
        intro L hL
        simp only [botCandidates, List.mem_flatMap, List.mem_range]
        refine ⟨ms.length, by simp, ?_⟩
        rw [List.take_left' rfl, List.getD_append_right _ _ _ _ le_rfl]
        simpa using hL
      have hS := eval_wordLin P Q R hm
      have hpow := two_pow_ne_zero_Fq ms.length
      rcases sinsemillaStep_eq_none hh with h | h | h | h | h
      · exact ⟨_, hmem (accLin ms) (by simp), Or.inl hpow, by rw [← eA, h]⟩
      · refine ⟨_, hmem (wordLin m) (by simp), Or.inr (Or.inl ⟨m, hm, by simp [wordLin]⟩), by rw [hS, h]⟩
      · refine ⟨_, hmem (accLin ms - wordLin m) (by simp), Or.inl ?_, by
          rw [Lin.eval_sub, ← eA, hS, h]⟩
        simpa [accLin, wordLin] using hpow
      · refine ⟨_, hmem (accLin ms + wordLin m) (by simp), Or.inl ?_, by
          rw [Lin.eval_add, ← eA, hS, h]⟩
        simpa [accLin, wordLin] using hpow
      · refine ⟨_, hmem (accLin ms + accLin ms + wordLin m) (by simp), Or.inl ?_, by
          rw [Lin.eval_add, Lin.eval_add, ← eA, hS, h]⟩
        have h2 := two_pow_ne_zero_Fq (ms.length + 1)
        rw [pow_succ, mul_two] at h2
        simpa [accLin, wordLin] using h2

/-- The difference of the forms of two different word strings is not trivial. -/
theorem nontrivial_sub {ms ms' : List ℕ} (hms : ∀ m ∈ ms, m < 1024) (hlen : ms.length = ms'.length)
    (hl : ms.length ≤ 253) {r : Fq} (hne : ms ≠ ms' ∨ r ≠ 0) :
    Lin.Nontrivial (accLin ms - accLin ms' + blindLin r) := by
  by_cases hr : r = 0
  · have hmm : ms ≠ ms' := hne.resolve_right (fun h => h hr)
    right; left
    by_contra hcon
    push Not at hcon
    apply hmm
    refine wcoef_inj ms ms' hlen hms ?_
    intro j hj
    have := hcon j hj
    simp only [accLin, blindLin, Prod.snd_add, Prod.fst_add, Prod.snd_sub, Prod.fst_sub,
      Pi.add_apply, Pi.sub_apply, add_zero] at this
    rw [sub_eq_zero] at this
    have h1 := wcoef_lt j ms
    have h2 := wcoef_lt j ms'
    rw [← hlen] at h2
    have hq : 2 ^ ms.length < q :=
      lt_of_le_of_lt (Nat.pow_le_pow_right (by norm_num) (by omega)) two_pow_254_lt_q
    have h3 := congrArg ZMod.val this
    rwa [ZMod.val_natCast_of_lt (h1.trans hq), ZMod.val_natCast_of_lt (h2.trans hq)] at h3
  · right; right
    simpa [accLin, blindLin] using hr

/-- The sum of the forms of two equally long word strings is not trivial. -/
theorem nontrivial_add {ms ms' : List ℕ} (hlen : ms.length = ms'.length) (r : Fq) :
    Lin.Nontrivial (accLin ms + accLin ms' + blindLin r) := by
  left
  have h2 := two_pow_ne_zero_Fq (ms.length + 1)
  rw [pow_succ, mul_two] at h2
  simpa [accLin, blindLin, ← hlen] using h2

/-- A collision, up to sign, of blinded hashes of equally long word strings gives a relation among
the candidates. -/
theorem relation_of_collision {P : Prims} {Q R : Point} {ms ms' : List ℕ}
    (hms : ∀ m ∈ ms, m < 1024) (hms' : ∀ m ∈ ms', m < 1024) (hlen : ms.length = ms'.length)
    (hl : ms.length ≤ 253) {h h' : Point} (hh : ms.foldlM (sinsemillaStep P) Q = some h)
    (hh' : ms'.foldlM (sinsemillaStep P) Q = some h') {r r' : Fq}
    (heq : h + r • R = h' + r' • R ∨ h + r • R = -(h' + r' • R)) (hne : ms ≠ ms' ∨ r ≠ r') :
    ∃ L ∈ collisionCandidates ms ms' r r', L.IsRelation P Q R := by
  obtain ⟨e, -⟩ := hash_eq_eval R hms hh
  obtain ⟨e', -⟩ := hash_eq_eval R hms' hh'
  rcases heq with heq | heq
  · refine ⟨_, List.mem_cons_self, nontrivial_sub hms hlen hl (hne.imp id (fun h h0 => h (sub_eq_zero.1 h0))), ?_⟩
    rw [Lin.eval_add, Lin.eval_sub, eval_blindLin, ← e, ← e', sub_smul]
    have : h - h' + (r • R - r' • R) = (h + r • R) - (h' + r' • R) := by abel
    rw [this, heq, sub_self]
  · refine ⟨_, List.mem_cons_of_mem _ List.mem_cons_self, nontrivial_add hlen _, ?_⟩
    rw [Lin.eval_add, Lin.eval_add, eval_blindLin, ← e, ← e', add_smul]
    have : h + h' + (r • R + r' • R) = (h + r • R) + (h' + r' • R) := by abel
    rw [this, heq]; abel

end Orchard
