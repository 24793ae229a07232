import Verif.Lemmas.Hiding
import Verif.Lemmas.RngFuel
import Verif.Lemmas.Shuffle
import Verif.Spec.Fair
import Mathlib.Algebra.BigOperators.Fin
import Mathlib.Data.Int.CardIntervalMod
import Mathlib.SetTheory.Cardinal.Finite

/-! # Counting the answers of a generator -/

namespace Orchard

open Drawing

/-! ### Numbers -/

/-- Byte strings of length `n` are the numbers below `256 ^ n`. -/
def Bytes.equivFin (n : ℕ) : Bytes n ≃ Fin (256 ^ n) where
  toFun b := ⟨b.toNat, b.toNat_lt⟩
  invFun x := Bytes.ofNat n x.val
  left_inv b := Bytes.ofNat_toNat b
  right_inv x := Fin.ext (Bytes.toNat_ofNat x.isLt)

instance (n : ℕ) : Fintype (Bytes n) := Fintype.ofEquiv _ (Bytes.equivFin n).symm

theorem Bytes.card (n : ℕ) : Fintype.card (Bytes n) = 256 ^ n := by
  rw [Fintype.card_congr (Bytes.equivFin n), Fintype.card_fin]

theorem card_residue (N r : ℕ) [NeZero r] (x : ZMod r) :
    Spec.NearlyEven N r (Nat.card {u : Fin N // ((u.val : ℕ) : ZMod r) = x}) := by
  have h : Nat.card {u : Fin N // ((u.val : ℕ) : ZMod r) = x} = N.count (· ≡ x.val [MOD r]) := by
    have e : ∀ u : ℕ, ((u : ℕ) : ZMod r) = x ↔ u ≡ x.val [MOD r] := fun u => by
      rw [← ZMod.natCast_eq_natCast_iff, ZMod.natCast_zmod_val]
    rw [Nat.count_eq_card_filter_range, Nat.card_eq_fintype_card, Fintype.card_subtype]
    refine Finset.card_bij (fun u _ => u.val) (fun u hu => ?_) (fun u _ v _ h => Fin.ext h) fun u hu => ?_
    · rw [Finset.mem_filter] at hu
      rw [Finset.mem_filter, Finset.mem_range]
      exact ⟨u.isLt, (e _).1 hu.2⟩
    · rw [Finset.mem_filter, Finset.mem_range] at hu
      exact ⟨⟨u, hu.1⟩, by rw [Finset.mem_filter]; exact ⟨Finset.mem_univ _, (e _).2 hu.2⟩, rfl⟩
  rw [h, Nat.count_modEq_card _ (NeZero.pos r)]
  unfold Spec.NearlyEven
  split <;> simp

/-- Eight answers of 8 bytes are the numbers below `2 ^ 512`. -/
def wordsEquiv : (Fin 8 → Bytes 8) ≃ Fin ((256 ^ 8) ^ 8) :=
  (Equiv.arrowCongr (Equiv.refl _) (Bytes.equivFin 8)).trans finFunctionFinEquiv

theorem wordsEquiv_val (w : Fin 8 → Bytes 8) : (wordsEquiv w).val = Spec.wordsNat w := by
  unfold wordsEquiv Spec.wordsNat
  rw [Equiv.trans_apply, finFunctionFinEquiv_apply]
  have : (256 : ℕ) ^ 8 = 2 ^ 64 := by norm_num
  simp only [this]
  rfl

theorem card_words (r : ℕ) [NeZero r] (x : ZMod r) :
    Spec.NearlyEven (2 ^ 512) r (Nat.card {w : Fin 8 → Bytes 8 // (Spec.wordsNat w : ZMod r) = x}) := by
  have e : (2 : ℕ) ^ 512 = (256 ^ 8) ^ 8 := by rw [show (256 : ℕ) = 2 ^ 8 from rfl, ← pow_mul, ← pow_mul]
  rw [e]
  have := card_residue ((256 ^ 8) ^ 8) r x
  rw [← Nat.card_congr (wordsEquiv.subtypeEquiv (p := fun w => (Spec.wordsNat w : ZMod r) = x)
    (q := fun u => ((u.val : ℕ) : ZMod r) = x) fun w => by rw [wordsEquiv_val])] at this
  exact this

theorem card_bytes64 (r : ℕ) [NeZero r] (x : ZMod r) :
    Spec.NearlyEven (2 ^ 512) r (Nat.card {b : Bytes 64 // (b.toNat : ZMod r) = x}) := by
  have e : (2 : ℕ) ^ 512 = 256 ^ 64 := by rw [show (256 : ℕ) = 2 ^ 8 from rfl, ← pow_mul]
  rw [e]
  have := card_residue (256 ^ 64) r x
  rw [← Nat.card_congr ((Bytes.equivFin 64).subtypeEquiv (p := fun b => (b.toNat : ZMod r) = x)
    (q := fun u => ((u.val : ℕ) : ZMod r) = x) fun w => by rfl)] at this
  exact this

theorem answer_bytes (G : Generator) (k : ℕ) {m s : ℕ} (w : Fin m → Bytes s) (j : ℕ) (hj : j < m) :
    (Spec.answer G k w).bytes (k + j) s = w ⟨j, hj⟩ := by
  unfold Spec.answer
  simp only
  rw [dif_pos ⟨by omega, by omega, trivial⟩]
  congr 2
  omega

theorem wide_answer (G : Generator) (k : ℕ) (w : Fin 8 → Bytes 8) : Spec.wide (Spec.answer G k w) k = Spec.wordsNat w := by
  unfold Spec.wide Spec.wordsNat
  rw [Finset.sum_range]
  refine Finset.sum_congr rfl fun j _ => ?_
  rw [answer_bytes G k w j.val j.isLt]

/-! ### Loops -/

section
variable {ι A B : Type} (step : ι → A → Option B)

/-- One value for each of a list of loops: loop `i` takes answers until `step i` accepts one. -/
def picks : List ι → List A → Option (List B)
  | [], _ => some []
  | _ :: _, [] => none
  | i :: is, a :: l => match step i a with
    | none => picks (i :: is) l
    | some b => (picks is l).map (b :: ·)
  termination_by _ l => l.length

theorem picks_nil (l : List A) : picks step [] l = some [] := by
  cases l <;> rw [picks]

theorem picks_cons_nil (i : ι) (is : List ι) : picks step (i :: is) [] = none := by rw [picks]

theorem picks_none {i : ι} {is : List ι} {a : A} (l : List A) (h : step i a = none) :
    picks step (i :: is) (a :: l) = picks step (i :: is) l := by
  rw [picks, h]

theorem picks_some {i : ι} {is : List ι} {a : A} {b : B} (l : List A) (h : step i a = some b) :
    picks step (i :: is) (a :: l) = (picks step is l).map (b :: ·) := by
  rw [picks, h]

theorem exists_picks : ∀ (m : ℕ) (t : List (ι × B)), t.length ≤ m → (∀ x ∈ t, ∃ a, step x.1 a = some x.2) → Nonempty A →
    ∃ w : Fin m → A, picks step (t.map Prod.fst) (List.ofFn w) = some (t.map Prod.snd) := by
  intro m
  induction m with
  | zero =>
    intro t ht _ _
    rw [List.length_eq_zero_iff.1 (Nat.le_zero.1 ht)]
    exact ⟨Fin.elim0, picks_nil ..⟩
  | succ m ih =>
    intro t ht hx hA
    cases t with
    | nil => exact ⟨fun _ => hA.some, picks_nil ..⟩
    | cons x t =>
      obtain ⟨a, ha⟩ := hx x (List.mem_cons_self ..)
      obtain ⟨w, hw⟩ := ih t (by simpa using ht) (fun y hy => hx y (List.mem_cons_of_mem _ hy)) hA
      refine ⟨Fin.cons a w, ?_⟩
      rw [List.ofFn_succ]
      simp only [Fin.cons_zero, Fin.cons_succ, List.map_cons]
      rw [picks_some step _ ha, hw]
      rfl

theorem card_cons [Fintype A] (M : ℕ) (p : List A → Prop) :
    Nat.card {w : Fin (M + 1) → A // p (List.ofFn w)} = ∑ a : A, Nat.card {w : Fin M → A // p (a :: List.ofFn w)} := by
  classical
  rw [← Nat.card_sigma]
  refine Nat.card_congr ⟨fun w => ⟨w.1 0, fun j => w.1 j.succ, ?_⟩, fun x => ⟨Fin.cons x.1 x.2.1, ?_⟩, fun w => ?_,
    fun x => ?_⟩
  · have := w.2
    rwa [List.ofFn_succ] at this
  · rw [List.ofFn_succ]
    exact x.2.2
  · ext j
    refine Fin.cases rfl (fun j => rfl) j
  · rfl

theorem sum_step [Fintype A] [DecidableEq B] (f : A → Option B) (b : B) (c d : ℕ) :
    (∑ a : A, match f a with
      | none => c
      | some b' => if b' = b then d else 0) =
    (Finset.univ.filter fun a => f a = none).card * c + (Finset.univ.filter fun a => f a = some b).card * d := by
  have : ∀ a, (match f a with
      | none => c
      | some b' => if b' = b then d else 0) = (if f a = none then c else 0) + if f a = some b then d else 0 := by
    intro a
    cases f a <;> simp
  rw [Finset.sum_congr rfl fun a _ => this a, Finset.sum_add_distrib, ← Finset.sum_filter, ← Finset.sum_filter,
    Finset.sum_const, Finset.sum_const, smul_eq_mul, smul_eq_mul]

/-- If the loops accept as many answers for the one value as for the other, as many answers give the list of the ones as
give the list of the others. -/
theorem card_picks [Fintype A] [DecidableEq B] (M : ℕ) : ∀ t : List (ι × B × B),
    (∀ x ∈ t, (Finset.univ.filter fun a => step x.1 a = some x.2.1).card =
      (Finset.univ.filter fun a => step x.1 a = some x.2.2).card) →
    Nat.card {w : Fin M → A // picks step (t.map Prod.fst) (List.ofFn w) = some (t.map fun x => x.2.1)} =
    Nat.card {w : Fin M → A // picks step (t.map Prod.fst) (List.ofFn w) = some (t.map fun x => x.2.2)} := by
  induction M with
  | zero =>
    intro t ht
    cases t with
    | nil => rfl
    | cons x t => simp only [List.map_cons, List.ofFn_zero, picks_cons_nil, reduceCtorEq]
  | succ M ih =>
    intro t ht
    cases t with
    | nil => rfl
    | cons x t =>
      have key : ∀ (b : B) (bs : List B),
          Nat.card {w : Fin (M + 1) → A // picks step (x.1 :: t.map Prod.fst) (List.ofFn w) = some (b :: bs)} =
          (Finset.univ.filter fun a => step x.1 a = none).card *
            Nat.card {w : Fin M → A // picks step (x.1 :: t.map Prod.fst) (List.ofFn w) = some (b :: bs)} +
          (Finset.univ.filter fun a => step x.1 a = some b).card *
            Nat.card {w : Fin M → A // picks step (t.map Prod.fst) (List.ofFn w) = some bs} := by
        intro b bs
        rw [card_cons M fun l => picks step (x.1 :: t.map Prod.fst) l = some (b :: bs), ← sum_step]
        refine Finset.sum_congr rfl fun a _ => ?_
        cases h : step x.1 a with
        | none => simp only [picks_none step _ h]
        | some b' =>
          simp only [picks_some step _ h]
          by_cases hb : b' = b
          · subst hb
            rw [if_pos rfl]
            refine Nat.card_congr (Equiv.subtypeEquivRight fun w => ?_)
            cases picks step (t.map Prod.fst) (List.ofFn w) <;> simp
          · rw [if_neg hb, Nat.card_eq_zero]
            refine Or.inl ⟨fun w => ?_⟩
            have := w.2
            cases hp : picks step (t.map Prod.fst) (List.ofFn w.1) <;> rw [hp] at this <;> simp [hb] at this
      simp only [List.map_cons] at ih ⊢
      rw [key, key, ht x (by simp), ih t fun y hy => ht y (by simp [hy])]
      have := ih (x :: t) ht
      simp only [List.map_cons] at this
      rw [this]
end

/-! ### Loops with a generator -/

section
variable {E α β γ ι : Type} {G : Generator} {s : ℕ}

/-- The answers to `M` calls for `s` bytes, from call `k` on. -/
def answersFrom (G : Generator) (s k M : ℕ) : List (Bytes s) := List.ofFn fun j : Fin M => G.bytes (k + j) s

theorem answersFrom_answer (G : Generator) (k : ℕ) {M : ℕ} (w : Fin M → Bytes s) :
    answersFrom (Spec.answer G k w) s k M = List.ofFn w := by
  unfold answersFrom
  congr 1
  funext j
  exact answer_bytes G k w j.val j.isLt

theorem answersFrom_succ (k M : ℕ) : answersFrom G s k (M + 1) = G.bytes k s :: answersFrom G s (k + 1) M := by
  unfold answersFrom
  rw [List.ofFn_succ]
  simp only [Fin.val_zero, Nat.add_zero, Fin.val_succ]
  congr 2
  funext j
  congr 1
  omega

theorem answersFrom_zero (k : ℕ) : answersFrom G s k 0 = [] := rfl

theorem untilSome_succ (body : Drawing E (Option α)) (fuel k : ℕ) :
    untilSome body (fuel + 1) k = body k >>= fun p => (match p.1 with
      | some a => (Pure.pure a : Drawing E α)
      | none => untilSome body fuel) p.2 := rfl

theorem untilSome_lt {body : Drawing E (Option α)} (hm : ∀ k o k', body k = .ok (o, k') → k < k') {fuel k k' : ℕ} {a : α}
    (h : untilSome body fuel k = .ok (a, k')) : k < k' := by
  have := untilSome_inv (body := body) (fun k o k' h => (hm k o k' h).le) fuel k
  rw [h] at this
  obtain ⟨m, h1, h2⟩ := this
  have := hm _ _ _ h2
  omega

/-- What a loop does with an answer: rejects it, or ends with a value or (`some none`) in another way. -/
def ending (f : Bytes s → Run E (Option α)) (b : Bytes s) : Option (Option α) :=
  match f b with
  | .ok none => none
  | .ok (some a) => some (some a)
  | _ => some none

/-- One loop. -/
theorem loop_iff {body : Drawing E (Option α)} {f : Bytes s → Run E (Option α)}
    (hb : ∀ k, body k = f (G.bytes k s) >>= fun o => .ok (o, k + 1)) (a : α) : ∀ M fuel k, M ≤ fuel →
    ((∃ k', untilSome body fuel k = .ok (a, k') ∧ k' ≤ k + M) ↔
      picks (fun _ : Unit => ending f) [()] (answersFrom G s k M) = some [some a]) := by
  have hlt : ∀ k o k', body k = .ok (o, k') → k < k' := fun k o k' h => by
    rw [hb, Run.bind_eq_ok] at h
    obtain ⟨_, -, h⟩ := h
    simp only [Run.ok.injEq, Prod.mk.injEq] at h
    omega
  intro M
  induction M with
  | zero =>
    intro fuel k _
    rw [answersFrom_zero, picks_cons_nil]
    simp only [reduceCtorEq, iff_false]
    rintro ⟨k', h, hk⟩
    have := untilSome_lt hlt h
    omega
  | succ M ih =>
    intro fuel k hf
    obtain ⟨fuel, rfl⟩ : ∃ n, fuel = n + 1 := ⟨fuel - 1, by omega⟩
    rw [answersFrom_succ, untilSome_succ, hb]
    cases hx : f (G.bytes k s) with
    | ok o =>
      cases o with
      | none =>
        rw [picks_none _ _ (by unfold ending; rw [hx])]
        rw [← ih fuel (k + 1) (by omega)]
        simp only [Run.ok_bind, show k + 1 + M = k + (M + 1) by omega]
      | some a' =>
        rw [picks_some (fun _ : Unit => ending f) _ (b := some a') (by unfold ending; rw [hx]), picks_nil]
        simp only [Run.ok_bind, pure_run, Run.ok.injEq, Prod.mk.injEq, Option.map_some, Option.some.injEq,
          List.cons.injEq, and_true]
        constructor
        · rintro ⟨k', ⟨rfl, -⟩, -⟩; rfl
        · rintro rfl; exact ⟨k + 1, ⟨rfl, rfl⟩, by omega⟩
    | err e =>
      rw [picks_some (fun _ : Unit => ending f) _ (b := none) (by unfold ending; rw [hx]), picks_nil]
      simp
    | panic =>
      rw [picks_some (fun _ : Unit => ending f) _ (b := none) (by unfold ending; rw [hx]), picks_nil]
      simp
    | more =>
      rw [picks_some (fun _ : Unit => ending f) _ (b := none) (by unfold ending; rw [hx]), picks_nil]
      simp

/-- Several loops, one after the other. -/
theorem loops_iff {body : ι → Drawing E (Option β)} {st : ι → Bytes s → Option β}
    (hb : ∀ i k, body i k = .ok (st i (G.bytes k s), k + 1)) (g : γ → ι → β → γ) (F : ℕ) (v' : γ) :
    ∀ M, M ≤ F → ∀ f k (v : γ) (is : List ι), M ≤ f →
    ((∃ k', (match is with
        | [] => (Pure.pure v : Drawing E γ)
        | i :: is => untilSome (body i) f >>= fun b =>
          is.foldlM (fun v i => do let b ← untilSome (body i) F; Pure.pure (g v i b)) (g v i b)) k = .ok (v', k') ∧
        k' ≤ k + M) ↔
      ∃ bs, picks st is (answersFrom G s k M) = some bs ∧ (is.zip bs).foldl (fun v x => g v x.1 x.2) v = v') := by
  have hlt : ∀ i k o k', body i k = .ok (o, k') → k < k' := fun i k o k' h => by
    rw [hb] at h
    simp only [Run.ok.injEq, Prod.mk.injEq] at h
    omega
  have hle : ∀ (is : List ι) (v : γ) k v' k', (is.foldlM (fun v i => do
      let b ← untilSome (body i) F; Pure.pure (g v i b)) v : Drawing E γ) k = .ok (v', k') → k ≤ k' := by
    intro is
    induction is with
    | nil =>
      intro v k v' k' h
      rw [List.foldlM_nil, pure_run] at h
      simp only [Run.ok.injEq, Prod.mk.injEq] at h
      omega
    | cons i is ih =>
      intro v k v' k' h
      rw [List.foldlM_cons, bind_run, bind_run, Run.bind_eq_ok] at h
      obtain ⟨p, h1, h2⟩ := h
      rw [Run.bind_eq_ok] at h1
      obtain ⟨q, h1, h3⟩ := h1
      rw [pure_run] at h3
      simp only [Run.ok.injEq] at h3
      subst h3
      have := untilSome_lt (hlt i) h1
      have := ih _ _ _ _ h2
      simp only at this
      omega
  intro M
  induction M with
  | zero =>
    intro _ f k v is _
    cases is with
    | nil => simp [picks_nil, pure_run]
    | cons i is =>
      rw [answersFrom_zero, picks_cons_nil]
      simp only [reduceCtorEq, false_and, exists_false, iff_false]
      rintro ⟨k', h, hk⟩
      rw [bind_run, Run.bind_eq_ok] at h
      obtain ⟨q, h1, h2⟩ := h
      have := untilSome_lt (hlt i) h1
      have := hle _ _ _ _ _ h2
      omega
  | succ M ih =>
    intro hF f k v is hf
    cases is with
    | nil => simp [picks_nil, pure_run]
    | cons i is =>
      obtain ⟨f, rfl⟩ : ∃ n, f = n + 1 := ⟨f - 1, by omega⟩
      dsimp only
      rw [answersFrom_succ, bind_run, untilSome_succ, hb, Run.ok_bind]
      cases hx : st i (G.bytes k s) with
      | none =>
        rw [picks_none _ _ hx, ← ih (by omega) f (k + 1) v (i :: is) (by omega)]
        simp only [bind_run, show k + 1 + M = k + (M + 1) by omega]
      | some b =>
        rw [picks_some _ _ hx]
        simp only [pure_run, Run.ok_bind]
        have := ih (by omega) F (k + 1) (g v i b) is (by omega)
        rw [show k + 1 + M = k + (M + 1) by omega] at this
        have e : (match is with
            | [] => (Pure.pure (g v i b) : Drawing E γ)
            | i' :: is => untilSome (body i') F >>= fun b' =>
              is.foldlM (fun v i => do let b ← untilSome (body i) F; Pure.pure (g v i b)) (g (g v i b) i' b')) =
            is.foldlM (fun v i => do let b ← untilSome (body i) F; Pure.pure (g v i b)) (g v i b) := by
          cases is with
          | nil => rfl
          | cons i' is => rw [List.foldlM_cons, bind_assoc]; simp only [pure_bind]
        rw [e] at this
        rw [this]
        constructor
        · rintro ⟨bs, h1, h2⟩
          exact ⟨b :: bs, by rw [h1]; rfl, h2⟩
        · rintro ⟨bs, h1, h2⟩
          rw [Option.map_eq_some_iff] at h1
          obtain ⟨bs, h1, rfl⟩ := h1
          exact ⟨bs, h1, h2⟩

theorem foldLoops_iff {body : ι → Drawing E (Option β)} {st : ι → Bytes s → Option β}
    (hb : ∀ i k, body i k = .ok (st i (G.bytes k s), k + 1)) (g : γ → ι → β → γ) (M k : ℕ) (v v' : γ) (is : List ι) :
    (∃ k', (is.foldlM (fun v i => do let b ← untilSome (body i) M; Pure.pure (g v i b)) v : Drawing E γ) k = .ok (v', k') ∧
        k' ≤ k + M) ↔
      ∃ bs, picks st is (answersFrom G s k M) = some bs ∧ (is.zip bs).foldl (fun v x => g v x.1 x.2) v = v' := by
  rw [← loops_iff hb g M v' M le_rfl M k v is le_rfl]
  cases is with
  | nil => rfl
  | cons i is => rw [List.foldlM_cons, bind_assoc]; simp only [pure_bind]

/-- What `Note::new` does with a seed. -/
noncomputable def seedStep (P : Prims) (a : Address) (v : NoteValue) (rho : Fp) (b : Bytes 32) : Option Note :=
  (RandomSeed.fromBytes P b rho).bind (Note.fromParts P a v rho)

/-- The loop of `Note::new` with the loop of `RandomSeed::random` inside. -/
theorem noteLoop_iff (P : Prims) (G : Generator) (a : Address) (v : NoteValue) (rho : Fp) (n : Note) (F : ℕ) :
    ∀ M, M ≤ F → ∀ fuel k, M ≤ fuel →
    ((∃ k', (untilSome (do Pure.pure (Note.fromParts P a v rho (← RandomSeed.draw P G F rho))) fuel : Drawing E Note) k =
        .ok (n, k') ∧ k' ≤ k + M) ↔
      picks (fun _ : Unit => seedStep P a v rho) [()] (answersFrom G 32 k M) = some [n]) := by
  have hlt : ∀ k o k', (do Pure.pure (Note.fromParts P a v rho (← RandomSeed.draw P G F rho)) :
      Drawing E (Option Note)) k = .ok (o, k') → k < k' := fun k o k' h => by
    have := noteBody_inv (E := E) P G F a v rho k
    rw [h] at this
    obtain ⟨m, s, h1, h2, -⟩ := this
    omega
  have hlt' : ∀ k o k', (do Pure.pure (RandomSeed.fromBytes P (← fillBytes G 32) rho) :
      Drawing E (Option (Bytes 32))) k = .ok (o, k') → k < k' := fun k o k' h => by
    have e : (do Pure.pure (RandomSeed.fromBytes P (← fillBytes G 32) rho) : Drawing E (Option (Bytes 32))) k =
      .ok (RandomSeed.fromBytes P (G.bytes k 32) rho, k + 1) := rfl
    rw [e] at h
    simp only [Run.ok.injEq, Prod.mk.injEq] at h
    omega
  have hR : ∀ fo, (untilSome (do Pure.pure (Note.fromParts P a v rho (← RandomSeed.draw P G F rho))) (fo + 1) :
      Drawing E Note) = RandomSeed.draw P G F rho >>= fun s =>
        match Note.fromParts P a v rho s with
        | some n => Pure.pure n
        | none => untilSome (do Pure.pure (Note.fromParts P a v rho (← RandomSeed.draw P G F rho))) fo := by
    intro fo
    rw [untilSome, bind_assoc]
    simp only [pure_bind]
    congr 1
    funext s
    cases Note.fromParts P a v rho s <;> rfl
  have hX : ∀ M, M ≤ F → ∀ fo fi k, M ≤ fo + 1 → M ≤ fi →
      ((∃ k', (untilSome (do Pure.pure (RandomSeed.fromBytes P (← fillBytes G 32) rho)) fi >>= fun s =>
          match Note.fromParts P a v rho s with
          | some n => Pure.pure n
          | none => untilSome (do Pure.pure (Note.fromParts P a v rho (← RandomSeed.draw P G F rho))) fo :
            Drawing E Note) k = .ok (n, k') ∧ k' ≤ k + M) ↔
        picks (fun _ : Unit => seedStep P a v rho) [()] (answersFrom G 32 k M) = some [n]) := by
    intro M
    induction M with
    | zero =>
      intro _ fo fi k _ _
      rw [answersFrom_zero, picks_cons_nil]
      simp only [reduceCtorEq, iff_false]
      rintro ⟨k', h, hk⟩
      rw [bind_run, Run.bind_eq_ok] at h
      obtain ⟨q, h1, h2⟩ := h
      have := untilSome_lt hlt' h1
      cases hp : Note.fromParts P a v rho q.1 with
      | some n' =>
        rw [hp] at h2
        dsimp only at h2
        rw [pure_run] at h2
        simp only [Run.ok.injEq, Prod.mk.injEq] at h2
        omega
      | none =>
        rw [hp] at h2
        have := untilSome_lt hlt h2
        omega
    | succ M ih =>
      intro hF fo fi k ho hi
      obtain ⟨fi, rfl⟩ : ∃ n, fi = n + 1 := ⟨fi - 1, by omega⟩
      rw [answersFrom_succ, bind_run, untilSome_succ]
      have e : (do Pure.pure (RandomSeed.fromBytes P (← fillBytes G 32) rho) : Drawing E (Option (Bytes 32))) k =
        .ok (RandomSeed.fromBytes P (G.bytes k 32) rho, k + 1) := rfl
      rw [e, Run.ok_bind]
      cases hs : RandomSeed.fromBytes P (G.bytes k 32) rho with
      | none =>
        rw [picks_none _ _ (by unfold seedStep; rw [hs]; rfl), ← ih (by omega) fo fi (k + 1) (by omega) (by omega)]
        simp only [bind_run, show k + 1 + M = k + (M + 1) by omega]
      | some b =>
        simp only [pure_run, Run.ok_bind]
        cases hp : Note.fromParts P a v rho b with
        | some n' =>
          rw [picks_some (fun _ : Unit => seedStep P a v rho) _ (b := n') (by unfold seedStep; rw [hs]; exact hp),
            picks_nil]
          simp only [pure_run, Run.ok.injEq, Prod.mk.injEq, Option.map_some, Option.some.injEq, List.cons.injEq,
            and_true]
          constructor
          · rintro ⟨k', ⟨rfl, -⟩, -⟩; rfl
          · rintro rfl; exact ⟨k + 1, ⟨rfl, rfl⟩, by omega⟩
        | none =>
          rw [picks_none _ _ (by unfold seedStep; rw [hs]; exact hp)]
          cases M with
          | zero =>
            rw [answersFrom_zero, picks_cons_nil]
            simp only [reduceCtorEq, iff_false]
            rintro ⟨k', h, hk⟩
            have := untilSome_lt hlt h
            omega
          | succ M =>
            obtain ⟨fo, rfl⟩ : ∃ n, fo = n + 1 := ⟨fo - 1, by omega⟩
            rw [← ih (by omega) fo F (k + 1) (by omega) (by omega)]
            simp only [show k + 1 + (M + 1) = k + (M + 1 + 1) by omega]
            rw [hR]
            rfl
  intro M hF fuel k hf
  cases M with
  | zero =>
    rw [answersFrom_zero, picks_cons_nil]
    simp only [reduceCtorEq, iff_false]
    rintro ⟨k', h, hk⟩
    have := untilSome_lt hlt h
    omega
  | succ M =>
    obtain ⟨fuel, rfl⟩ : ∃ n, fuel = n + 1 := ⟨fuel - 1, by omega⟩
    rw [hR]
    exact hX (M + 1) hF fuel F k hf hF

theorem picks_forall {A B : Type} (step : ι → A → Option B) : ∀ (l : List A) (is : List ι) (bs : List B),
    picks step is l = some bs → List.Forall₂ (fun i b => ∃ a, step i a = some b) is bs := by
  intro l
  induction l with
  | nil =>
    intro is bs h
    cases is with
    | nil => rw [picks_nil, Option.some.injEq] at h; subst h; exact .nil
    | cons i is => rw [picks_cons_nil] at h; cases h
  | cons a l ih =>
    intro is bs h
    cases is with
    | nil => rw [picks_nil, Option.some.injEq] at h; subst h; exact .nil
    | cons i is =>
      cases hx : step i a with
      | none => rw [picks_none _ _ hx] at h; exact ih _ _ h
      | some b =>
        rw [picks_some _ _ hx, Option.map_eq_some_iff] at h
        obtain ⟨bs, h, rfl⟩ := h
        exact .cons ⟨a, hx⟩ (ih _ _ h)

theorem exists_map_of_nodup {B : Type} [Inhabited B] [DecidableEq ι] : ∀ {is : List ι} {bs : List B}, is.Nodup →
    is.length = bs.length → ∃ g : ι → B, is.map g = bs := by
  intro is
  induction is with
  | nil =>
    intro bs _ h
    exact ⟨fun _ => default, by rw [List.length_eq_zero_iff.1 h.symm]; rfl⟩
  | cons i is ih =>
    intro bs hn h
    cases bs with
    | nil => simp at h
    | cons b bs =>
      rw [List.nodup_cons] at hn
      obtain ⟨g, hg⟩ := ih hn.2 (by simpa using h)
      refine ⟨fun j => if j = i then b else g j, ?_⟩
      rw [List.map_cons, if_pos rfl, ← hg]
      congr 1
      refine List.map_congr_left fun j hj => if_neg fun (e : j = i) => hn.1 (e ▸ hj)

theorem foldl_zip_map (h : γ → ι → β → γ) (g : ι → β) : ∀ (is : List ι) (v : γ),
    (is.zip (is.map g)).foldl (fun v x => h v x.1 x.2) v = is.foldl (fun v i => h v i (g i)) v := by
  intro is
  induction is with
  | nil => intro v; rfl
  | cons i is ih => intro v; simp [ih]

theorem Drawing.foldlM_congr {f f' : γ → ι → Drawing E γ} : ∀ (is : List ι) (v : γ), (∀ i ∈ is, ∀ v, f v i = f' v i) →
    is.foldlM f v = is.foldlM f' v := by
  intro is
  induction is with
  | nil => intro v _; rfl
  | cons i is ih =>
    intro v h
    rw [List.foldlM_cons, List.foldlM_cons, h i (by simp)]
    congr 1
    funext v'
    exact ih _ fun i hi => h i (by simp [hi])

/-- What `gen_range(0..=i)` does with an answer of 4 bytes. -/
def choiceStep (i : ℕ) (b : Bytes 4) : Option ℕ := genRangeStep 32 (i + 1) b.toNat

/-- A shuffle gives `l'` if its loops choose the table of choices that gives `l'`. -/
theorem shuffle_iff {l l' : List α} (hl : l.Nodup) (h32 : l.length < 2 ^ 32) (c : Spec.Choices l.length)
    (hc : shuffle c.at l = l') (G : Generator) (k m : ℕ) :
    (∃ k', (shuffleWith G m l : Drawing E (List α)) k = .ok (l', k') ∧ k' ≤ k + m) ↔
      picks choiceStep (List.range' 1 (l.length - 1)).reverse (answersFrom G 4 k m) =
        some ((List.range' 1 (l.length - 1)).reverse.map c.at) := by
  have hmem : ∀ i ∈ (List.range' 1 (l.length - 1)).reverse, i + 1 < 2 ^ 32 ∧ 1 ≤ i ∧ i < l.length := fun i hi => by
    rw [List.mem_reverse, List.mem_range'_1] at hi
    omega
  have hnd : (List.range' 1 (l.length - 1)).reverse.Nodup := List.nodup_reverse.2 List.nodup_range'
  have hsh : ∀ g, shuffle g l = ((List.range' 1 (l.length - 1)).reverse.foldl
      (fun (v : Array α) i => v.swapIfInBounds i (g i % (i + 1))) l.toArray).toList := fun g => rfl
  unfold shuffleWith
  generalize (List.range' 1 (l.length - 1)).reverse = is at *
  rw [Drawing.foldlM_congr (f' := fun v i => do
    let j ← untilSome (do Pure.pure (choiceStep i (← fillBytes G 4))) m
    Pure.pure (v.swapIfInBounds i j)) is _ fun i hi v => by
      unfold genIndex
      rw [if_pos (hmem i hi).1]
      congr 2
      unfold nextU32
      rw [bind_assoc]
      congr 1
      funext b
      rw [pure_bind]
      have := b.toNat_lt
      rw [UInt32.toNat_ofNat', Nat.mod_eq_of_lt (by norm_num at this ⊢; exact this)]
      rfl]
  have hrun := foldLoops_iff (E := E) (G := G) (s := 4) (body := fun i => (do Pure.pure (choiceStep i (← fillBytes G 4))))
    (st := choiceStep) (fun i k => rfl) (fun (v : Array α) i j => v.swapIfInBounds i j) m k l.toArray
  have hat : ∀ i < l.length, c.at i < i + 1 := fun i hi => by
    unfold Spec.Choices.at
    rw [dif_pos hi]
    exact (c ⟨i, hi⟩).2
  constructor
  · rintro ⟨k', h, hk⟩
    rw [bind_run, Run.bind_eq_ok] at h
    obtain ⟨⟨v', k''⟩, h1, h2⟩ := h
    rw [pure_run] at h2
    simp only [Run.ok.injEq, Prod.mk.injEq] at h2
    obtain ⟨h2, rfl⟩ := h2
    obtain ⟨bs, h3, h4⟩ := (hrun v' is).1 ⟨k'', h1, hk⟩
    have hf := picks_forall _ _ _ _ h3
    obtain ⟨g, rfl⟩ := exists_map_of_nodup hnd hf.length_eq
    rw [foldl_zip_map (fun (v : Array α) i j => v.swapIfInBounds i j)] at h4
    have hg : ∀ i ∈ is, g i < i + 1 := by
      intro i hi
      rw [List.forall₂_map_right_iff, List.forall₂_same] at hf
      obtain ⟨a, ha⟩ := hf i hi
      have h5 := a.toNat_lt
      exact Ranged.lt (w := 32) (by norm_num at h5 ⊢; exact h5)
        (genRangeStep_some (by omega) (hmem i hi).1 ha)
    have h6 : shuffle g l = l' := by
      rw [hsh, ← h2, ← h4]
      congr 1
      exact List.foldl_ext _ _ _ fun v i hi => by rw [Nat.mod_eq_of_lt (hg i hi)]
    have h7 := shuffle_inj g c.at l hl (h6.trans hc.symm)
    rw [h3, Option.some.injEq]
    refine List.map_congr_left fun i hi => ?_
    have := h7 i (hmem i hi).2.2
    rwa [Nat.mod_eq_of_lt (hg i hi), Nat.mod_eq_of_lt (hat i (hmem i hi).2.2)] at this
  · intro h
    obtain ⟨k', h1, h2⟩ := (hrun (is.foldl (fun (v : Array α) i => v.swapIfInBounds i (c.at i)) l.toArray) is).2 ⟨_, h, foldl_zip_map (fun (v : Array α) i j => v.swapIfInBounds i j) _ _ _⟩
    refine ⟨k', ?_, h2⟩
    rw [bind_run, h1, Run.ok_bind, pure_run, ← hc, hsh]
    congr 3
    exact List.foldl_ext _ _ _ fun v i hi => by rw [Nat.mod_eq_of_lt (hat i (hmem i hi).2.2)]

end

end Orchard
