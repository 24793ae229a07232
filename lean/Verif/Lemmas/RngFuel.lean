import Verif.Lemmas.RngBuild
import Verif.Lemmas.Plan

/-! # More rounds of the loops change nothing; loops that end at once -/

namespace Orchard

open Drawing

variable {E α β : Type}

/-! ### More rounds -/

/-- If `x` ends, then `y` ends in the same way. -/
def Upto (x y : Drawing E α) : Prop := ∀ k, x k ≠ .more → y k = x k

theorem Upto.refl (x : Drawing E α) : Upto x x := fun _ _ => rfl

theorem Upto.bind {x y : Drawing E α} {f g : α → Drawing E β} (h : Upto x y) (hf : ∀ a, Upto (f a) (g a)) :
    Upto (x >>= f) (y >>= g) := by
  intro k hk
  rw [bind_run] at hk ⊢
  rw [bind_run]
  cases hx : x k with
  | ok p =>
    rw [h k (by rw [hx]; simp), hx, Run.ok_bind, Run.ok_bind]
    rw [hx, Run.ok_bind] at hk
    exact hf _ _ hk
  | err e => rw [h k (by rw [hx]; simp), hx]; rfl
  | panic => rw [h k (by rw [hx]; simp), hx]; rfl
  | more => rw [hx] at hk; exact absurd rfl hk

theorem Upto.then {x : Drawing E α} {f g : α → Drawing E β} (hf : ∀ a, Upto (f a) (g a)) : Upto (x >>= f) (x >>= g) :=
  (Upto.refl x).bind hf

theorem Upto.untilSome {x y : Drawing E (Option α)} (h : Upto x y) :
    ∀ {m n : ℕ}, m ≤ n → Upto (Drawing.untilSome x m) (Drawing.untilSome y n)
  | 0, _, _ => fun _ hk => absurd rfl hk
  | m + 1, 0, hmn => absurd hmn (by omega)
  | m + 1, n + 1, hmn => by
    refine h.bind fun o => ?_
    cases o with
    | some a => exact Upto.refl _
    | none => exact Upto.untilSome h (by omega)

theorem Upto.mapM {ι : Type} {f g : ι → Drawing E β} (h : ∀ i, Upto (f i) (g i)) :
    ∀ l : List ι, Upto (l.mapM f) (l.mapM g)
  | [] => Upto.refl _
  | i :: l => by
    rw [List.mapM_cons, List.mapM_cons]
    exact (h i).bind fun _ => (Upto.mapM h l).bind fun _ => Upto.refl _

theorem Upto.foldlM {ι : Type} {f g : β → ι → Drawing E β} (h : ∀ b i, Upto (f b i) (g b i)) :
    ∀ (l : List ι) (b : β), Upto (l.foldlM f b) (l.foldlM g b)
  | [], _ => Upto.refl _
  | i :: l, b => by
    rw [List.foldlM_cons, List.foldlM_cons]
    exact (h b i).bind fun _ => Upto.foldlM h l _

section
variable (P : Prims) (G : Generator) {m n : ℕ} (hmn : m ≤ n)
include hmn

theorem upto_key : Upto (SpendingKey.draw P G m : Drawing E _) (SpendingKey.draw P G n) :=
  Upto.untilSome (Upto.refl _) hmn

theorem upto_note (a : Address) (v : NoteValue) (rho : Fp) :
    Upto (Note.draw P G m a v rho : Drawing E _) (Note.draw P G n a v rho) :=
  Upto.untilSome ((Upto.untilSome (Upto.refl _) hmn).bind fun _ => Upto.refl _) hmn

theorem upto_spendDummy : Upto (SpendInfo.drawDummy P G m : Drawing E _) (SpendInfo.drawDummy P G n) :=
  Upto.bind ((upto_key P G hmn).bind fun _ => Upto.then fun _ => Upto.then fun _ =>
    (Upto.bind (Upto.untilSome (Upto.refl _) hmn) fun _ => Upto.refl _).bind fun _ =>
      (upto_note P G hmn _ _ _).bind fun _ => Upto.refl _) fun _ => Upto.refl _

theorem upto_outputDummy : Upto (OutputInfo.drawDummy P G m : Drawing E _) (OutputInfo.drawDummy P G n) :=
  (upto_key P G hmn).bind fun _ => Upto.refl _

theorem upto_shuffle (l : List α) : Upto (shuffleWith G m l : Drawing E _) (shuffleWith G n l) := by
  refine Upto.bind (Upto.foldlM (fun v i => Upto.bind ?_ fun _ => Upto.refl _) _ _) fun _ => Upto.refl _
  unfold genIndex
  split
  · exact Upto.untilSome (Upto.refl _) hmn
  · exact Upto.untilSome (Upto.refl _) hmn

theorem upto_action (a : ActionInfo) : Upto (a.draw P G m : Drawing E _) (a.draw P G n) :=
  Upto.then fun _ => Upto.then fun _ => Upto.then fun _ => Upto.then fun _ =>
    (upto_note P G hmn _ _ _).bind fun _ => Upto.refl _

theorem upto_bundle {V : Type} (tryFrom : I64 → Option V) (anchor : Fp) (ty : BundleType) (spends : List SpendInfo)
    (outputs : List OutputInfo) :
    Upto (bundleWith P tryFrom G m anchor ty spends outputs) (bundleWith P tryFrom G n anchor ty spends outputs) := by
  rw [bundleWith_eq, bundleWith_eq]
  split
  · exact Upto.refl _
  refine Upto.then fun matching => ?_
  split
  · exact Upto.refl _
  split
  · exact Upto.refl _
  split
  · exact Upto.refl _
  refine Upto.bind ((Upto.mapM (fun _ => upto_spendDummy P G hmn) _).bind fun _ => Upto.refl _) fun _ => ?_
  refine Upto.bind ((Upto.mapM (fun _ => upto_outputDummy P G hmn) _).bind fun _ => Upto.refl _) fun _ => ?_
  refine Upto.bind (upto_shuffle G hmn _) fun _ => Upto.bind (upto_shuffle G hmn _) fun _ => Upto.then fun x => ?_
  exact Upto.then fun vb => (Upto.mapM (fun a => upto_action P G hmn a) _).bind fun _ => Upto.refl _

end

/-! ### Loops that end -/

/-- `x` ends. -/
def Ends (x : Drawing E α) : Prop := ∀ k, x k ≠ .more

theorem Ends.pure (a : α) : Ends (Pure.pure a : Drawing E α) := fun _ h => by simp [pure_run] at h

theorem Ends.bind {x : Drawing E α} {f : α → Drawing E β} (h : Ends x) (hf : ∀ a, Ends (f a)) : Ends (x >>= f) := by
  intro k hk
  rw [bind_run, Run.bind_eq_more] at hk
  rcases hk with hk | ⟨p, -, hk⟩
  · exact h k hk
  · exact hf _ _ hk

theorem Ends.lift {x : Run E α} (h : x ≠ .more) : Ends (Drawing.lift x) := by
  intro k hk
  unfold Drawing.lift at hk
  cases x <;> simp_all

theorem Ends.outcome (x : Outcome α) : Ends (Drawing.outcome x : Drawing E α) := Ends.lift Run.ofOutcome_ne_more

theorem Ends.mapM {ι : Type} {f : ι → Drawing E β} (h : ∀ i, Ends (f i)) : ∀ l : List ι, Ends (l.mapM f)
  | [] => Ends.pure _
  | i :: l => by
    rw [List.mapM_cons]
    exact (h i).bind fun _ => (Ends.mapM h l).bind fun _ => Ends.pure _

theorem Ends.foldlM {ι : Type} {f : β → ι → Drawing E β} (h : ∀ b i, Ends (f b i)) :
    ∀ (l : List ι) (b : β), Ends (l.foldlM f b)
  | [], _ => Ends.pure _
  | i :: l, b => by
    rw [List.foldlM_cons]
    exact (h b i).bind fun _ => Ends.foldlM h l _

/-- A loop whose every round is accepted. -/
theorem Ends.untilSome {x : Drawing E (Option α)} (h : Ends x) (hx : ∀ k k', x k ≠ .ok (none, k')) {n : ℕ} (hn : 0 < n) :
    Ends (Drawing.untilSome x n) := by
  obtain ⟨n, rfl⟩ := Nat.exists_eq_succ_of_ne_zero hn.ne'
  intro k hk
  unfold Drawing.untilSome at hk
  rw [bind_run, Run.bind_eq_more] at hk
  rcases hk with hk | ⟨⟨o, k'⟩, h1, hk⟩
  · exact h k hk
  · cases o with
    | some a => simp [pure_run] at hk
    | none => exact hx _ _ h1

theorem noteBody_none {P : Prims} {G : Generator} {fuel : ℕ} {a : Address} {v : NoteValue} {rho : Fp} {k k' : ℕ}
    (h : (do pure (Note.fromParts P a v rho (← RandomSeed.draw P G fuel rho)) : Drawing E (Option Note)) k =
      .ok (none, k')) : ∃ s, Note.fromParts P a v rho s = none := by
  have := noteBody_inv (E := E) P G fuel a v rho k
  rw [h] at this
  obtain ⟨m, s, -, -, -, h1⟩ := this
  exact ⟨s, h1.symm⟩

end Orchard
