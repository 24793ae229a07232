import Verif.Lemmas.Bundle
import Verif.Spec.Rng
import Mathlib.Tactic.Ring
import Mathlib.Tactic.Linarith

/-! # Computations with a generator and their labelled versions -/

namespace Orchard

open Drawing

variable {E α β : Type}

/-! ### Running -/

theorem Drawing.bind_run (x : Drawing E α) (f : α → Drawing E β) (k : ℕ) :
    (x >>= f) k = x k >>= fun p => f p.1 p.2 := rfl

theorem Drawing.pure_run (a : α) (k : ℕ) : (pure a : Drawing E α) k = .ok (a, k) := rfl

/-- `x` draws what `y` gets as a label: whatever the calls, `y` has the same result with some label, and `U` says how the
label was drawn. -/
def Sim {D : Type} (x : Drawing E α) (y : D → Run E α) (U : D → α → ℕ → ℕ → Prop) : Prop :=
  ∀ k, match x k with
    | .ok (a, k') => ∃ d, y d = .ok a ∧ U d a k k'
    | .err e => ∃ d, y d = .err e
    | .panic => ∃ d, y d = .panic
    | .more => True

variable {D D' : Type} {x : Drawing E α} {y : D → Run E α} {U : D → α → ℕ → ℕ → Prop}

theorem Sim.ok (h : Sim x y U) {k : ℕ} {a : α} {k' : ℕ} (e : x k = .ok (a, k')) : ∃ d, y d = .ok a ∧ U d a k k' := by
  have := h k
  rw [e] at this
  exact this

/-- Another label for the same values. -/
theorem Sim.relabel (h : Sim x y U) {y' : D' → Run E α} {U' : D' → α → ℕ → ℕ → Prop} (φ : D → D')
    (hy : ∀ d, y' (φ d) = y d) (hU : ∀ d a k k', U d a k k' → U' (φ d) a k k') : Sim x y' U' := by
  intro k
  have := h k
  cases hx : x k with
  | ok p =>
    rw [hx] at this
    obtain ⟨d, h1, h2⟩ := this
    exact ⟨φ d, by rw [hy, h1], hU _ _ _ _ h2⟩
  | err e =>
    rw [hx] at this
    obtain ⟨d, h1⟩ := this
    exact ⟨φ d, by rw [hy, h1]⟩
  | panic =>
    rw [hx] at this
    obtain ⟨d, h1⟩ := this
    exact ⟨φ d, by rw [hy, h1]⟩
  | more => trivial

/-- First `x`, then `f`. -/
theorem Sim.bind [Nonempty D'] (h : Sim x y U) {f : α → Drawing E β} {g : α → D' → Run E β}
    {W : α → D' → β → ℕ → ℕ → Prop} (hf : ∀ a, (∃ d, y d = .ok a) → Sim (f a) (g a) (W a)) :
    Sim (x >>= f) (fun d : D × D' => y d.1 >>= fun a => g a d.2)
      (fun d b k k' => ∃ a m, y d.1 = .ok a ∧ U d.1 a k m ∧ g a d.2 = .ok b ∧ W a d.2 b m k') := by
  intro k
  rw [bind_run]
  have := h k
  cases hx : x k with
  | ok p =>
    obtain ⟨a, m⟩ := p
    rw [hx] at this
    obtain ⟨d, h1, h2⟩ := this
    rw [Run.ok_bind]
    have := hf a ⟨d, h1⟩ m
    simp only
    cases hz : f a m with
    | ok q =>
      rw [hz] at this
      obtain ⟨d', h3, h4⟩ := this
      exact ⟨(d, d'), by simp [h1, h3], a, m, h1, h2, h3, h4⟩
    | err e =>
      rw [hz] at this
      obtain ⟨d', h3⟩ := this
      exact ⟨(d, d'), by simp [h1, h3]⟩
    | panic =>
      rw [hz] at this
      obtain ⟨d', h3⟩ := this
      exact ⟨(d, d'), by simp [h1, h3]⟩
    | more => trivial
  | err e =>
    rw [hx] at this
    obtain ⟨d, h1⟩ := this
    exact ⟨(d, Classical.arbitrary D'), by simp [h1]⟩
  | panic =>
    rw [hx] at this
    obtain ⟨d, h1⟩ := this
    exact ⟨(d, Classical.arbitrary D'), by simp [h1]⟩
  | more => trivial

/-- First something that draws nothing, then `f`. -/
theorem Sim.lift [Nonempty D] (z : Run E α) {f : α → Drawing E β} {g : α → D → Run E β}
    {W : D → β → ℕ → ℕ → Prop} (hf : ∀ a, z = .ok a → Sim (f a) (g a) W) :
    Sim (Drawing.lift z >>= f) (fun d => z >>= fun a => g a d) W := by
  intro k
  rw [bind_run]
  unfold Drawing.lift
  cases z with
  | ok a => exact hf a rfl k
  | err e => exact ⟨Classical.arbitrary D, rfl⟩
  | panic => exact ⟨Classical.arbitrary D, rfl⟩
  | more => trivial

theorem Sim.outcome [Nonempty D] (z : Outcome α) {f : α → Drawing E β} {g : α → D → Run E β}
    {W : D → β → ℕ → ℕ → Prop} (hf : ∀ a, z = .ret a → Sim (f a) (g a) W) :
    Sim (Drawing.outcome z >>= f) (fun d => Run.ofOutcome z >>= fun a => g a d) W := by
  refine Sim.lift _ fun a h => hf a ?_
  cases z with
  | ret b => simp only [Run.ofOutcome, Run.ok.injEq] at h; rw [h]
  | panic => simp [Run.ofOutcome] at h

theorem Sim.pure [Nonempty D] (a : α) : Sim (Pure.pure a : Drawing E α) (fun _ : D => .ok a) fun _ _ k k' => k = k' :=
  fun _ => ⟨Classical.arbitrary D, rfl, rfl⟩

/-- First `x`, then `f`, with nothing said about the values. -/
theorem Sim.seq [Nonempty D'] {U : D → ℕ → ℕ → Prop} (h : Sim x y fun d _ => U d) {f : α → Drawing E β}
    {g : α → D' → Run E β} {W : D' → ℕ → ℕ → Prop} (hf : ∀ a, Sim (f a) (g a) fun d _ => W d) :
    Sim (x >>= f) (fun d : D × D' => y d.1 >>= fun a => g a d.2)
      (fun d _ k k' => ∃ m, U d.1 k m ∧ W d.2 m k') :=
  (h.bind fun a _ => hf a).relabel id (fun _ => rfl) fun _ _ _ _ ⟨_, m, _, h1, _, h2⟩ => ⟨m, h1, h2⟩

theorem Sim.map {U : D → ℕ → ℕ → Prop} (h : Sim x y fun d _ => U d) (f : α → β) :
    Sim (x >>= fun a => Pure.pure (f a)) (fun d => y d >>= fun a => .ok (f a)) fun d _ => U d := by
  intro k
  rw [bind_run]
  have := h k
  cases hx : x k with
  | ok p =>
    rw [hx] at this
    obtain ⟨d, h1, h2⟩ := this
    exact ⟨d, by simp only [h1]; rfl, h2⟩
  | err e =>
    rw [hx] at this
    obtain ⟨d, h1⟩ := this
    exact ⟨d, by simp only [h1]; rfl⟩
  | panic =>
    rw [hx] at this
    obtain ⟨d, h1⟩ := this
    exact ⟨d, by simp only [h1]; rfl⟩
  | more => trivial

theorem Sim.err [Nonempty D] (e : E) (U : D → α → ℕ → ℕ → Prop) :
    Sim (Drawing.lift (.err e) : Drawing E α) (fun _ : D => .err e) U :=
  fun _ => ⟨Classical.arbitrary D, rfl⟩

/-! ### Loops -/

theorem untilSome_inv {body : Drawing E (Option α)} (hm : ∀ k o k', body k = .ok (o, k') → k ≤ k') :
    ∀ (fuel k : ℕ), match untilSome body fuel k with
      | .ok (a, k') => ∃ m, k ≤ m ∧ body m = .ok (some a, k')
      | .err e => ∃ m, body m = .err e
      | .panic => ∃ m, body m = .panic
      | .more => True := by
  intro fuel
  induction fuel with
  | zero => intro k; trivial
  | succ fuel ih =>
    intro k
    have e : untilSome body (fuel + 1) k = body k >>= fun p => (match p.1 with
      | some a => (Pure.pure a : Drawing E α)
      | none => untilSome body fuel) p.2 := rfl
    rw [e]
    cases hb : body k with
    | ok p =>
      obtain ⟨o, m⟩ := p
      rw [Run.ok_bind]
      cases o with
      | some a => exact ⟨k, le_rfl, hb⟩
      | none =>
        have := ih m
        have hkm := hm k none m hb
        simp only
        cases hu : untilSome body fuel m with
        | ok q =>
          rw [hu] at this
          obtain ⟨m', h1, h2⟩ := this
          exact ⟨m', by omega, h2⟩
        | err e => rw [hu] at this; exact this
        | panic => rw [hu] at this; exact this
        | more => trivial
    | err e => exact ⟨k, hb⟩
    | panic => exact ⟨k, hb⟩
    | more => trivial

/-- The relations `R i` one after the other. -/
def Chain {ι : Type} (R : ι → ℕ → ℕ → Prop) : List ι → ℕ → ℕ → Prop
  | [], k, k' => k = k'
  | i :: is, k, k' => ∃ m, R i k m ∧ Chain R is m k'

theorem Chain.mono {ι : Type} {R R' : ι → ℕ → ℕ → Prop} :
    ∀ {is : List ι} {k k' : ℕ}, (∀ i ∈ is, ∀ a b, R i a b → R' i a b) → Chain R is k k' → Chain R' is k k'
  | [], _, _, _, h => h
  | i :: is, _, _, hi, ⟨m, h1, h2⟩ =>
    ⟨m, hi i (by simp) _ _ h1, h2.mono fun j hj => hi j (by simp [hj])⟩

section
variable {ι : Type} {key : ι → ℕ} [Nonempty D]

omit [Nonempty D] in
theorem update_other {is : List ι} {i j : ι} (hn : key i ∉ is.map key) (hj : j ∈ is) (d : ℕ → D) (v : D) :
    Function.update d (key i) v (key j) = d (key j) :=
  Function.update_of_ne (fun h => hn (by rw [← h]; exact List.mem_map_of_mem hj)) _ _

theorem mapM_congr {f g : ι → Run E α} : ∀ {is : List ι}, (∀ i ∈ is, f i = g i) → is.mapM f = is.mapM g
  | [], _ => rfl
  | i :: is, h => by
    rw [List.mapM_cons, List.mapM_cons, h i (by simp), mapM_congr fun j hj => h j (by simp [hj])]

theorem foldlM_congr {f g : β → ι → Run E β} :
    ∀ {is : List ι} {b : β}, (∀ i ∈ is, ∀ b, f b i = g b i) → is.foldlM f b = is.foldlM g b
  | [], _, _ => rfl
  | i :: is, b, h => by
    rw [List.foldlM_cons, List.foldlM_cons, h i (by simp) b]
    congr 1
    funext c
    exact foldlM_congr fun j hj => h j (by simp [hj])

theorem Sim.mapM {f : ι → Drawing E α} {g : ι → D → Run E α} {U : ι → D → ℕ → ℕ → Prop} :
    ∀ {is : List ι}, (is.map key).Nodup → (∀ i ∈ is, Sim (f i) (g i) fun d _ => U i d) →
      Sim (is.mapM f) (fun d : ℕ → D => is.mapM fun i => g i (d (key i)))
        (fun d _ => Chain (fun i => U i (d (key i))) is)
  | [], _, _ => by
    simp only [List.mapM_nil]
    exact Sim.pure _
  | i :: is, hn, h => by
    classical
    rw [List.map_cons, List.nodup_cons] at hn
    have ih := Sim.mapM hn.2 fun j hj => h j (by simp [hj])
    simp only [List.mapM_cons]
    refine ((h i (by simp)).bind (g := fun a (d : ℕ → D) =>
      (is.mapM fun i => g i (d (key i))) >>= fun as => Pure.pure (a :: as))
      (W := fun a d _ => Chain (fun i => U i (d (key i))) is) fun a _ => ?_).relabel
      (fun d => Function.update d.2 (key i) d.1) ?_ ?_
    · refine (ih.bind (D' := Unit) (g := fun as _ => Pure.pure (a :: as)) (W := fun _ _ _ k k' => k = k')
        fun as _ => Sim.pure _).relabel Prod.fst (fun d => rfl) ?_
      rintro d as k k' ⟨_, m, -, h1, -, rfl⟩
      exact h1
    · intro d
      rw [Function.update_self]
      congr 1
      funext a
      rw [mapM_congr fun j hj => by rw [update_other hn.1 hj]]
    · rintro d as k k' ⟨a, m, -, h1, -, h2⟩
      refine ⟨m, by simpa only [Function.update_self] using h1, h2.mono fun j hj a b h => ?_⟩
      rw [update_other hn.1 hj]
      exact h

theorem Sim.foldlM {f : β → ι → Drawing E β} {g : β → ι → D → Run E β} {U : ι → D → ℕ → ℕ → Prop} :
    ∀ {is : List ι} {b : β}, (is.map key).Nodup → (∀ i ∈ is, ∀ b, Sim (f b i) (g b i) fun d _ => U i d) →
      Sim (is.foldlM f b) (fun d : ℕ → D => is.foldlM (fun b i => g b i (d (key i))) b)
        (fun d _ => Chain (fun i => U i (d (key i))) is)
  | [], b, _, _ => by
    simp only [List.foldlM_nil]
    exact Sim.pure _
  | i :: is, b, hn, h => by
    classical
    rw [List.map_cons, List.nodup_cons] at hn
    have ih := fun b => Sim.foldlM (b := b) hn.2 fun j hj => h j (by simp [hj])
    simp only [List.foldlM_cons]
    refine ((h i (by simp) b).bind fun b _ => ih b).relabel (fun d => Function.update d.2 (key i) d.1) ?_ ?_
    · intro d
      rw [Function.update_self]
      congr 1
      funext a
      exact foldlM_congr fun j hj b => by rw [update_other hn.1 hj]
    · rintro d as k k' ⟨a, m, -, h1, -, h2⟩
      refine ⟨m, by simpa only [Function.update_self] using h1, h2.mono fun j hj a b h => ?_⟩
      rw [update_other hn.1 hj]
      exact h

end

/-! ### Single draws -/

section
variable (P : Prims) (G : Generator) (fuel : ℕ)

theorem mapM_fixed {ι : Type} (x : Drawing E α) (c : ℕ) (v : ℕ → α) (hx : ∀ k, x k = .ok (v k, k + c)) :
    ∀ (is : List ι) (k : ℕ), is.mapM (fun _ => x) k =
      .ok ((List.range is.length).map fun j => v (k + c * j), k + c * is.length)
  | [], k => rfl
  | _ :: is, k => by
    rw [List.mapM_cons, bind_run, hx, Run.ok_bind, bind_run, mapM_fixed x c v hx is, Run.ok_bind, pure_run,
      List.length_cons, List.range_succ_eq_map, List.map_cons, List.map_map]
    have e : (fun j => v (k + c + c * j)) = (fun j => v (k + c * j)) ∘ Nat.succ := by
      funext j
      simp only [Function.comp, Nat.succ_eq_add_one]
      congr 1; ring
    simp only [e, mul_zero, add_zero]
    congr 2
    ring

theorem randomU512_run (k : ℕ) : (randomU512 G : Drawing E ℕ) k = .ok (Spec.wide G k, k + 8) := by
  unfold randomU512
  rw [bind_run, mapM_fixed (nextU64 G) 1 (fun k => (G.bytes k 8).toNat) (fun _ => rfl), Run.ok_bind, pure_run]
  congr 2
  unfold Spec.wide
  rw [List.length_range]
  simp only [show List.range 8 = [0, 1, 2, 3, 4, 5, 6, 7] from rfl, List.map_cons, List.map_nil,
    List.foldr_cons, List.foldr_nil, Finset.sum_range_succ, Finset.sum_range_zero]
  generalize (2 : ℕ) ^ 64 = B
  ring

theorem randomBase_run (k : ℕ) : (randomBase G : Drawing E Fp) k = .ok ((Spec.wide G k : Fp), k + 8) := by
  unfold randomBase
  rw [bind_run, randomU512_run, Run.ok_bind, pure_run]

theorem randomScalar_run (k : ℕ) : (randomScalar G : Drawing E Fq) k = .ok ((Spec.wide G k : Fq), k + 8) := by
  unfold randomScalar
  rw [bind_run, randomU512_run, Run.ok_bind, pure_run]

theorem sim_randomScalar : Sim (randomScalar G : Drawing E Fq) (fun d => .ok d)
    fun d _ k k' => d = (Spec.wide G k : Fq) ∧ k' = k + 8 := by
  intro k
  rw [randomScalar_run]
  exact ⟨_, rfl, rfl, rfl⟩

/-- Result of `SpendingKey::random` if the last draw is `b`. -/
noncomputable def keyRun (b : Bytes 32) : Run E SpendingKey :=
  Run.ofOutcome (SpendingKey.fromBytes P b) >>= Run.ofDraws

/-- The label of a key is the number of the call it comes from. -/
theorem sim_spendingKey : Sim (SpendingKey.draw P G fuel : Drawing E SpendingKey)
    (fun p => keyRun P (G.bytes p 32)) fun p _ k k' => k ≤ p ∧ k' = p + 1 := by
  intro k
  have e : ∀ m, (do outcome (SpendingKey.fromBytes P (← fillBytes G 32)) : Drawing E (Option SpendingKey)) m =
      Run.ofOutcome (SpendingKey.fromBytes P (G.bytes m 32)) >>= fun o => .ok (o, m + 1) := fun m => rfl
  have := untilSome_inv (body := (do outcome (SpendingKey.fromBytes P (← fillBytes G 32)) :
    Drawing E (Option SpendingKey))) (fun k o k' h => by
      rw [e, Run.bind_eq_ok] at h
      obtain ⟨_, -, h⟩ := h
      simp only [Run.ok.injEq, Prod.mk.injEq] at h
      omega) fuel k
  unfold SpendingKey.draw
  cases hx : untilSome (do outcome (SpendingKey.fromBytes P (← fillBytes G 32)) :
    Drawing E (Option SpendingKey)) fuel k with
  | ok q =>
    rw [hx] at this
    obtain ⟨m, h1, h2⟩ := this
    rw [e, Run.bind_eq_ok] at h2
    obtain ⟨o, h2, h3⟩ := h2
    simp only [Run.ok.injEq, Prod.mk.injEq] at h3
    obtain ⟨rfl, h3⟩ := h3
    exact ⟨m, by unfold keyRun; dsimp only; rw [h2]; rfl, h1, h3.symm⟩
  | err e' =>
    rw [hx] at this
    obtain ⟨m, h2⟩ := this
    rw [e] at h2
    cases hf : SpendingKey.fromBytes P (G.bytes m 32) <;> rw [hf] at h2 <;> cases h2
  | panic =>
    rw [hx] at this
    obtain ⟨m, h2⟩ := this
    rw [e] at h2
    refine ⟨m, ?_⟩
    unfold keyRun
    dsimp only
    cases hf : SpendingKey.fromBytes P (G.bytes m 32) with
    | ret o => rw [hf] at h2; cases h2
    | panic => rfl
  | more => trivial

/-- Result of `Note::new` if the last draw is `s`. -/
noncomputable def noteRun (recipient : Address) (value : NoteValue) (rho : Fp) (s : Bytes 32) : Run E Note :=
  Run.ofDraws ((RandomSeed.fromBytes P s rho).bind fun r => Note.fromParts P recipient value rho r)

theorem randomSeed_inv (rho : Fp) (k : ℕ) : match (RandomSeed.draw P G fuel rho : Drawing E (Bytes 32)) k with
    | .ok (a, k') => ∃ m, k ≤ m ∧ k' = m + 1 ∧ RandomSeed.fromBytes P (G.bytes m 32) rho = some a
    | .err _ => False
    | .panic => False
    | .more => True := by
  have e : ∀ m, (do pure (RandomSeed.fromBytes P (← fillBytes G 32) rho) : Drawing E (Option (Bytes 32))) m =
      .ok (RandomSeed.fromBytes P (G.bytes m 32) rho, m + 1) := fun m => rfl
  have := untilSome_inv (body := (do pure (RandomSeed.fromBytes P (← fillBytes G 32) rho) :
    Drawing E (Option (Bytes 32)))) (fun k o k' h => by
      rw [e] at h
      simp only [Run.ok.injEq, Prod.mk.injEq] at h
      omega) fuel k
  unfold RandomSeed.draw
  cases hx : untilSome (do pure (RandomSeed.fromBytes P (← fillBytes G 32) rho) :
    Drawing E (Option (Bytes 32))) fuel k with
  | ok q =>
    rw [hx] at this
    obtain ⟨m, h1, h2⟩ := this
    rw [e] at h2
    simp only [Run.ok.injEq, Prod.mk.injEq] at h2
    exact ⟨m, h1, h2.2.symm, h2.1⟩
  | err e' => rw [hx] at this; obtain ⟨m, h2⟩ := this; cases h2
  | panic => rw [hx] at this; obtain ⟨m, h2⟩ := this; cases h2
  | more => trivial

theorem noteBody_inv (recipient : Address) (value : NoteValue) (rho : Fp) (k : ℕ) :
    match (do pure (Note.fromParts P recipient value rho (← RandomSeed.draw P G fuel rho)) :
      Drawing E (Option Note)) k with
    | .ok (o, k') => ∃ m s, k ≤ m ∧ k' = m + 1 ∧ RandomSeed.fromBytes P (G.bytes m 32) rho = some s ∧
        o = Note.fromParts P recipient value rho s
    | .err _ => False
    | .panic => False
    | .more => True := by
  have := randomSeed_inv (E := E) P G fuel rho k
  rw [bind_run]
  cases hx : (RandomSeed.draw P G fuel rho : Drawing E (Bytes 32)) k with
  | ok q =>
    rw [hx] at this
    obtain ⟨m, h1, h2, h3⟩ := this
    exact ⟨m, q.1, h1, h2, h3, rfl⟩
  | err e' => rw [hx] at this; exact this
  | panic => rw [hx] at this; exact this
  | more => trivial

theorem sim_note (recipient : Address) (value : NoteValue) (rho : Fp) :
    Sim (Note.draw P G fuel recipient value rho : Drawing E Note) (noteRun P recipient value rho)
      fun s _ k k' => ∃ p, k ≤ p ∧ k' = p + 1 ∧ s = G.bytes p 32 := by
  intro k
  have := untilSome_inv (body := (do pure (Note.fromParts P recipient value rho (← RandomSeed.draw P G fuel rho)) :
    Drawing E (Option Note))) (fun k o k' h => by
      have := noteBody_inv (E := E) P G fuel recipient value rho k
      rw [h] at this
      obtain ⟨m, s, h1, h2, -⟩ := this
      omega) fuel k
  unfold Note.draw
  cases hx : untilSome (do pure (Note.fromParts P recipient value rho (← RandomSeed.draw P G fuel rho)) :
    Drawing E (Option Note)) fuel k with
  | ok q =>
    rw [hx] at this
    obtain ⟨m, h1, h2⟩ := this
    have := noteBody_inv (E := E) P G fuel recipient value rho m
    rw [h2] at this
    obtain ⟨m', s, h3, h4, h5, h6⟩ := this
    exact ⟨G.bytes m' 32, by unfold noteRun; rw [h5, Option.bind_some, ← h6]; rfl, m', by omega, h4, rfl⟩
  | err e' =>
    rw [hx] at this; obtain ⟨m, h2⟩ := this
    have := noteBody_inv (E := E) P G fuel recipient value rho m
    rw [h2] at this; exact this.elim
  | panic =>
    rw [hx] at this; obtain ⟨m, h2⟩ := this
    have := noteBody_inv (E := E) P G fuel recipient value rho m
    rw [h2] at this; exact this.elim
  | more => trivial

theorem pointOfX_some {x : Fp} {s : ℕ} (hs : s < 2) {A : Point} (h : pointOfX x s = some A) :
    ∃ y h, A = Point.ofXY x y h ∧ y.val % 2 = s := by
  unfold pointOfX at h
  rw [Option.bind_eq_some_iff] at h
  obtain ⟨y, hr, h⟩ := h
  have hy0 := y_ne_zero_of_onCurve (Point.fpSqrt_sound hr)
  have hs' : Point.sgn (if Point.sgn y = s then y else -y) = s := by
    split
    · assumption
    · rename_i hne
      rw [Point.sgn_neg hy0]
      have := Point.sgn_lt y
      omega
  generalize (if Point.sgn y = s then y else -y) = y' at h hs'
  by_cases hc : y' ^ 2 = x ^ 3 + 5
  · rw [dif_pos hc, Option.some.injEq] at h
    exact ⟨y', hc, h.symm, hs'⟩
  · rw [dif_neg hc] at h
    cases h

theorem sim_randomPoint : Sim (randomPoint G fuel : Drawing E Point) (fun d => .ok d)
    fun d _ k k' => ∃ p, k ≤ p ∧ k' = p + 9 ∧ ∃ y h, d = Point.ofXY (Spec.wide G p : Fp) y h ∧
      y.val % 2 = (G.bytes (p + 8) 4).toNat % 2 := by
  intro k
  have e : ∀ m, (do
      let x ← randomBase G
      let s ← nextU32 G
      pure (pointOfX x (s.toNat % 2)) : Drawing E (Option Point)) m =
      .ok (pointOfX (Spec.wide G m : Fp) ((UInt32.ofNat (G.bytes (m + 8) 4).toNat).toNat % 2), m + 9) := by
    intro m
    rw [bind_run, randomBase_run]
    rfl
  have := untilSome_inv (body := (do
      let x ← randomBase G
      let s ← nextU32 G
      pure (pointOfX x (s.toNat % 2)) : Drawing E (Option Point))) (fun k o k' h => by
      rw [e] at h
      simp only [Run.ok.injEq, Prod.mk.injEq] at h
      omega) fuel k
  unfold randomPoint
  cases hx : untilSome (do
      let x ← randomBase G
      let s ← nextU32 G
      pure (pointOfX x (s.toNat % 2)) : Drawing E (Option Point)) fuel k with
  | ok q =>
    rw [hx] at this
    obtain ⟨m, h1, h2⟩ := this
    rw [e] at h2
    simp only [Run.ok.injEq, Prod.mk.injEq] at h2
    obtain ⟨y, h, h3, h4⟩ := pointOfX_some (by omega) h2.1
    refine ⟨q.1, rfl, m, h1, h2.2.symm, y, h, h3, ?_⟩
    rw [h4, UInt32.toNat_ofNat']
    omega
  | err e' => rw [hx] at this; obtain ⟨m, h2⟩ := this; rw [e] at h2; cases h2
  | panic => rw [hx] at this; obtain ⟨m, h2⟩ := this; rw [e] at h2; cases h2
  | more => trivial

theorem sim_path : Sim (MerklePath.draw G : Drawing E MerklePath) (fun d => .ok d)
    fun d _ k k' => k' = k + 257 ∧ d.position.toNat = (G.bytes k 4).toNat ∧
      d.authPath = (List.range 32).map fun l => (Spec.wide G (k + 1 + 8 * l) : Fp) := by
  intro k
  unfold MerklePath.draw
  rw [bind_run, show (nextU32 G : Drawing E UInt32) k = .ok (UInt32.ofNat (G.bytes k 4).toNat, k + 1) from rfl,
    Run.ok_bind, bind_run, mapM_fixed (randomBase G) 8 _ (randomBase_run G), Run.ok_bind]
  simp only [List.length_range]
  rw [dif_pos (by simp), pure_run]
  refine ⟨_, rfl, ?_, ?_, ?_⟩
  · simp only [Constants.MERKLE_DEPTH]
  · have := (G.bytes k 4).toNat_lt
    rw [UInt32.toNat_ofNat', Nat.mod_eq_of_lt (by norm_num at this ⊢; exact this)]
  · simp only [Constants.MERKLE_DEPTH]

end

end Orchard
