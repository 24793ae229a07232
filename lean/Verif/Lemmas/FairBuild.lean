import Verif.Lemmas.Fair
import Verif.Lemmas.RngFuel

/-! # Builds with two generators that differ in the calls for blinding values -/

namespace Orchard

open Drawing RedPallas

variable {E α β : Type}

/-! ### Computations with the same answers -/

/-- The generators give the same answers to the calls from `k` to `k'`. -/
def Agree (G G' : Generator) (k k' : ℕ) : Prop := ∀ p s, k ≤ p → p < k' → G'.bytes p s = G.bytes p s

/-- If `x` ends well and the generators agree on its calls, then `y` does the same. -/
def Local (G G' : Generator) (x y : Drawing E α) : Prop :=
  ∀ k a k', x k = .ok (a, k') → k ≤ k' ∧ (Agree G G' k k' → y k = .ok (a, k'))

variable {G G' : Generator}

theorem Agree.mono {k k' m m' : ℕ} (h : Agree G G' k k') (h1 : k ≤ m) (h2 : m' ≤ k') : Agree G G' m m' :=
  fun p s a b => h p s (by omega) (by omega)

theorem Local.pure (a : α) : Local G G' (Pure.pure a : Drawing E α) (Pure.pure a) := by
  intro k b k' h
  rw [pure_run, Run.ok.injEq, Prod.mk.injEq] at h
  exact ⟨h.2.le, fun _ => by rw [pure_run, h.1, h.2]⟩

theorem Local.lift (x : Run E α) : Local G G' (Drawing.lift x) (Drawing.lift x) := by
  intro k b k' h
  refine ⟨?_, fun _ => h⟩
  unfold Drawing.lift at h
  rw [Run.bind_eq_ok] at h
  obtain ⟨a, -, h⟩ := h
  have : (Run.ok (a, k) : Run E _) = .ok (b, k') := h
  rw [Run.ok.injEq, Prod.mk.injEq] at this
  exact this.2.le

theorem Local.bind {x y : Drawing E α} {f g : α → Drawing E β} (h : Local G G' x y)
    (hf : ∀ a, Local G G' (f a) (g a)) : Local G G' (x >>= f) (y >>= g) := by
  intro k b k' hk
  rw [bind_run, Run.bind_eq_ok] at hk
  obtain ⟨⟨a, m⟩, h1, h2⟩ := hk
  obtain ⟨l1, e1⟩ := h k a m h1
  obtain ⟨l2, e2⟩ := hf a m b k' h2
  refine ⟨by omega, fun hg => ?_⟩
  rw [bind_run, e1 (hg.mono le_rfl l2), Run.ok_bind]
  exact e2 (hg.mono l1 le_rfl)

theorem Local.untilSome {x y : Drawing E (Option α)} (h : Local G G' x y) :
    ∀ m : ℕ, Local G G' (Drawing.untilSome x m) (Drawing.untilSome y m)
  | 0 => fun _ _ _ hk => by cases hk
  | m + 1 => by
    refine h.bind fun o => ?_
    cases o with
    | some a => exact Local.pure _
    | none => exact Local.untilSome h m

theorem Local.mapM {ι : Type} {f g : ι → Drawing E β} (h : ∀ i, Local G G' (f i) (g i)) :
    ∀ l : List ι, Local G G' (l.mapM f) (l.mapM g)
  | [] => Local.pure _
  | i :: l => by
    rw [List.mapM_cons, List.mapM_cons]
    exact (h i).bind fun _ => (Local.mapM h l).bind fun _ => Local.pure _

theorem Local.foldlM {ι : Type} {f g : β → ι → Drawing E β} (h : ∀ b i, Local G G' (f b i) (g b i)) :
    ∀ (l : List ι) (b : β), Local G G' (l.foldlM f b) (l.foldlM g b)
  | [], _ => Local.pure _
  | i :: l, b => by
    rw [List.foldlM_cons, List.foldlM_cons]
    exact (h b i).bind fun _ => Local.foldlM h l _

theorem local_fill (n : ℕ) : Local G G' (fillBytes G n : Drawing E _) (fillBytes G' n) := by
  intro k a k' h
  unfold fillBytes at h ⊢
  rw [Run.ok.injEq, Prod.mk.injEq] at h
  refine ⟨by omega, fun hg => ?_⟩
  rw [hg k n le_rfl (by omega), h.1, h.2]

theorem local_u32 : Local G G' (nextU32 G : Drawing E _) (nextU32 G') := (local_fill 4).bind fun _ => Local.pure _

theorem local_u64 : Local G G' (nextU64 G : Drawing E _) (nextU64 G') := (local_fill 8).bind fun _ => Local.pure _

theorem local_base : Local G G' (randomBase G : Drawing E _) (randomBase G') :=
  ((Local.mapM (fun _ => local_u64) _).bind fun _ => Local.pure _).bind fun _ => Local.pure _

section
variable (P : Prims) (fuel : ℕ)

theorem local_key : Local G G' (SpendingKey.draw P G fuel : Drawing E _) (SpendingKey.draw P G' fuel) :=
  Local.untilSome ((local_fill 32).bind fun _ => Local.lift _) fuel

theorem local_note (a : Address) (v : NoteValue) (rho : Fp) :
    Local G G' (Note.draw P G fuel a v rho : Drawing E _) (Note.draw P G' fuel a v rho) :=
  Local.untilSome (((Local.untilSome ((local_fill 32).bind fun _ => Local.pure _) fuel)).bind fun _ => Local.pure _) fuel

theorem local_point : Local G G' (randomPoint G fuel : Drawing E _) (randomPoint G' fuel) :=
  Local.untilSome (local_base.bind fun _ => local_u32.bind fun _ => Local.pure _) fuel

theorem local_path : Local G G' (MerklePath.draw G : Drawing E _) (MerklePath.draw G') := by
  refine local_u32.bind fun _ => (Local.mapM (fun _ => local_base) _).bind fun l => ?_
  by_cases h : l.length = Constants.MERKLE_DEPTH
  · simp only [dif_pos h]; exact Local.pure _
  · simp only [dif_neg h]; exact Local.lift _

theorem local_spendDummy : Local G G' (SpendInfo.drawDummy P G fuel : Drawing E _) (SpendInfo.drawDummy P G' fuel) :=
  Local.bind ((local_key P fuel).bind fun _ => (Local.lift _).bind fun _ => (Local.lift _).bind fun _ =>
    ((local_point fuel).bind fun _ => Local.pure _).bind fun _ => (local_note P fuel _ _ _).bind fun _ => Local.pure _)
    fun _ => local_path.bind fun _ => Local.pure _

theorem local_outputDummy : Local G G' (OutputInfo.drawDummy P G fuel : Drawing E _) (OutputInfo.drawDummy P G' fuel) :=
  (local_key P fuel).bind fun _ => (Local.lift _).bind fun _ => (Local.lift _).bind fun _ => Local.pure _

theorem local_index (n : ℕ) : Local G G' (genIndex G fuel n : Drawing E _) (genIndex G' fuel n) := by
  unfold genIndex
  split
  · exact Local.untilSome (local_u32.bind fun _ => Local.pure _) fuel
  · exact Local.untilSome (local_u64.bind fun _ => Local.pure _) fuel

theorem local_shuffle (l : List α) : Local G G' (shuffleWith G fuel l : Drawing E _) (shuffleWith G' fuel l) :=
  Local.bind (Local.foldlM (fun _ _ => (local_index fuel _).bind fun _ => Local.pure _) _ _) fun _ => Local.pure _

theorem local_padded {x y : Drawing E α} (h : Local G G' x y) (l : List α) (n : ℕ) :
    Local G G' (drawPadded x l n) (drawPadded y l n) :=
  (Local.mapM (fun _ => h) _).bind fun _ => Local.pure _

theorem local_ovk (o : Option (Bytes 32)) : Local G G' (ovkRandom G o : Drawing E _) (ovkRandom G' o) := by
  unfold ovkRandom
  cases o with
  | some _ => exact Local.pure _
  | none => exact (local_fill 32).bind fun _ => (local_fill 64).bind fun _ => Local.pure _

end

/-! ### The trapdoors -/

theorem outcome_bind_run (x : Outcome α) (f : α → Drawing E β) (k : ℕ) :
    ((outcome x : Drawing E α) >>= f) k = Run.ofOutcome x >>= fun a => f a k := by
  cases x <;> rfl

theorem lift_bind_run (x : Run E α) (f : α → Drawing E β) (k : ℕ) : (Drawing.lift x >>= f) k = x >>= fun a => f a k := by
  cases x <;> rfl

/-- The actions with trapdoors from the calls of a generator. -/
def retrap (G : Generator) : ℕ → List ActionInfo → List ActionInfo
  | _, [] => []
  | k, a :: l => { a with rcv := ⟨(Spec.wide G k : Fq)⟩ } :: retrap G (k + 8) l

theorem retrap_get (G : Generator) : ∀ (l : List ActionInfo) (k i : ℕ),
    (retrap G k l)[i]? = l[i]?.map fun a => { a with rcv := ⟨(Spec.wide G (k + 8 * i) : Fq)⟩ }
  | [], _, _ => by simp [retrap]
  | a :: l, k, 0 => by simp [retrap]
  | a :: l, k, i + 1 => by
    rw [retrap, List.getElem?_cons_succ, List.getElem?_cons_succ, retrap_get G l, show k + 8 + 8 * i = k + 8 * (i + 1) by ring]

theorem length_retrap (G : Generator) : ∀ (l : List ActionInfo) (k : ℕ), (retrap G k l).length = l.length
  | [], _ => rfl
  | a :: l, k => by rw [retrap, List.length_cons, List.length_cons, length_retrap G l]

theorem planBalance_retrap {V : Type} (tryFrom : I64 → Option V) (G : Generator) (l : List ActionInfo) (k : ℕ) :
    planBalance tryFrom (retrap G k l) = planBalance tryFrom l := by
  have : ∀ (l : List ActionInfo) (k : ℕ), (retrap G k l).mapM ActionInfo.valueSum = l.mapM ActionInfo.valueSum := by
    intro l
    induction l with
    | nil => intro k; rfl
    | cons a l ih =>
      intro k
      rw [retrap, List.mapM_cons, List.mapM_cons, ih]
      simp only [ActionInfo.valueSum]
  unfold planBalance
  rw [this]

/-- The part of `recordAction` without the action. -/
def recordIndices (S O : ℕ) (mt : BundleMetadata) (x : ((SpendInfo × ℕ) × (OutputInfo × ℕ)) × ℕ) : Outcome BundleMetadata :=
  (if x.1.1.2 < S then vecSet mt.spendIndices x.1.1.2 x.2 else .ret mt.spendIndices) >>= fun s =>
  (if x.1.2.2 < O then vecSet mt.outputIndices x.1.2.2 x.2 else .ret mt.outputIndices) >>= fun o => .ret ⟨s, o⟩

theorem recordAction_eq (S O : ℕ) (rcv : ℕ → Fq) (acc : BundleMetadata × List ActionInfo)
    (x : ((SpendInfo × ℕ) × (OutputInfo × ℕ)) × ℕ) : recordAction S O rcv acc x =
      recordIndices S O acc.1 x >>= fun mt => .ret (mt, acc.2 ++ [⟨x.1.1.1, x.1.2.1, ⟨rcv x.2⟩⟩]) := by
  unfold recordAction recordIndices
  by_cases c1 : x.1.1.2 < S <;> by_cases c2 : x.1.2.2 < O <;> simp only [c1, c2, if_true, if_false] <;>
    simp only [bind_assoc, Outcome.ret_bind, Outcome.pure_eq]

theorem recordAction_retrap {S O : ℕ} {rcv : ℕ → Fq} {acc r : BundleMetadata × List ActionInfo}
    {x : ((SpendInfo × ℕ) × (OutputInfo × ℕ)) × ℕ} (h : recordAction S O rcv acc x = .ret r) :
    r.2 = acc.2 ++ [⟨x.1.1.1, x.1.2.1, ⟨rcv x.2⟩⟩] ∧
    ∀ (rcv' : ℕ → Fq) (acc' : BundleMetadata × List ActionInfo), acc'.1 = acc.1 →
      recordAction S O rcv' acc' x = .ret (r.1, acc'.2 ++ [⟨x.1.1.1, x.1.2.1, ⟨rcv' x.2⟩⟩]) := by
  rw [recordAction_eq, Outcome.bind_eq_ret] at h
  obtain ⟨mt, h1, h2⟩ := h
  rw [Outcome.ret.injEq] at h2
  subst h2
  refine ⟨rfl, fun rcv' acc' e => ?_⟩
  rw [recordAction_eq, e, h1, Outcome.ret_bind]

theorem drawActions_retrap {S O : ℕ} : ∀ (l : List (((SpendInfo × ℕ) × (OutputInfo × ℕ)) × ℕ))
    (acc r : BundleMetadata × List ActionInfo) (k k' : ℕ),
    (l.foldlM (init := acc) fun acc x => do
      let rcv ← randomScalar G
      outcome (recordAction S O (fun _ => rcv) acc x) : Drawing E _) k = .ok (r, k') →
    ∃ new, r.2 = acc.2 ++ new ∧ k' = k + 8 * new.length ∧ ∀ (G' : Generator) (acc' : BundleMetadata × List ActionInfo),
      acc'.1 = acc.1 → (l.foldlM (init := acc') fun acc x => do
        let rcv ← randomScalar G'
        outcome (recordAction S O (fun _ => rcv) acc x) : Drawing E _) k = .ok ((r.1, acc'.2 ++ retrap G' k new), k') := by
  intro l
  induction l with
  | nil =>
    intro acc r k k' h
    rw [List.foldlM_nil, pure_run, Run.ok.injEq, Prod.mk.injEq] at h
    obtain ⟨rfl, rfl⟩ := h
    exact ⟨[], by simp, by simp, fun G' acc' e => by rw [List.foldlM_nil, pure_run, retrap, List.append_nil, ← e]⟩
  | cons x l ih =>
    intro acc r k k' h
    have step : ∀ (G : Generator) (acc : BundleMetadata × List ActionInfo) k, (do
        let rcv ← randomScalar G
        outcome (recordAction S O (fun _ => rcv) acc x) : Drawing E _) k =
        Run.ofOutcome (recordAction S O (fun _ => (Spec.wide G k : Fq)) acc x) >>= fun a => .ok (a, k + 8) := by
      intro G acc k
      rw [bind_run, randomScalar_run]
      rfl
    rw [List.foldlM_cons, bind_run, step, Run.bind_eq_ok] at h
    obtain ⟨⟨a, m⟩, h1, h2⟩ := h
    rw [Run.bind_eq_ok] at h1
    obtain ⟨a', h1, h3⟩ := h1
    rw [Run.ok.injEq, Prod.mk.injEq] at h3
    obtain ⟨rfl, rfl⟩ := h3
    rw [Run.ofOutcome_eq_ok] at h1
    obtain ⟨e1, e2⟩ := recordAction_retrap h1
    obtain ⟨new, g1, g2, g3⟩ := ih _ _ _ _ h2
    refine ⟨⟨x.1.1.1, x.1.2.1, ⟨(Spec.wide G k : Fq)⟩⟩ :: new, by rw [g1, e1, List.append_assoc]; rfl,
      by rw [g2, List.length_cons]; ring, fun G' acc' e => ?_⟩
    rw [List.foldlM_cons, bind_run, step, e2 (fun _ => (Spec.wide G' k : Fq)) acc' e]
    simp only [Run.ofOutcome_ret, Run.ok_bind]
    simp only at g3
    refine (g3 G' (a'.1, acc'.2 ++ [⟨x.1.1.1, x.1.2.1, ⟨(Spec.wide G' k : Fq)⟩⟩]) rfl).trans ?_
    simp only [retrap, List.append_assoc, List.singleton_append]

/-! ### The actions -/

/-- What the action `b'` built from `a'` with the randomizer from call `p` has to do with the action `b`. -/
def Reblinded (G' : Generator) (b b' : Action SigningMetadata) (a : ActionInfo) (p : ℕ) : Prop :=
  b'.nf = b.nf ∧ (∃ v, NoteValue.sub a.spend.note.value a.output.value = some v ∧
    ValueCommitment.derive v a.rcv = some b'.cvNet) ∧
  b'.rk = VerificationKey.randomize a.spend.fvk.ak (Spec.wide G' p : Fq)

theorem action_reblind {P : Prims} {fuel : ℕ} {a : ActionInfo} {r : Action SigningMetadata × Circuit} {k k' : ℕ}
    (h : (a.draw P G fuel : Drawing E _) k = .ok (r, k')) : k + 8 ≤ k' ∧ ∀ (G' : Generator) (a' : ActionInfo),
      a'.spend = a.spend → a'.output = a.output → Agree G G' (k + 8) k' →
      (a'.draw P G' fuel : Drawing E _) k = .panic ∨ ∃ r', (a'.draw P G' fuel : Drawing E _) k = .ok (r', k') ∧
        Reblinded G' r.1 r'.1 a' k := by
  unfold ActionInfo.draw at h
  simp only [outcome_bind_run, Run.bind_eq_ok, Run.ofOutcome_eq_ok] at h
  obtain ⟨v, h1, cv, h2, nf, h3, h⟩ := h
  rw [bind_run, randomScalar_run, Run.ok_bind] at h
  simp only at h
  rw [bind_run, Run.bind_eq_ok] at h
  obtain ⟨⟨note, m⟩, h4, h⟩ := h
  simp only [outcome_bind_run, Run.bind_eq_ok, Run.ofOutcome_eq_ok] at h
  obtain ⟨cmx, h5, h⟩ := h
  rw [bind_run, Run.bind_eq_ok] at h
  obtain ⟨⟨rnd, m'⟩, h6, h⟩ := h
  simp only [outcome_bind_run, Run.bind_eq_ok, Run.ofOutcome_eq_ok] at h
  obtain ⟨enc, h7, ask, h8, c, h9, h⟩ := h
  rw [pure_run, Run.ok.injEq, Prod.mk.injEq] at h
  obtain ⟨rfl, rfl⟩ := h
  obtain ⟨l1, -⟩ := local_note (G' := G) P fuel _ _ _ _ _ _ h4
  obtain ⟨l2, -⟩ := local_ovk (G' := G) _ _ _ _ h6
  refine ⟨by omega, fun G' a' e1 e2 hg => ?_⟩
  have g4 := (local_note (E := E) P fuel _ _ _ _ _ _ h4).2 (hg.mono le_rfl l2)
  have g6 := (local_ovk (E := E) _ _ _ _ h6).2 (hg.mono l1 le_rfl)
  have g1 : a'.valueSum = .ret v := by rw [← h1]; unfold ActionInfo.valueSum; rw [e1, e2]
  have hv : NoteValue.sub a'.spend.note.value a'.output.value = some v := by
    unfold ActionInfo.valueSum at g1
    cases hx : NoteValue.sub a'.spend.note.value a'.output.value with
    | none => rw [hx] at g1; cases g1
    | some w => rw [hx] at g1; simpa using g1
  unfold ActionInfo.draw
  rw [outcome_bind_run, g1, Run.ofOutcome_ret, Run.ok_bind, outcome_bind_run]
  cases hx : ValueCommitment.derive v a'.rcv with
  | none => rw [Option.unwrapO_none, Run.ofOutcome_panic, Run.panic_bind]; exact Or.inl rfl
  | some cv' =>
    rw [Option.unwrapO_some, Run.ofOutcome_ret, Run.ok_bind, e1, e2, outcome_bind_run, h3, Run.ofOutcome_ret, Run.ok_bind,
      bind_run, randomScalar_run, Run.ok_bind]
    simp only
    rw [bind_run, g4, Run.ok_bind, outcome_bind_run, h5, Run.ofOutcome_ret, Run.ok_bind, bind_run, g6, Run.ok_bind,
      outcome_bind_run]
    cases encryptNote P a.output.ovk note a.output.memo cv' cmx rnd.1 rnd.2 with
    | panic => rw [Run.ofOutcome_panic, Run.panic_bind]; exact Or.inl rfl
    | ret enc' =>
      rw [Run.ofOutcome_ret, Run.ok_bind, outcome_bind_run, h8, Run.ofOutcome_ret, Run.ok_bind, outcome_bind_run]
      cases Circuit.fromActionContextUnchecked P a.spend note (Spec.wide G' k : Fq) a'.rcv with
      | panic => rw [Run.ofOutcome_panic, Run.panic_bind]; exact Or.inl rfl
      | ret c' =>
        rw [Run.ofOutcome_ret, Run.ok_bind, pure_run]
        refine Or.inr ⟨_, rfl, ?_, ⟨v, hv, hx⟩, ?_⟩
        · simp only [Action.fromParts]
        · simp only [Action.fromParts, e1]

/-- The call is one of the eight starting with one of `ps`. -/
def InBlocks (ps : List ℕ) (p : ℕ) : Prop := ∃ q ∈ ps, q ≤ p ∧ p < q + 8

theorem actions_reblind {P : Prims} {fuel : ℕ} : ∀ (pre : List ActionInfo) (built : List (Action SigningMetadata × Circuit))
    (k k' : ℕ), (pre.mapM fun a => a.draw P G fuel : Drawing E _) k = .ok (built, k') →
    ∃ ps : List ℕ, ps.length = pre.length ∧ built.length = pre.length ∧ k ≤ k' ∧ (∀ q ∈ ps, k ≤ q ∧ q + 8 ≤ k') ∧
      (ps.Pairwise fun x y => x + 8 ≤ y) ∧
      ∀ (G' : Generator) (pre' : List ActionInfo), pre'.map ActionInfo.spend = pre.map ActionInfo.spend →
        pre'.map ActionInfo.output = pre.map ActionInfo.output →
        (∀ p s, k ≤ p → p < k' → ¬ (s = 8 ∧ InBlocks ps p) → G'.bytes p s = G.bytes p s) →
        (pre'.mapM fun a => a.draw P G' fuel : Drawing E _) k = .panic ∨ ∃ built',
          (pre'.mapM fun a => a.draw P G' fuel : Drawing E _) k = .ok (built', k') ∧ built'.length = pre.length ∧
          ∀ (i : ℕ) b b' a p, built[i]? = some b → built'[i]? = some b' → pre'[i]? = some a → ps[i]? = some p →
            Reblinded G' b.1 b'.1 a p := by
  intro pre
  induction pre with
  | nil =>
    intro built k k' h
    rw [List.mapM_nil, pure_run, Run.ok.injEq, Prod.mk.injEq] at h
    obtain ⟨rfl, rfl⟩ := h
    refine ⟨[], rfl, rfl, le_rfl, by simp, List.Pairwise.nil, fun G' pre' e1 e2 _ => Or.inr ⟨[], ?_, rfl, by simp⟩⟩
    have : pre' = [] := by simpa using e1
    rw [this]
    rfl
  | cons a pre ih =>
    intro built k k' h
    rw [List.mapM_cons, bind_run, Run.bind_eq_ok] at h
    obtain ⟨⟨r, m⟩, h1, h⟩ := h
    rw [bind_run, Run.bind_eq_ok] at h
    obtain ⟨⟨rs, m'⟩, h2, h⟩ := h
    rw [pure_run, Run.ok.injEq, Prod.mk.injEq] at h
    obtain ⟨rfl, rfl⟩ := h
    obtain ⟨l1, e1⟩ := action_reblind h1
    obtain ⟨ps, n1, n2, l2, q1, q2, e2⟩ := ih _ _ _ h2
    simp only at *
    refine ⟨k :: ps, by rw [List.length_cons, n1, List.length_cons], by rw [List.length_cons, n2, List.length_cons], by omega, ?_, ?_, ?_⟩
    · intro q hq
      rcases List.mem_cons.1 hq with rfl | hq
      · omega
      · have := q1 q hq; omega
    · rw [List.pairwise_cons]
      exact ⟨fun q hq => by have := q1 q hq; omega, q2⟩
    · intro G' pre' s1 s2 hg
      cases pre' with
      | nil => simp at s1
      | cons a' pre' =>
        rw [List.map_cons, List.map_cons, List.cons.injEq] at s1 s2
        have a1 : Agree G G' (k + 8) m := fun p s b1 b2 => hg p s (by omega) (by omega) (by
          rintro ⟨-, q, hq, c1, c2⟩
          rcases List.mem_cons.1 hq with rfl | hq
          · omega
          · have := q1 q hq; omega)
        rw [List.mapM_cons, bind_run]
        rcases e1 G' a' s1.1 s2.1 a1 with hp | ⟨r', g1, g2⟩
        · rw [hp]
          exact Or.inl rfl
        rw [g1, Run.ok_bind, bind_run]
        rcases e2 G' pre' s1.2 s2.2 (fun p s b1 b2 hb => hg p s (by omega) (by omega) (by
          rintro ⟨hs, q, hq, c1, c2⟩
          rcases List.mem_cons.1 hq with rfl | hq
          · omega
          · exact hb ⟨hs, q, hq, c1, c2⟩)) with hp | ⟨rs', g3, g4, g5⟩
        · rw [hp]
          exact Or.inl rfl
        rw [g3]
        refine Or.inr ⟨r' :: rs', rfl, by rw [List.length_cons, g4, List.length_cons], ?_⟩
        intro i b b' x p b1 b2 b3 b4
        cases i with
        | zero =>
          simp only [List.getElem?_cons_zero, Option.some.injEq] at b1 b2 b3 b4
          subst b1 b2 b3 b4
          exact g2
        | succ i =>
          simp only [List.getElem?_cons_succ] at b1 b2 b3 b4
          exact g5 i b b' x p b1 b2 b3 b4

/-! ### The bundle -/

section
variable {V : Type} {P : Prims} {tryFrom : I64 → Option V} {fuel : ℕ} {anchor : Fp} {ty : BundleType}
  {spends : List SpendInfo} {outputs : List OutputInfo} {b : UnauthorizedBundle V} {m : BundleMetadata}

theorem map_retrap {γ : Type} (f : ActionInfo → γ) (hf : ∀ a r, f { a with rcv := r } = f a) (G : Generator) :
    ∀ (l : List ActionInfo) (k : ℕ), (retrap G k l).map f = l.map f
  | [], _ => rfl
  | a :: l, k => by rw [retrap, List.map_cons, List.map_cons, map_retrap f hf G l, hf]

theorem finish_reblind {flags : Flags} {x : BundleMetadata × List ActionInfo} {k k' : ℕ}
    (h : finishWith P tryFrom G fuel anchor flags x k = .ok (some (b, m), k')) :
    ∃ ps : List ℕ, ps.length = b.actions.length ∧ x.2.length = b.actions.length ∧ k ≤ k' ∧ (∀ q ∈ ps, k ≤ q ∧ q + 8 ≤ k') ∧
      (ps.Pairwise fun x y => x + 8 ≤ y) ∧
      ∀ (G' : Generator) (K : ℕ),
        (∀ p s, k ≤ p → p < k' → ¬ (s = 8 ∧ InBlocks ps p) → G'.bytes p s = G.bytes p s) →
        finishWith P tryFrom G' fuel anchor flags (x.1, retrap G' K x.2) k = .panic ∨ ∃ b' m',
          finishWith P tryFrom G' fuel anchor flags (x.1, retrap G' K x.2) k = .ok (some (b', m'), k') ∧
          b'.actions.length = b.actions.length ∧
          ∀ (i : ℕ) c c' a p, b.actions[i]? = some c → b'.actions[i]? = some c' → (retrap G' K x.2)[i]? = some a →
            ps[i]? = some p → Reblinded G' c c' a p := by
  unfold finishWith at h
  simp only [lift_bind_run] at h
  rw [Run.bind_eq_ok] at h
  obtain ⟨vb, h1, h⟩ := h
  rw [bind_run, Run.bind_eq_ok] at h
  obtain ⟨⟨built, k2⟩, h2, h⟩ := h
  simp only [outcome_bind_run, Run.bind_eq_ok, Run.ofOutcome_eq_ok] at h
  obtain ⟨c, h3, u, h4, h⟩ := h
  have hne : built.map Prod.fst ≠ [] := by
    intro hb
    rw [dif_neg (by simpa using hb), pure_run, Run.ok.injEq, Prod.mk.injEq] at h
    exact absurd h.1 (by simp)
  rw [dif_pos hne, pure_run, Run.ok.injEq, Prod.mk.injEq, Option.some.injEq, Prod.mk.injEq] at h
  obtain ⟨⟨rfl, rfl⟩, rfl⟩ := h
  obtain ⟨ps, n1, n2, l, q1, q2, e⟩ := actions_reblind _ _ _ _ h2
  refine ⟨ps, by simp only [List.length_map]; omega, by simp only [List.length_map]; omega, l, q1, q2, fun G' K hg => ?_⟩
  unfold finishWith
  simp only [lift_bind_run]
  rw [planBalance_retrap, h1, Run.ok_bind, bind_run]
  rcases e G' (retrap G' K x.2) (map_retrap _ (fun _ _ => rfl) _ _ _) (map_retrap _ (fun _ _ => rfl) _ _ _) hg with
    hp | ⟨built', g1, g2, g3⟩
  · rw [hp]
    exact Or.inl rfl
  rw [g1, Run.ok_bind]
  simp only [outcome_bind_run]
  rw [h3, Run.ofOutcome_ret, Run.ok_bind]
  unfold assertO
  have hne' : built'.map Prod.fst ≠ [] := by
    intro hb
    rw [List.map_eq_nil_iff] at hb
    apply hne
    rw [List.map_eq_nil_iff, ← List.length_eq_zero_iff]
    rw [hb, List.length_nil] at g2
    omega
  split
  · simp only [Run.ofOutcome_ret, Run.ok_bind, pure_run]
    refine Or.inr ⟨_, _, rfl, by simp only [List.length_map]; omega, ?_⟩
    intro i c c' a p b1 b2 b3 b4
    simp only [List.getElem?_map, Option.map_eq_some_iff] at b1 b2
    obtain ⟨r, b1, rfl⟩ := b1
    obtain ⟨r', b2, rfl⟩ := b2
    exact g3 i r r' a p b1 b2 b3 b4
  · exact Or.inl rfl

/-- The calls behind the trapdoors and randomizers of a build, and what happens when they are answered differently. -/
theorem bundle_reblind {k k' : ℕ} (h : bundleWith P tryFrom G fuel anchor ty spends outputs k = .ok (some (b, m), k')) :
    ∃ (K : ℕ) (pre : List ActionInfo) (ps : List ℕ), ps.length = b.actions.length ∧ pre.length = b.actions.length ∧
      k ≤ K ∧ (∀ q ∈ ps, K + 8 * b.actions.length ≤ q ∧ q + 8 ≤ k') ∧ (ps.Pairwise fun x y => x + 8 ≤ y) ∧
      K + 8 * b.actions.length ≤ k' ∧
      ∀ G' : Generator,
        (∀ p s, k ≤ p → p < k' → ¬ (s = 8 ∧ (InBlocks ps p ∨ K ≤ p ∧ p < K + 8 * b.actions.length)) →
          G'.bytes p s = G.bytes p s) →
        bundleWith P tryFrom G' fuel anchor ty spends outputs k = .panic ∨ ∃ b' m',
          bundleWith P tryFrom G' fuel anchor ty spends outputs k = .ok (some (b', m'), k') ∧
          b'.actions.length = b.actions.length ∧
          ∀ (i : ℕ) c c' a p, b.actions[i]? = some c → b'.actions[i]? = some c' → (retrap G' K pre)[i]? = some a →
            ps[i]? = some p → Reblinded G' c c' a p := by
  rw [bundleWith_eq] at h
  split at h
  · cases h
  rename_i c1
  rw [outcome_bind_run, Run.bind_eq_ok] at h
  obtain ⟨matching, h1, h⟩ := h
  split at h
  · cases h
  rename_i c2
  split at h
  · cases h
  rename_i c3
  obtain ⟨n, hn⟩ : ∃ n, ty.numActions spends.length outputs.length = some n := by
    cases hn : ty.numActions spends.length outputs.length with
    | none => rw [hn] at h; cases h
    | some n => exact ⟨n, rfl⟩
  rw [hn] at h
  simp only at h
  unfold constructWith at h
  rw [bind_run, Run.bind_eq_ok] at h
  obtain ⟨⟨S, k1⟩, s1, h⟩ := h
  rw [bind_run, Run.bind_eq_ok] at h
  obtain ⟨⟨O, k2⟩, s2, h⟩ := h
  rw [bind_run, Run.bind_eq_ok] at h
  obtain ⟨⟨S', k3⟩, s3, h⟩ := h
  rw [bind_run, Run.bind_eq_ok] at h
  obtain ⟨⟨O', K⟩, s4, h⟩ := h
  rw [bind_run, Run.bind_eq_ok] at h
  obtain ⟨⟨x, k5⟩, s5, h⟩ := h
  simp only at s2 s3 s4 s5 h
  obtain ⟨ps, n1, n2, l, q1, q2, e⟩ := finish_reblind h
  unfold drawActions at s5
  obtain ⟨new, g1, g2, g3⟩ := drawActions_retrap _ _ _ _ _ s5
  rw [List.nil_append] at g1
  subst g1
  rw [n2] at g2
  subst g2
  obtain ⟨l1, -⟩ := local_padded (G' := G) (local_spendDummy P fuel) _ _ _ _ _ s1
  obtain ⟨l2, -⟩ := local_padded (G' := G) (local_outputDummy P fuel) _ _ _ _ _ s2
  obtain ⟨l3, -⟩ := local_shuffle (G' := G) fuel _ _ _ _ s3
  obtain ⟨l4, -⟩ := local_shuffle (G' := G) fuel _ _ _ _ s4
  refine ⟨K, x.2, ps, n1, n2, by omega, q1, q2, l, fun G' hg => ?_⟩
  have hag : Agree G G' k K := fun p s b1 b2 => hg p s b1 (by omega) (by
    rintro ⟨-, ⟨q, hq, b3, b4⟩ | ⟨b3, b4⟩⟩
    · have := q1 q hq; omega
    · omega)
  rw [bundleWith_eq, if_neg c1, outcome_bind_run, h1, Run.ok_bind, if_neg c2, if_neg c3]
  simp only [hn]
  unfold constructWith
  rw [bind_run, (local_padded (local_spendDummy P fuel) _ _ _ _ _ s1).2 (hag.mono le_rfl (by omega)), Run.ok_bind, bind_run,
    (local_padded (local_outputDummy P fuel) _ _ _ _ _ s2).2 (hag.mono l1 (by omega)), Run.ok_bind, bind_run,
    (local_shuffle fuel _ _ _ _ s3).2 (hag.mono (by omega) (by omega)), Run.ok_bind, bind_run,
    (local_shuffle fuel _ _ _ _ s4).2 (hag.mono (by omega) le_rfl), Run.ok_bind, bind_run]
  unfold drawActions
  simp only
  rw [g3 G' _ rfl, Run.ok_bind]
  simp only [List.nil_append]
  exact e G' K fun p s b1 b2 hb => hg p s (by omega) b2 (by
    rintro ⟨hs, hx | ⟨b3, b4⟩⟩
    · exact hb ⟨hs, hx⟩
    · omega)

end

/-! ### Answering the blinding calls -/

theorem blockOf_some {n : ℕ} {start : Fin n → ℕ} {p : ℕ} {x : Fin n × Fin 8} (h : Spec.blockOf start p = some x) :
    start x.1 ≤ p ∧ p < start x.1 + 8 := by
  obtain ⟨i, -, hi⟩ := List.exists_of_findSome?_eq_some h
  split at hi
  · rename_i hp
    rw [← Option.some.inj hi]
    exact hp
  · cases hi

theorem blockOf_none {n : ℕ} {start : Fin n → ℕ} {p : ℕ} (h : ∀ i, ¬ (start i ≤ p ∧ p < start i + 8)) :
    Spec.blockOf start p = none := by
  unfold Spec.blockOf
  rw [List.findSome?_eq_none_iff]
  intro i _
  rw [dif_neg (h i)]

theorem blockOf_eq {n : ℕ} {start : Fin n → ℕ} (hs : ∀ i j, i ≠ j → start i + 8 ≤ start j ∨ start j + 8 ≤ start i) (i : Fin n)
    (j : Fin 8) : Spec.blockOf start (start i + j) = some (i, j) := by
  cases h : Spec.blockOf start (start i + j) with
  | none =>
    unfold Spec.blockOf at h
    rw [List.findSome?_eq_none_iff] at h
    have := h i (List.mem_finRange i)
    rw [dif_pos ⟨by omega, by omega⟩] at this
    cases this
  | some x =>
    have hb := blockOf_some h
    have e : x.1 = i := by
      by_contra hne
      rcases hs _ _ hne with h | h <;> omega
    unfold Spec.blockOf at h
    obtain ⟨i', -, hi'⟩ := List.exists_of_findSome?_eq_some h
    split at hi'
    · have h1 := Option.some.inj hi'
      have h2 : i' = i := by rw [← e, ← h1]
      subst h2
      rw [← h1]
      simp
    · cases hi'

variable {n : ℕ} {rcvAt alphaAt : Fin n → ℕ} {u : Fin n → (Fin 8 → Bytes 8) × (Fin 8 → Bytes 8)}

theorem blindWith_other {p s : ℕ} (h : ¬ (s = 8 ∧ ((∃ i, rcvAt i ≤ p ∧ p < rcvAt i + 8) ∨ ∃ i, alphaAt i ≤ p ∧ p < alphaAt i + 8))) :
    (Spec.blindWith G rcvAt alphaAt u).bytes p s = G.bytes p s := by
  unfold Spec.blindWith
  dsimp only
  split
  · rename_i hs
    subst hs
    rw [blockOf_none (start := rcvAt) (fun i hi => h ⟨rfl, Or.inl ⟨i, hi⟩⟩),
      blockOf_none (start := alphaAt) (fun i hi => h ⟨rfl, Or.inr ⟨i, hi⟩⟩)]
  · rfl

theorem wide_words {p : ℕ} {w : Fin 8 → Bytes 8} (h : ∀ j : Fin 8, G.bytes (p + j) 8 = w j) : Spec.wide G p = Spec.wordsNat w := by
  unfold Spec.wide Spec.wordsNat
  rw [Finset.sum_range]
  exact Finset.sum_congr rfl fun j _ => by rw [h j]

theorem wide_rcv (hr : ∀ i j, i ≠ j → rcvAt i + 8 ≤ rcvAt j ∨ rcvAt j + 8 ≤ rcvAt i) (i : Fin n) :
    Spec.wide (Spec.blindWith G rcvAt alphaAt u) (rcvAt i) = Spec.wordsNat (u i).1 := by
  refine wide_words fun j => ?_
  unfold Spec.blindWith
  dsimp only
  rw [blockOf_eq hr, dif_pos rfl]

theorem wide_alpha (hr : ∀ i j, i ≠ j → alphaAt i + 8 ≤ alphaAt j ∨ alphaAt j + 8 ≤ alphaAt i)
    (hd : ∀ i j, rcvAt i + 8 ≤ alphaAt j) (i : Fin n) :
    Spec.wide (Spec.blindWith G rcvAt alphaAt u) (alphaAt i) = Spec.wordsNat (u i).2 := by
  refine wide_words fun j => ?_
  unfold Spec.blindWith
  dsimp only
  rw [blockOf_eq hr, blockOf_none (start := rcvAt) fun i' hi' => by have := hd i' i; omega, dif_pos rfl]

end Orchard
