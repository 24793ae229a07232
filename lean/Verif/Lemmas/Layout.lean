import Verif.Model.LayoutCircuit
import Verif.Lemmas.Synthesize

/-!
# Lemmas on the table layout
-/

namespace Orchard

namespace Layout

open Halo2

/-- All constraints of the events of `m` hold. -/
def Sat (cs : ConstraintSystem) (T : Table) (inst : List Fp) (env : Env) {α : Type} (m : LayoutM α)
    (s : Counters) : Prop := ∀ e ∈ (m env s).2, e.Holds cs T inst

/-- The table holds what `m` writes. -/
def Wrote (T : Table) (env : Env) {α : Type} (m : LayoutM α) (s : Counters) : Prop :=
  ∀ e ∈ (m env s).2, ∀ c v, e = .write c v → T c = v

variable {cs : ConstraintSystem} {T : Table} {inst : List Fp} {env : Env} {α β : Type} {s : Counters}

theorem run_pure (x : α) : (pure x : LayoutM α) env s = ((x, s), []) := rfl

theorem run_bind (m : LayoutM α) (f : α → LayoutM β) :
    ((m >>= f) env s).1 = (f (m env s).1.1 env (m env s).1.2).1 := rfl

theorem sat_pure (x : α) : Sat cs T inst env (pure x : LayoutM α) s ↔ True := by
  simp [Sat, run_pure]

theorem sat_bind (m : LayoutM α) (f : α → LayoutM β) : Sat cs T inst env (m >>= f) s ↔
    Sat cs T inst env m s ∧ Sat cs T inst env (f (m env s).1.1) (m env s).1.2 := by
  have : ((m >>= f) env s).2 = (m env s).2 ++ (f (m env s).1.1 env (m env s).1.2).2 := rfl
  simp only [Sat, this, List.mem_append, or_imp, forall_and]

theorem wrote_pure (x : α) : Wrote T env (pure x : LayoutM α) s ↔ True := by
  simp [Wrote, run_pure]

theorem wrote_bind (m : LayoutM α) (f : α → LayoutM β) : Wrote T env (m >>= f) s ↔
    Wrote T env m s ∧ Wrote T env (f (m env s).1.1) (m env s).1.2 := by
  have : ((m >>= f) env s).2 = (m env s).2 ++ (f (m env s).1.1 env (m env s).1.2).2 := rfl
  simp only [Wrote, this, List.mem_append, or_imp, forall_and]

theorem run_assignRegion (f : Region → LayoutM α) : (assignRegion f env s).1 =
    (f (env.plan.start s.regions) env { s with regions := s.regions + 1 }).1 := rfl

theorem sat_assignRegion (f : Region → LayoutM α) : Sat cs T inst env (assignRegion f) s ↔
    Sat cs T inst env (f (env.plan.start s.regions)) { s with regions := s.regions + 1 } := Iff.rfl

theorem wrote_assignRegion (f : Region → LayoutM α) : Wrote T env (assignRegion f) s ↔
    Wrote T env (f (env.plan.start s.regions)) { s with regions := s.regions + 1 } := Iff.rfl

theorem run_enable (q : Selector) (r : Region) (o : ℕ) : (enable q r o env s).1 = ((), s) := rfl

theorem sat_enable (q : Selector) (r : Region) (o : ℕ) : Sat cs T inst env (enable q r o) s ↔
    (Event.enable q (r + o)).Holds cs T inst := by
  simp [Sat, enable, emit]

theorem wrote_enable (q : Selector) (r : Region) (o : ℕ) : Wrote T env (enable q r o) s ↔ True := by
  simp [Wrote, enable, emit]

theorem run_copyAdvice (a : Assigned) (r : Region) (c : Column) (o : ℕ) :
    (copyAdvice a r c o env s).1 = (⟨(c, r + o), a.value⟩, s) := rfl

theorem sat_copyAdvice (a : Assigned) (r : Region) (c : Column) (o : ℕ) :
    Sat cs T inst env (copyAdvice a r c o) s ↔ T a.cell = T (c, r + o) := by
  simp [copyAdvice, sat_bind, sat_pure]
  simp [Sat, emit, Event.Holds]

theorem wrote_copyAdvice (a : Assigned) (r : Region) (c : Column) (o : ℕ) :
    Wrote T env (copyAdvice a r c o) s ↔ T (c, r + o) = a.value := by
  simp [copyAdvice, wrote_bind, wrote_pure]
  simp [Wrote, emit]

theorem run_assignAdvice (r : Region) (c : Column) (o : ℕ) (v : Fp) :
    (assignAdvice r c o v env s).1 = (⟨(c, r + o), v⟩, s) := rfl

theorem sat_assignAdvice (r : Region) (c : Column) (o : ℕ) (v : Fp) :
    Sat cs T inst env (assignAdvice r c o v) s ↔ True := by
  simp [assignAdvice, sat_bind, sat_pure]
  simp [Sat, emit, Event.Holds]

theorem wrote_assignAdvice (r : Region) (c : Column) (o : ℕ) (v : Fp) :
    Wrote T env (assignAdvice r c o v) s ↔ T (c, r + o) = v := by
  simp [assignAdvice, wrote_bind, wrote_pure]
  simp [Wrote, emit]

theorem run_assignAdviceFromInstance (row : ℕ) (r : Region) (c : Column) (o : ℕ) :
    (assignAdviceFromInstance row r c o env s).1 = (⟨(c, r + o), env.inst row⟩, s) := rfl

theorem sat_assignAdviceFromInstance (row : ℕ) (r : Region) (c : Column) (o : ℕ) :
    Sat cs T inst env (assignAdviceFromInstance row r c o) s ↔ inst[row]? = some (T (c, r + o)) := by
  simp [Sat, assignAdviceFromInstance, Event.Holds]

theorem wrote_assignAdviceFromInstance (row : ℕ) (r : Region) (c : Column) (o : ℕ) :
    Wrote T env (assignAdviceFromInstance row r c o) s ↔ T (c, r + o) = env.inst row := by
  simp [Wrote, assignAdviceFromInstance]

theorem run_constrainInstance (c : Cell) (row : ℕ) : (constrainInstance c row env s).1 = ((), s) := rfl

theorem sat_constrainInstance (c : Cell) (row : ℕ) :
    Sat cs T inst env (constrainInstance c row) s ↔ inst[row]? = some (T c) := by
  simp [Sat, constrainInstance, emit, Event.Holds]

theorem wrote_constrainInstance (c : Cell) (row : ℕ) :
    Wrote T env (constrainInstance c row) s ↔ True := by
  simp [Wrote, constrainInstance, emit]

theorem run_constrainEqual (a b : Cell) : (constrainEqual a b env s).1 = ((), s) := rfl

theorem sat_constrainEqual (a b : Cell) : Sat cs T inst env (constrainEqual a b) s ↔ T a = T b := by
  simp [Sat, constrainEqual, emit, Event.Holds]

theorem wrote_constrainEqual (a b : Cell) : Wrote T env (constrainEqual a b) s ↔ True := by
  simp [Wrote, constrainEqual, emit]

theorem run_gadget (values : List (ℕ × Fp)) (p : (ℕ → Cell) → GadgetCall) :
    (gadget values p env s).1 = (env.plan.gadget s.gadgets, { s with gadgets := s.gadgets + 1 }) := rfl

theorem sat_gadget (values : List (ℕ × Fp)) (p : (ℕ → Cell) → GadgetCall) :
    Sat cs T inst env (gadget values p) s ↔ (p (env.plan.gadget s.gadgets)).Contract T := by
  simp only [Sat, gadget, List.mem_append, List.mem_map, List.mem_singleton]
  constructor
  · intro h; exact h _ (.inr rfl)
  · rintro h e (⟨x, -, rfl⟩ | rfl)
    · trivial
    · exact h

theorem wrote_gadget (values : List (ℕ × Fp)) (p : (ℕ → Cell) → GadgetCall) :
    Wrote T env (gadget values p) s ↔ ∀ x ∈ values, T (env.plan.gadget s.gadgets x.1) = x.2 := by
  simp only [Wrote, gadget, List.mem_append, List.mem_map, List.mem_singleton]
  constructor
  · intro h x hx; exact h _ (.inl ⟨x, hx, rfl⟩) _ _ rfl
  · rintro h e (⟨x, hx, rfl⟩ | rfl) c v he
    · cases he; exact h x hx
    · cases he

/-! ### Point gadgets -/

theorem run_pointGadget (A : Point) (p : Cell × Cell → GadgetCall) :
    (pointGadget A p env s).1 = (⟨env.plan.gadget s.gadgets 0, env.plan.gadget s.gadgets 1, A⟩,
      { s with gadgets := s.gadgets + 1 }) := rfl

theorem sat_pointGadget (A : Point) (p : Cell × Cell → GadgetCall) :
    Sat cs T inst env (pointGadget A p) s ↔
      (p (env.plan.gadget s.gadgets 0, env.plan.gadget s.gadgets 1)).Contract T := by
  simp only [pointGadget, sat_bind, sat_pure, sat_gadget, and_true]

theorem wrote_pointGadget (A : Point) (p : Cell × Cell → GadgetCall) :
    Wrote T env (pointGadget A p) s ↔
      IsPoint T ⟨env.plan.gadget s.gadgets 0, env.plan.gadget s.gadgets 1, A⟩ A := by
  simp [pointGadget, wrote_bind, wrote_pure, wrote_gadget, IsPoint]

theorem isPoint_unique {c : PointCells} {A B : Point} (h1 : IsPoint T c A) (h2 : IsPoint T c B) :
    A = B := cells_inj (h1.1.symm.trans h2.1) (h1.2.symm.trans h2.2)

theorem sat_constrainEqualPoints (a b : PointCells) :
    Sat cs T inst env (constrainEqualPoints a b) s ↔ T a.x = T b.x ∧ T a.y = T b.y := by
  simp only [constrainEqualPoints, sat_bind, sat_constrainEqual]

theorem wrote_constrainEqualPoints (a b : PointCells) :
    Wrote T env (constrainEqualPoints a b) s ↔ True := by
  simp only [constrainEqualPoints, wrote_bind, wrote_constrainEqual, and_self]

theorem run_constrainEqualPoints (a b : PointCells) :
    (constrainEqualPoints a b env s).1 = ((), s) := rfl

/-! ### Other gadgets -/

theorem run_poseidonHash (P : Prims) (a b : Assigned) : (poseidonHash P a b env s).1 =
    (⟨env.plan.gadget s.gadgets 0, P.poseidon a.value b.value⟩,
      { s with gadgets := s.gadgets + 1 }) := rfl

theorem sat_poseidonHash (P : Prims) (a b : Assigned) :
    Sat cs T inst env (poseidonHash P a b) s ↔
      Poseidon P (T a.cell) (T b.cell) (T (env.plan.gadget s.gadgets 0)) := by
  simp only [poseidonHash, sat_bind, sat_pure, sat_gadget, and_true, GadgetCall.Contract]

theorem wrote_poseidonHash (P : Prims) (a b : Assigned) : Wrote T env (poseidonHash P a b) s ↔
    T (env.plan.gadget s.gadgets 0) = P.poseidon a.value b.value := by
  simp [poseidonHash, wrote_bind, wrote_pure, wrote_gadget]

theorem run_witnessShort (v : Fp) (i j : ℕ) : (witnessShort v i j env s).1 =
    (⟨env.plan.gadget s.gadgets 0, bitrange v i j⟩, { s with gadgets := s.gadgets + 1 }) := rfl

theorem sat_witnessShort (v : Fp) (i j : ℕ) : Sat cs T inst env (witnessShort v i j) s ↔
    ShortCheck (j - i) (T (env.plan.gadget s.gadgets 0)) := by
  simp only [witnessShort, sat_bind, sat_pure, sat_gadget, and_true, GadgetCall.Contract]

theorem wrote_witnessShort (v : Fp) (i j : ℕ) : Wrote T env (witnessShort v i j) s ↔
    T (env.plan.gadget s.gadgets 0) = bitrange v i j := by
  simp [witnessShort, wrote_bind, wrote_pure, wrote_gadget]

theorem run_witnessCheck (v : Fp) (n : ℕ) (b : Bool) : (witnessCheck v n b env s).1 =
    (fun i => ⟨env.plan.gadget s.gadgets i, runningSumOf v i⟩,
      { s with gadgets := s.gadgets + 1 }) := rfl

theorem sat_witnessCheck (v : Fp) (n : ℕ) (b : Bool) : Sat cs T inst env (witnessCheck v n b) s ↔
    RangeCheck n b fun i => T (env.plan.gadget s.gadgets i) := by
  simp only [witnessCheck, sat_bind, sat_pure, sat_gadget, and_true, GadgetCall.Contract]

theorem wrote_witnessCheck (v : Fp) (n : ℕ) (b : Bool) : Wrote T env (witnessCheck v n b) s ↔
    ∀ i < n + 1, T (env.plan.gadget s.gadgets i) = runningSumOf v i := by
  simp only [witnessCheck, wrote_bind, wrote_pure, wrote_gadget, and_true, List.mem_map, List.mem_range,
    forall_exists_index, and_imp]
  constructor
  · intro h i hi; exact h _ i hi rfl
  · rintro h _ i hi rfl; exact h i hi

theorem run_messagePiece (l : List (ℕ × Fp)) : (messagePiece l env s).1 =
    (⟨(l.map Prod.fst).sum / 10, ⟨env.plan.gadget s.gadgets 0, fromSubpieces l⟩⟩,
      { s with gadgets := s.gadgets + 1 }) := rfl

theorem sat_messagePiece (l : List (ℕ × Fp)) :
    Sat cs T inst env (messagePiece l) s ↔ True := by
  simp only [messagePiece, sat_bind, sat_pure, sat_gadget, and_true, GadgetCall.Contract]

theorem wrote_messagePiece (l : List (ℕ × Fp)) : Wrote T env (messagePiece l) s ↔
    T (env.plan.gadget s.gadgets 0) = fromSubpieces l := by
  simp [messagePiece, wrote_bind, wrote_pure, wrote_gadget]

/-- The point `sinsemillaCommit` assigns. -/
noncomputable def commitValue (P : Prims) (Q R : Point) (ms : List MessagePiece) (r : Fq) : Point :=
  (sinsemillaCommitOf P Q R (ms.map fun m => ⟨m.words, runningSumOf m.cell.value⟩) r).getD 0

theorem run_sinsemillaCommit (P : Prims) (Q R : Point) (ms : List MessagePiece) (r : Fq) :
    (sinsemillaCommit P Q R ms r env s).1 =
      ((⟨env.plan.gadget s.gadgets 0, env.plan.gadget s.gadgets 1, commitValue P Q R ms r⟩,
        fun j i => match ms[j]? with
          | some m => ⟨zCell (env.plan.gadget s.gadgets) j m i, runningSumOf m.cell.value i⟩
          | none => ⟨env.plan.gadget s.gadgets 0, 0⟩),
        { s with gadgets := s.gadgets + 1 }) := rfl

theorem sat_sinsemillaCommit (P : Prims) (Q R : Point) (ms : List MessagePiece) (r : Fq) :
    Sat cs T inst env (sinsemillaCommit P Q R ms r) s ↔ ∃ r',
      SinsemillaCommit P false Q R
        (ms.zipIdx.map fun m => pieceSum T (env.plan.gadget s.gadgets) m.2 m.1) r'
        (T (env.plan.gadget s.gadgets 0), T (env.plan.gadget s.gadgets 1)) := by
  simp only [sinsemillaCommit, sat_bind, sat_pure, sat_gadget, and_true, GadgetCall.Contract, List.map_map]
  rfl

theorem wrote_sinsemillaCommit (P : Prims) (Q R : Point) (ms : List MessagePiece) (r : Fq) :
    Wrote T env (sinsemillaCommit P Q R ms r) s ↔
      IsPoint T ⟨env.plan.gadget s.gadgets 0, env.plan.gadget s.gadgets 1, commitValue P Q R ms r⟩
        (commitValue P Q R ms r) ∧
      ∀ m ∈ ms.zipIdx, ∀ i, i ≠ 0 → i < m.1.words →
        T (env.plan.gadget s.gadgets (2 + 32 * m.2 + i)) = runningSumOf m.1.cell.value i := by
  simp only [sinsemillaCommit, wrote_bind, wrote_pure, wrote_gadget, and_true, List.mem_append, or_imp,
    forall_and, List.mem_cons, List.not_mem_nil, or_false, forall_eq, IsPoint, commitValue, and_assoc]
  refine and_congr_right fun _ => and_congr_right fun _ => ?_
  have hd : ∀ n i, i ∈ (List.range n).drop 1 ↔ i ≠ 0 ∧ i < n := by
    intro n i
    cases n with
    | zero => simp
    | succ n =>
      rw [List.range_succ_eq_map, List.drop_succ_cons, List.drop_zero, List.mem_map]
      constructor
      · rintro ⟨a, ha, rfl⟩; rw [List.mem_range] at ha; omega
      · rintro ⟨h1, h2⟩; exact ⟨i - 1, by rw [List.mem_range]; omega, by omega⟩
  constructor
  · intro h m hm i hi1 hi2
    exact h (_, _) (List.mem_flatMap.2 ⟨m, hm, List.mem_map.2 ⟨i, (hd _ _).2 ⟨hi1, hi2⟩, rfl⟩⟩)
  · intro h x hx
    obtain ⟨m, hm, hx⟩ := List.mem_flatMap.1 hx
    obtain ⟨i, hi, rfl⟩ := List.mem_map.1 hx
    exact h m hm i ((hd _ _).1 hi).1 ((hd _ _).1 hi).2

/-! ### What satisfied constraints ensure -/

/-- If the constraints of `m` hold, its result satisfies `Q`. -/
def Ensures (cs : ConstraintSystem) (T : Table) (inst : List Fp) (m : LayoutM α) (Q : α → Prop) : Prop :=
  ∀ env s, Sat cs T inst env m s → Q (m env s).1.1

theorem ens_pure {x : α} {Q : α → Prop} (h : Q x) : Ensures cs T inst (pure x) Q := fun _ _ _ => h

theorem ens_bind {m : LayoutM α} {f : α → LayoutM β} {Q : α → Prop} {R : β → Prop}
    (hm : Ensures cs T inst m Q) (hf : ∀ x, Q x → Ensures cs T inst (f x) R) :
    Ensures cs T inst (m >>= f) R := by
  intro env s h
  rw [sat_bind] at h
  rw [run_bind]
  exact hf _ (hm env s h.1) env _ h.2

theorem ens_mono {m : LayoutM α} {Q R : α → Prop} (hm : Ensures cs T inst m Q) (h : ∀ x, Q x → R x) :
    Ensures cs T inst m R := fun env s hs => h _ (hm env s hs)

theorem ens_region {f : Region → LayoutM α} {Q : α → Prop} (h : ∀ r, Ensures cs T inst (f r) Q) :
    Ensures cs T inst (assignRegion f) Q := fun env _ hs => h _ env _ hs

theorem ens_enable {q : Selector} {r : Region} {o : ℕ} : Ensures cs T inst (enable q r o)
    fun _ => (Event.enable q (r + o)).Holds cs T inst := fun _ _ h => (sat_enable q r o).1 h

theorem ens_copyAdvice {a : Assigned} {r : Region} {c : Column} {o : ℕ} :
    Ensures cs T inst (copyAdvice a r c o) fun x => x.cell = (c, r + o) ∧ T (c, r + o) = T a.cell :=
  fun _ _ h => ⟨rfl, ((sat_copyAdvice a r c o).1 h).symm⟩

theorem ens_assignAdvice {r : Region} {c : Column} {o : ℕ} {v : Fp} :
    Ensures cs T inst (assignAdvice r c o v) fun x => x.cell = (c, r + o) := fun _ _ _ => rfl

theorem ens_assignAdviceFromInstance {row : ℕ} {r : Region} {c : Column} {o : ℕ} :
    Ensures cs T inst (assignAdviceFromInstance row r c o) fun x => x.cell = (c, r + o) ∧
      inst[row]? = some (T (c, r + o)) :=
  fun _ _ h => ⟨rfl, (sat_assignAdviceFromInstance row r c o).1 h⟩

theorem ens_constrainInstance {c : Cell} {row : ℕ} :
    Ensures cs T inst (constrainInstance c row) fun _ => inst[row]? = some (T c) :=
  fun _ _ h => (sat_constrainInstance c row).1 h

theorem ens_constrainEqualPoints {a b : PointCells} :
    Ensures cs T inst (constrainEqualPoints a b) fun _ => T a.x = T b.x ∧ T a.y = T b.y :=
  fun _ _ h => (sat_constrainEqualPoints a b).1 h

theorem ens_pointGadget {A : Point} {p : Cell × Cell → GadgetCall} :
    Ensures cs T inst (pointGadget A p) fun c => (p c.pair).Contract T := fun _ _ h => (sat_pointGadget A p).1 h

theorem ens_poseidonHash {P : Prims} {a b : Assigned} :
    Ensures cs T inst (poseidonHash P a b) fun x => Poseidon P (T a.cell) (T b.cell) (T x.cell) :=
  fun _ _ h => (sat_poseidonHash P a b).1 h

theorem ens_witnessShort {v : Fp} {i j : ℕ} :
    Ensures cs T inst (witnessShort v i j) fun x => ShortCheck (j - i) (T x.cell) :=
  fun _ _ h => (sat_witnessShort v i j).1 h

theorem ens_witnessCheck {v : Fp} {n : ℕ} {b : Bool} :
    Ensures cs T inst (witnessCheck v n b) fun zs => RangeCheck n b fun i => T (zs i).cell :=
  fun _ _ h => (sat_witnessCheck v n b).1 h

theorem ens_messagePiece {l : List (ℕ × Fp)} (n : ℕ) (hn : (l.map Prod.fst).sum / 10 = n) :
    Ensures cs T inst (messagePiece l) fun m => m.words = n := fun _ _ _ => hn

/-- The constraints of `CommitDomain::commit`, on the result of the call. -/
def CommitPost (P : Prims) (T : Table) (Q R : Point) (ms : List MessagePiece)
    (x : PointCells × (ℕ → ℕ → Assigned)) : Prop :=
  ∃ r, ∃ zz : ℕ → ℕ → Fp,
    SinsemillaCommit P false Q R (ms.zipIdx.map fun m => ⟨m.1.words, zz m.2⟩) r
      (T x.1.x, T x.1.y) ∧
    ∀ j m, ms[j]? = some m → (0 < m.words → zz j 0 = T m.cell.cell) ∧
      ∀ i < m.words, zz j i = T (x.2 j i).cell

theorem ens_sinsemillaCommit {P : Prims} {Q R : Point} {ms : List MessagePiece} {r : Fq} :
    Ensures cs T inst (sinsemillaCommit P Q R ms r) (CommitPost P T Q R ms) := by
  intro env s h
  obtain ⟨r', h2⟩ := (sat_sinsemillaCommit P Q R ms r).1 h
  rw [run_sinsemillaCommit]
  refine ⟨r', fun j => match ms[j]? with
    | some m => (pieceSum T (env.plan.gadget s.gadgets) j m).z
    | none => 0, ?_, ?_⟩
  · have : (ms.zipIdx.map fun m => pieceSum T (env.plan.gadget s.gadgets) m.2 m.1) =
        ms.zipIdx.map fun m => ⟨m.1.words, match ms[m.2]? with
          | some m' => (pieceSum T (env.plan.gadget s.gadgets) m.2 m').z
          | none => 0⟩ := by
      apply List.map_congr_left
      rintro ⟨m, j⟩ hm
      rw [List.mem_zipIdx_iff_getElem?] at hm
      dsimp only at hm ⊢
      rw [hm]
      rfl
    rw [← this]
    exact h2
  · intro j m hm
    simp only [hm, pieceSum, pieceAt]
    refine ⟨fun h0 => ?_, fun i hi => ?_⟩
    · rw [if_pos h0]; rfl
    · rw [if_pos hi]

theorem ens_merkleRoot {P : Prims} {pos : ℕ} {path : List Fp} {leaf : Assigned} :
    Ensures cs T inst (merkleRoot P pos path leaf) fun x => ∃ pos encs, pos < 2 ^ 32 ∧
      (∀ l < 32, T (x.bit l) = if pos.testBit l then 1 else 0) ∧
      MerkleRoot P false pos 0 ((List.range 32).map fun l => T (x.sibling l)) encs (T leaf.cell)
        (T x.root.cell) := by
  intro env s h
  unfold merkleRoot at h
  rw [sat_bind, sat_gadget] at h
  exact h.1

theorem ens_assignFreeAdvice {c : Column} {v : Fp} :
    Ensures cs T inst (assignFreeAdvice c v) fun _ => True := fun _ _ _ => trivial

/-- A pair of cells that are the first and the last of a running sum. -/
def CheckPost (T : Table) (n : ℕ) (x : Assigned × Assigned) : Prop :=
  ∃ z, RangeCheck n false z ∧ T x.1.cell = z 0 ∧ T x.2.cell = z n

/-! ### `commit_ivk` -/

theorem ens_akCanonicity {a : Assigned} : Ensures cs T inst (akCanonicity a) (CheckPost T 13) :=
  ens_bind ens_witnessCheck fun _ h => ens_pure ⟨_, h, rfl, rfl⟩

theorem ens_nkCanonicity {b c : Assigned} : Ensures cs T inst (nkCanonicity b c) (CheckPost T 14) :=
  ens_bind ens_witnessCheck fun _ h => ens_pure ⟨_, h, rfl, rfl⟩

/-- The gate of the selector, on a row of the table. -/
def IvkGate (cs : ConstraintSystem) (cfg : CommitIvkConfig) : Prop :=
  ∀ (T : Table) (inst : List Fp) (row : ℕ), (Event.enable cfg.qCommitIvk row).Holds cs T inst ↔
    Gate (CommitIvk.gate (T (cfg.advices 0, row)) (T (cfg.advices 1, row)) (T (cfg.advices 2, row))
      (T (cfg.advices 3, row)) (T (cfg.advices 4, row)) (T (cfg.advices 5, row))
      (T (cfg.advices 6, row)) (T (cfg.advices 7, row)) (T (cfg.advices 8, row))
      (T (cfg.advices 0, row + 1)) (T (cfg.advices 1, row + 1)) (T (cfg.advices 2, row + 1))
      (T (cfg.advices 3, row + 1)) (T (cfg.advices 4, row + 1)) (T (cfg.advices 6, row + 1))
      (T (cfg.advices 7, row + 1)) (T (cfg.advices 8, row + 1)))

theorem ens_assignGate {cfg : CommitIvkConfig} {k : GateCells} (hg : IvkGate cs cfg) :
    Ensures cs T inst (cfg.assignGate k) fun _ => ∃ b1 d1,
      Gate (CommitIvk.gate (T k.ak.cell) (T k.a.cell) (T k.b.cell) (T k.b0.cell) b1 (T k.b2.cell)
        (T k.z13a.cell) (T k.aPrime.cell) (T k.z13aPrime.cell) (T k.nk.cell) (T k.c.cell)
        (T k.d.cell) (T k.d0.cell) d1 (T k.z13c.cell) (T k.b2cPrime.cell) (T k.z14b2cPrime.cell)) := by
  refine ens_region fun r => ?_
  refine ens_bind ens_enable fun _ h0 => ?_
  rw [hg] at h0
  refine ens_bind ens_copyAdvice fun _ h1 => ?_
  refine ens_bind ens_copyAdvice fun _ h2 => ?_
  refine ens_bind ens_copyAdvice fun _ h3 => ?_
  refine ens_bind ens_copyAdvice fun _ h4 => ?_
  refine ens_bind ens_assignAdvice fun _ _ => ?_
  refine ens_bind ens_copyAdvice fun _ h5 => ?_
  refine ens_bind ens_copyAdvice fun _ h6 => ?_
  refine ens_bind ens_copyAdvice fun _ h7 => ?_
  refine ens_bind ens_copyAdvice fun _ h8 => ?_
  refine ens_bind ens_copyAdvice fun _ h9 => ?_
  refine ens_bind ens_copyAdvice fun _ h10 => ?_
  refine ens_bind ens_copyAdvice fun _ h11 => ?_
  refine ens_bind ens_copyAdvice fun _ h12 => ?_
  refine ens_bind ens_assignAdvice fun _ _ => ?_
  refine ens_bind ens_copyAdvice fun _ h13 => ?_
  refine ens_bind ens_copyAdvice fun _ h14 => ?_
  refine ens_bind ens_copyAdvice fun _ h15 => ?_
  rw [Nat.add_zero] at *
  refine ens_pure ⟨T (cfg.advices 4, r), T (cfg.advices 4, r + 1), ?_⟩
  rw [h1.2, h2.2, h3.2, h4.2, h5.2, h6.2, h7.2, h8.2, h9.2, h10.2, h11.2, h12.2, h13.2, h14.2,
    h15.2] at h0
  exact h0

theorem ens_commitIvk {P : Prims} {cfg : CommitIvkConfig} {ak nk : Assigned} {rivk : Fq}
    (hg : IvkGate cs cfg) :
    Ensures cs T inst (commitIvk P cfg ak nk rivk) fun ivk => ∃ k r,
      CommitIvk.gadget P false k (T ak.cell) (T nk.cell) r (T ivk.cell) := by
  refine ens_bind (ens_messagePiece 25 (by simp)) fun a ha => ?_
  refine ens_bind ens_witnessShort fun b0 hb0 => ?_
  refine ens_bind ens_witnessShort fun b2 hb2 => ?_
  refine ens_bind (ens_messagePiece 1 (by simp)) fun b hb => ?_
  refine ens_bind (ens_messagePiece 24 (by simp)) fun c hc => ?_
  refine ens_bind ens_witnessShort fun d0 hd0 => ?_
  refine ens_bind (ens_messagePiece 1 (by simp)) fun d hd => ?_
  refine ens_bind ens_sinsemillaCommit fun x hx => ?_
  obtain ⟨r, zz, hcom, hz⟩ := hx
  obtain ⟨ivk, zs⟩ := x
  refine ens_bind ens_akCanonicity fun x hx => ?_
  obtain ⟨aPrime, haP, ha0, ha13⟩ := hx
  refine ens_bind ens_nkCanonicity fun y hy => ?_
  obtain ⟨bPrime, hbP, hb0', hb14⟩ := hy
  refine ens_bind (ens_assignGate hg) fun _ h => ?_
  obtain ⟨b1, d1, h⟩ := h
  refine ens_pure ⟨⟨zz 0, zz 1, zz 2, zz 3, T b0.cell, b1, T b2.cell, T d0.cell, d1, aPrime, bPrime⟩, r,
    hb0, hb2, hd0, ⟨(T ivk.x, T ivk.y), ?_, rfl⟩, haP, hbP, ?_⟩
  · have : [a, b, c, d].zipIdx = [(a, 0), (b, 1), (c, 2), (d, 3)] := rfl
    rw [this] at hcom
    simp only [List.map_cons, List.map_nil, ha, hb, hc, hd] at hcom
    exact hcom
  · have z0 := hz 0 a rfl
    have z1 := hz 1 b rfl
    have z2 := hz 2 c rfl
    have z3 := hz 3 d rfl
    rw [ha] at z0
    rw [hb] at z1
    rw [hc] at z2
    rw [hd] at z3
    dsimp only at h
    rw [ha0, ha13, hb0', hb14, ← z0.1 (by norm_num), ← z1.1 (by norm_num), ← z2.1 (by norm_num),
      ← z3.1 (by norm_num), ← z0.2 13 (by norm_num), ← z2.2 13 (by norm_num)] at h
    exact h

end Layout

end Orchard
