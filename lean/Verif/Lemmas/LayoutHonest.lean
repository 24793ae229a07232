import Verif.Lemmas.LayoutCircuit
import Verif.Model.FixedBase

/-!
# Lemmas on the table the prover fills in
-/

namespace Orchard

namespace Layout

open Halo2

variable {cs : ConstraintSystem} {T : Table} {inst : List Fp} {env : Env} {α β : Type} {s : Counters}

/-! ### Only the cells of a running sum matter -/

theorem rangeCheck_congr {n : ℕ} {b : Bool} {z z' : ℕ → Fp} (h : ∀ i ≤ n, z i = z' i)
    (hz : RangeCheck n b z') : RangeCheck n b z := by
  refine ⟨fun i hi => ?_, fun hb => ?_⟩
  · rw [h i (by omega), h (i + 1) (by omega)]; exact hz.1 i hi
  · rw [h n le_rfl]; exact hz.2 hb

theorem piece_congr {n : ℕ} {z z' : ℕ → Fp} (h : ∀ i ≤ n, z i = z' i) :
    (Piece.Ok ⟨n, z⟩ ↔ Piece.Ok ⟨n, z'⟩) ∧ Piece.wordList ⟨n, z⟩ = Piece.wordList ⟨n, z'⟩ := by
  refine ⟨?_, ?_⟩
  · unfold Piece.Ok RunningSum
    dsimp only
    rw [h n le_rfl]
    refine and_congr_left fun _ => forall_congr' fun i => forall_congr' fun hi => ?_
    rw [h i (by omega), h (i + 1) (by omega)]
  · unfold Piece.wordList
    dsimp only
    refine List.map_congr_left fun i hi => ?_
    rw [List.mem_range] at hi
    rw [h i (by omega), h (i + 1) (by omega)]

theorem sinsemillaCommit_congr {P : Prims} {Q R : Point} {ms ms' : List Piece} {r : Fq} {out : Fp × Fp}
    (h : List.Forall₂ (fun m m' => m.words = m'.words ∧ ∀ i ≤ m.words, m.z i = m'.z i) ms ms') :
    SinsemillaCommit P true Q R ms' r out → SinsemillaCommit P true Q R ms r out := by
  rintro ⟨h1, h2⟩
  have hw : messageWords ms = messageWords ms' ∧ ((∀ m ∈ ms', m.Ok) → ∀ m ∈ ms, m.Ok) := by
    clear h1 h2
    induction h with
    | nil => exact ⟨rfl, fun _ => by simp⟩
    | @cons a b l l' hab _ ih =>
      obtain ⟨n, z⟩ := a
      obtain ⟨n', z'⟩ := b
      obtain ⟨e, hz⟩ := hab
      dsimp only at e hz
      subst e
      have := piece_congr hz
      refine ⟨?_, fun ho m hm => ?_⟩
      · unfold messageWords at ih ⊢
        rw [List.flatMap_cons, List.flatMap_cons, this.2, ih.1]
      · rcases List.mem_cons.1 hm with rfl | hm
        · exact this.1.2 (ho _ (List.mem_cons_self ..))
        · exact ih.2 (fun m hm => ho m (List.mem_cons_of_mem _ hm)) m hm
  refine ⟨hw.2 h1, ?_⟩
  rw [hw.1]
  exact h2

/-! ### What the prover's table satisfies -/

/-- What the cells of a gadget contain if its inputs and outputs are those of an honest prover. -/
def GadgetCall.Feasible (P : Prims) (T : Table) : GadgetCall → Prop
  | .witnessPoint c => ∃ A, HoldsPoint T c A
  | .witnessNonIdentity c => ∃ A, HoldsPoint T c A ∧ NonIdentity A
  | .add a b c => ∃ A B, HoldsPoint T a A ∧ HoldsPoint T b B ∧ HoldsPoint T c (A + B)
  | .mulFixed base c => (∃ b : FixedBasesFull, b.point.generator = base) ∧ ∃ r : Fq, HoldsPoint T c (r • base)
  | .mulFixedShort base magnitude sign c => base = Constants.valueCommitV ∧
    ∃ out, HoldsPoint T c out ∧ MulFixedShort base (T magnitude) (T sign) out
  | .mulFixedBase base scalar c => base = Constants.nullifierK ∧ HoldsPoint T c (((T scalar).val : Fq) • base)
  | .mulVar base scalar c => ∃ B, HoldsPoint T base B ∧ NonIdentity B ∧ HoldsPoint T c (((T scalar).val : Fq) • B)
  | .poseidon P' x y c => P' = P ∧ T c = P.poseidon (T x) (T y)
  | .shortCheck bits c => ShortCheck bits (T c)
  | .rangeCheck n strict z => RangeCheck n strict fun i => T (z i)
  | .messagePiece _ => True
  | .commit P' Q R pieces c => P' = P ∧ (∃ b : FixedBasesFull, b.point.generator = R) ∧
    ∃ r, SinsemillaCommit P true Q R (pieces.map (pieceAt T)) r (T c.1, T c.2)
  | .merkleRoot P' leaf sibling bit root => P' = P ∧ ∃ pos encs,
    (∀ l < 32, T (bit l) = if pos.testBit l then 1 else 0) ∧
    merkleRootOf P pos 0 ((List.range 32).map fun l => T (sibling l)) (T leaf) = some (encs, T root)

def Event.Feasible (P : Prims) (T : Table) : Event → Prop
  | .gadget g => g.Feasible P T
  | _ => True

/-- If the table holds what `m` writes, then it satisfies the constraints of `m`, copies are only
made where they are permitted, and the result satisfies `Q`. -/
def Honest (P : Prims) (cs : ConstraintSystem) (T : Table) (inst : List Fp) (env : Env) (m : LayoutM α)
    (Q : α → Prop) : Prop :=
  ∀ s, Wrote T env m s → (∀ e ∈ (m env s).2, e.Holds cs T inst ∧ e.Permitted cs ∧ e.Feasible P T) ∧ Q (m env s).1.1

/-- The cell holds the value and may be copied. -/
def Known (cs : ConstraintSystem) (T : Table) (x : Assigned) : Prop :=
  T x.cell = x.value ∧ x.cell.1 ∈ cs.equality

def KnownPoint (cs : ConstraintSystem) (T : Table) (c : PointCells) : Prop :=
  IsPoint T c c.value ∧ c.x.1 ∈ cs.equality ∧ c.y.1 ∈ cs.equality

theorem KnownPoint.x {c : PointCells} (h : KnownPoint cs T c) : Known cs T c.xCell := ⟨h.1.1, h.2.1⟩
theorem KnownPoint.y {c : PointCells} (h : KnownPoint cs T c) : Known cs T c.yCell := ⟨h.1.2, h.2.2⟩

variable {P : Prims}

theorem hon_pure {x : α} {Q : α → Prop} (h : Q x) : Honest P cs T inst env (pure x) Q := by
  intro s _
  exact ⟨fun e he => absurd he (List.not_mem_nil), h⟩

theorem hon_bind {m : LayoutM α} {f : α → LayoutM β} {Q : α → Prop} {R : β → Prop}
    (hm : Honest P cs T inst env m Q) (hf : ∀ x, Q x → Honest P cs T inst env (f x) R) :
    Honest P cs T inst env (m >>= f) R := by
  intro s h
  rw [wrote_bind] at h
  obtain ⟨h1, h2⟩ := hm s h.1
  obtain ⟨h3, h4⟩ := hf _ h2 _ h.2
  refine ⟨fun e he => ?_, h4⟩
  have he' : e ∈ (m env s).2 ++ (f (m env s).1.1 env (m env s).1.2).2 := he
  rcases List.mem_append.1 he' with he | he
  · exact h1 e he
  · exact h3 e he

theorem hon_mono {m : LayoutM α} {Q R : α → Prop} (hm : Honest P cs T inst env m Q)
    (h : ∀ x, Q x → R x) : Honest P cs T inst env m R := fun s hs => ⟨(hm s hs).1, h _ (hm s hs).2⟩

theorem hon_region {f : Region → LayoutM α} {Q : α → Prop} (h : ∀ r, Honest P cs T inst env (f r) Q) :
    Honest P cs T inst env (assignRegion f) Q := fun s hs => h _ { s with regions := s.regions + 1 } hs

theorem hon_enable {q : Selector} {r : Region} {o : ℕ}
    (h : (Event.enable q (r + o)).Holds cs T inst) :
    Honest P cs T inst env (enable q r o) fun _ => True := by
  intro s _
  refine ⟨fun e he => ?_, trivial⟩
  cases List.mem_singleton.1 he
  exact ⟨h, trivial, trivial⟩

/-- The gate of a selector that is enabled first is checked after the assignments. -/
theorem hon_enable_bind {q : Selector} {r : Region} {o : ℕ} {f : Unit → LayoutM β} {R : β → Prop}
    (h : Honest P cs T inst env (f ()) fun x => (Event.enable q (r + o)).Holds cs T inst ∧ R x) :
    Honest P cs T inst env (enable q r o >>= f) R := by
  intro s hs
  rw [wrote_bind] at hs
  obtain ⟨h1, h2, h3⟩ := h _ hs.2
  exact hon_bind (Q := fun _ => True) (hon_enable h2) (fun _ _ => hon_mono h fun _ h => h.2) s
    ((wrote_bind _ _).2 hs)

theorem hon_assignAdvice {r : Region} {c : Column} {o : ℕ} {v : Fp} :
    Honest P cs T inst env (assignAdvice r c o v)
      fun x => x = ⟨(c, r + o), v⟩ ∧ T (c, r + o) = v := by
  intro s hs
  refine ⟨fun e he => ?_, rfl, (wrote_assignAdvice r c o v).1 hs⟩
  have : e ∈ [Event.write (c, r + o) v] := he
  cases List.mem_singleton.1 this
  exact ⟨trivial, trivial, trivial⟩

theorem hon_copyAdvice {a : Assigned} {r : Region} {c : Column} {o : ℕ} (ha : Known cs T a)
    (hc : c ∈ cs.equality) : Honest P cs T inst env (copyAdvice a r c o)
      fun x => x = ⟨(c, r + o), a.value⟩ ∧ T (c, r + o) = a.value := by
  intro s hs
  have h := (wrote_copyAdvice a r c o).1 hs
  refine ⟨fun e he => ?_, rfl, h⟩
  have : e ∈ [Event.write (c, r + o) a.value, .equal a.cell (c, r + o)] := he
  rcases List.mem_cons.1 this with rfl | h'
  · exact ⟨trivial, trivial, trivial⟩
  · cases List.mem_singleton.1 h'
    exact ⟨ha.1.trans h.symm, ⟨ha.2, hc⟩, trivial⟩

theorem hon_assignAdviceFromInstance {row : ℕ} {r : Region} {c : Column} {o : ℕ}
    (hi : inst[row]? = some (env.inst row)) (hc : c ∈ cs.equality) :
    Honest P cs T inst env (assignAdviceFromInstance row r c o)
      fun _ => T (c, r + o) = env.inst row := by
  intro s hs
  have h := (wrote_assignAdviceFromInstance row r c o).1 hs
  refine ⟨fun e he => ?_, h⟩
  have : e ∈ [Event.write (c, r + o) (env.inst row), .instance (c, r + o) row] := he
  rcases List.mem_cons.1 this with rfl | h'
  · exact ⟨trivial, trivial, trivial⟩
  · cases List.mem_singleton.1 h'
    exact ⟨by rw [Event.Holds, h]; exact hi, hc, trivial⟩

theorem hon_constrainInstance {c : Cell} {row : ℕ} (hi : inst[row]? = some (T c))
    (hc : c.1 ∈ cs.equality) : Honest P cs T inst env (constrainInstance c row) fun _ => True := by
  intro s _
  refine ⟨fun e he => ?_, trivial⟩
  cases List.mem_singleton.1 he
  exact ⟨hi, hc, trivial⟩

theorem hon_constrainEqual {a b : Cell} (h : T a = T b) (ha : a.1 ∈ cs.equality)
    (hb : b.1 ∈ cs.equality) : Honest P cs T inst env (constrainEqual a b) fun _ => True := by
  intro s _
  refine ⟨fun e he => ?_, trivial⟩
  cases List.mem_singleton.1 he
  exact ⟨h, ⟨ha, hb⟩, trivial⟩

theorem hon_constrainEqualPoints {a b : PointCells} (ha : KnownPoint cs T a) (hb : KnownPoint cs T b)
    (h : a.value = b.value) : Honest P cs T inst env (constrainEqualPoints a b) fun _ => True := by
  refine hon_bind (hon_constrainEqual ?_ ha.2.1 hb.2.1) fun _ _ =>
    hon_constrainEqual ?_ ha.2.2 hb.2.2
  · rw [ha.1.1, hb.1.1, h]
  · rw [ha.1.2, hb.1.2, h]

section gadgets

variable (hp : ∀ n i, (env.plan.gadget n i).1 ∈ cs.equality)
include hp

theorem hon_gadget {values : List (ℕ × Fp)} {p : (ℕ → Cell) → GadgetCall} {Q : (ℕ → Cell) → Prop}
    (h : ∀ cells : ℕ → Cell, (∀ x ∈ values, T (cells x.1) = x.2) → (∀ i, (cells i).1 ∈ cs.equality) →
      (p cells).Contract T ∧ (p cells).Feasible P T ∧ Q cells) : Honest P cs T inst env (gadget values p) Q := by
  intro s hs
  rw [wrote_gadget] at hs
  have := h _ hs (hp _)
  refine ⟨fun e he => ?_, this.2.2⟩
  have he' : e ∈ values.map (fun x => Event.write (env.plan.gadget s.gadgets x.1) x.2) ++
    [.gadget (p (env.plan.gadget s.gadgets))] := he
  rcases List.mem_append.1 he' with h' | h'
  · obtain ⟨x, -, rfl⟩ := List.mem_map.1 h'
    exact ⟨trivial, trivial, trivial⟩
  · cases List.mem_singleton.1 h'
    exact ⟨this.1, trivial, this.2.1⟩

theorem hon_pointGadget {A : Point} {p : Cell × Cell → GadgetCall}
    (h : ∀ c : PointCells, KnownPoint cs T c → c.value = A →
      (p c.pair).Contract T ∧ (p c.pair).Feasible P T) :
    Honest P cs T inst env (pointGadget A p) fun c => KnownPoint cs T c ∧ c.value = A := by
  refine hon_bind (Q := fun cells => KnownPoint cs T ⟨cells 0, cells 1, A⟩)
    (hon_gadget hp fun cells hv hc => ?_) fun cells hk => hon_pure ⟨hk, rfl⟩
  have hk : KnownPoint cs T ⟨cells 0, cells 1, A⟩ :=
    ⟨⟨hv (0, extractP A) (by simp), hv (1, cellY A) (by simp)⟩, hc 0, hc 1⟩
  exact ⟨(h _ hk rfl).1, (h _ hk rfl).2, hk⟩

theorem hon_witnessPoint {A : Point} : Honest P cs T inst env (witnessPoint A)
    fun c => KnownPoint cs T c ∧ c.value = A := 
  hon_pointGadget hp fun _ hk _ => ⟨⟨_, hk.1⟩, _, hk.1⟩

theorem hon_witnessNonIdentity {A : Point} (h : NonIdentity A) :
    Honest P cs T inst env (witnessNonIdentity A) fun c => KnownPoint cs T c ∧ c.value = A :=
  hon_pointGadget hp fun _ hk e => ⟨⟨_, hk.1, e ▸ h⟩, _, hk.1, e ▸ h⟩

theorem hon_addPoints {a b : PointCells} (ha : KnownPoint cs T a) (hb : KnownPoint cs T b) :
    Honest P cs T inst env (addPoints a b)
      fun c => KnownPoint cs T c ∧ c.value = a.value + b.value :=
  hon_pointGadget hp fun _ hk e => ⟨fun A B hA hB => by
    rw [isPoint_unique (c := a) hA ha.1, isPoint_unique (c := b) hB hb.1]
    exact ⟨_, hk.1, e⟩, _, _, ha.1, hb.1, by rw [← e]; exact hk.1⟩

theorem hon_mulFixed (b : FixedBasesFull) {B : Point} (hB : b.point.generator = B) {r : Fq} :
    Honest P cs T inst env (mulFixed B r) fun c => KnownPoint cs T c ∧ c.value = r • B :=
  hon_pointGadget hp fun _ hk e => ⟨⟨r, _, hk.1, e⟩, ⟨b, hB⟩, r, by rw [← e]; exact hk.1⟩

theorem hon_mulFixedShort {B : Point} (hB : B = Constants.valueCommitV) {m g : Assigned} {out : Point} (hm : Known cs T m)
    (hs : Known cs T g) (h : MulFixedShort B m.value g.value out)
    (ho : out = if g.value = 1 then (m.value.val : Fq) • B else -((m.value.val : Fq) • B)) :
    Honest P cs T inst env (mulFixedShort B m g) fun c => KnownPoint cs T c ∧ c.value = out := by
  subst ho
  refine hon_pointGadget hp fun c hk e => ?_
  have h' : MulFixedShort B (T m.cell) (T g.cell) c.value := by rw [hm.1, hs.1, e]; exact h
  exact ⟨⟨_, hk.1, h'⟩, hB, _, hk.1, h'⟩

theorem hon_mulFixedBase {B : Point} (hB : B = Constants.nullifierK) {x : Assigned} (hx : Known cs T x) :
    Honest P cs T inst env (mulFixedBase B x)
      fun c => KnownPoint cs T c ∧ c.value = (x.value.val : Fq) • B :=
  hon_pointGadget hp fun _ hk e => ⟨⟨_, hk.1, by rw [hx.1]; exact e⟩, hB, by rw [hx.1, ← e]; exact hk.1⟩

theorem hon_mulVar {b : PointCells} {x : Assigned} (hb : KnownPoint cs T b) (h0 : NonIdentity b.value)
    (hx : Known cs T x) : Honest P cs T inst env (mulVar b x)
      fun c => KnownPoint cs T c ∧ c.value = (x.value.val : Fq) • b.value :=
  hon_pointGadget hp fun _ hk e => ⟨fun B hB _ => by
    rw [isPoint_unique (c := b) hB hb.1]
    exact ⟨_, hk.1, by rw [hx.1]; exact e⟩, _, hb.1, h0, by rw [hx.1, ← e]; exact hk.1⟩

theorem hon_poseidonHash {a b : Assigned} (ha : Known cs T a) (hb : Known cs T b) :
    Honest P cs T inst env (poseidonHash P a b)
      fun x => Known cs T x ∧ x.value = P.poseidon a.value b.value := by
  refine hon_bind (Q := fun cells => Known cs T ⟨cells 0, P.poseidon a.value b.value⟩)
    (hon_gadget hp fun cells hv hc => ?_) fun cells hk => hon_pure ⟨hk, rfl⟩
  have h0 := hv _ (List.mem_singleton.2 rfl)
  exact ⟨by rw [GadgetCall.Contract, ha.1, hb.1]; exact h0, ⟨rfl, by rw [ha.1, hb.1]; exact h0⟩, h0, hc 0⟩

theorem hon_witnessShort {v : Fp} {i j : ℕ} (h : ShortCheck (j - i) (bitrange v i j)) :
    Honest P cs T inst env (witnessShort v i j) fun x => Known cs T x ∧ x.value = bitrange v i j := by
  refine hon_bind (Q := fun cells => Known cs T ⟨cells 0, bitrange v i j⟩)
    (hon_gadget hp fun cells hv hc => ?_) fun cells hk => hon_pure ⟨hk, rfl⟩
  have h0 := hv _ (List.mem_singleton.2 rfl)
  dsimp only at h0
  have h' : ShortCheck (j - i) (T (cells 0)) := by rw [h0]; exact h
  exact ⟨h', h', h0, hc 0⟩

theorem hon_witnessCheck {v : Fp} {n : ℕ} {b : Bool} (h : RangeCheck n b (runningSumOf v)) :
    Honest P cs T inst env (witnessCheck v n b)
      fun zs => ∀ i ≤ n, Known cs T (zs i) ∧ (zs i).value = runningSumOf v i := by
  refine hon_bind (Q := fun cells => ∀ i ≤ n, Known cs T ⟨cells i, runningSumOf v i⟩)
    (hon_gadget hp fun cells hv hc => ?_) fun cells hk => hon_pure fun i hi => ⟨hk i hi, rfl⟩
  have h0 : ∀ i ≤ n, T (cells i) = runningSumOf v i := fun i hi =>
    hv (i, runningSumOf v i) (List.mem_map.2 ⟨i, List.mem_range.2 (by omega), rfl⟩)
  exact ⟨rangeCheck_congr h0 h, rangeCheck_congr h0 h, fun i hi => ⟨h0 i hi, hc i⟩⟩

theorem hon_messagePiece {l : List (ℕ × Fp)} (n : ℕ) (hn : (l.map Prod.fst).sum / 10 = n) :
    Honest P cs T inst env (messagePiece l)
      fun m => m.words = n ∧ Known cs T m.cell ∧ m.cell.value = fromSubpieces l := by
  refine hon_bind (Q := fun cells => Known cs T ⟨cells 0, fromSubpieces l⟩)
    (hon_gadget hp fun cells hv hc => ?_) fun cells hk => hon_pure ⟨hn, hk, rfl⟩
  exact ⟨trivial, trivial, hv _ (List.mem_singleton.2 rfl), hc 0⟩

theorem hon_sinsemillaCommit {Q R : Point} (b : FixedBasesFull) (hb : b.point.generator = R) {ms : List MessagePiece} {r : Fq} {out : Point}
    (hk : ∀ m ∈ ms, Known cs T m.cell)
    (h : SinsemillaCommit P true Q R (ms.map fun m => ⟨m.words, runningSumOf m.cell.value⟩) r
      (cells out)) :
    Honest P cs T inst env (sinsemillaCommit P Q R ms r) fun x => KnownPoint cs T x.1 ∧ x.1.value = out ∧
      ∀ j m, ms[j]? = some m → ∀ i < m.words, Known cs T (x.2 j i) ∧
        (x.2 j i).value = runningSumOf m.cell.value i := by
  have hval : (sinsemillaCommitOf P Q R (ms.map fun m => ⟨m.words, runningSumOf m.cell.value⟩) r).getD 0
      = out := by
    obtain ⟨A, hA, hx⟩ := returns_true h.2
    rw [sinsemillaCommitOf, hA, Option.getD_some]
    exact cells_inj (congrArg Prod.fst hx).symm (congrArg Prod.snd hx).symm
  intro s hs
  have hw := (wrote_sinsemillaCommit P Q R ms r).1 hs
  rw [run_sinsemillaCommit]
  have hcv : commitValue P Q R ms r = out := hval
  rw [hcv] at hw ⊢
  have hz : ∀ j m, ms[j]? = some m → ∀ i < m.words,
      T (zCell (env.plan.gadget s.gadgets) j m i) = runningSumOf m.cell.value i := by
    intro j m hm i hi
    unfold zCell
    split_ifs with h0
    · rw [h0, runningSumOf_zero]; exact (hk m (List.mem_of_getElem? hm)).1
    · exact hw.2 (m, j) (List.mem_zipIdx_iff_getElem?.2 hm) i h0 hi
  have hcom : SinsemillaCommit P true Q R
      (ms.zipIdx.map fun m => pieceSum T (env.plan.gadget s.gadgets) m.2 m.1) r
      (T (env.plan.gadget s.gadgets 0), T (env.plan.gadget s.gadgets 1)) := by
    have he : (T (env.plan.gadget s.gadgets 0), T (env.plan.gadget s.gadgets 1)) = cells out :=
      Prod.ext hw.1.1 hw.1.2
    rw [he]
    refine sinsemillaCommit_congr ?_ h
    rw [List.forall₂_iff_get]
    refine ⟨by simp, fun j h1 h2 => ?_⟩
    simp only [List.length_map, List.length_zipIdx] at h1 h2
    simp only [List.get_eq_getElem, List.getElem_map, List.getElem_zipIdx, Nat.zero_add, pieceSum, pieceAt]
    refine ⟨trivial, fun i hi => ?_⟩
    split_ifs with h3
    · exact hz j _ (List.getElem?_eq_getElem h1) i h3
    · have e : i = ms[j].words := by omega
      have := (h.1 _ (List.mem_map.2 ⟨ms[j], List.getElem_mem h1, rfl⟩)).2
      dsimp only at this
      rw [e, this]
  have hsat : Sat cs T inst env (sinsemillaCommit P Q R ms r) s :=
    (sat_sinsemillaCommit P Q R ms r).2 ⟨r, hcom.1, returns_mono hcom.2⟩
  refine ⟨fun e he => ⟨hsat e he, ?_⟩, ⟨hw.1, hp _ _, hp _ _⟩, rfl, ?_⟩
  · cases e with
    | equal a b =>
      simp [sinsemillaCommit, gadget, bind, pure] at he
    | «instance» a b =>
      simp [sinsemillaCommit, gadget, bind, pure] at he
    | gadget g =>
      simp [sinsemillaCommit, gadget, bind, pure] at he
      rw [he]
      refine ⟨trivial, rfl, ⟨b, hb⟩, r, ?_⟩
      rw [List.map_map]
      exact hcom
    | _ => exact ⟨trivial, trivial⟩
  · intro j m hm i hi
    simp only [hm]
    refine ⟨⟨hz j m hm i hi, ?_⟩, trivial⟩
    unfold zCell
    split_ifs with h0
    · exact (hk m (List.mem_of_getElem? hm)).2
    · exact hp _ _

theorem hon_merkleRoot {pos : ℕ} {path : List Fp} {leaf : Assigned} {encs : List (ℕ × ℕ)}
    {root : Fp} (hl : Known cs T leaf) (h1 : merkleRootOf P pos 0 path leaf.value = some (encs, root))
    (h2 : MerkleRoot P true pos 0 path encs leaf.value root) (h3 : path.length = 32)
    (h4 : pos < 2 ^ 32) :
    Honest P cs T inst env (merkleRoot P pos path leaf) fun x =>
      Known cs T x.root ∧ x.root.value = root := by
  have hv : ((merkleRootOf P pos 0 path leaf.value).map Prod.snd).getD 0 = root := by rw [h1]; rfl
  unfold merkleRoot
  rw [hv]
  refine hon_bind (Q := fun cells => Known cs T ⟨cells 0, root⟩)
    (hon_gadget hp fun cells hv hc => ?_) fun cells hk => hon_pure ⟨hk, rfl⟩
  have h0 := hv _ List.mem_cons_self
  dsimp only at h0
  have hs : ∀ l < 32, T (cells (1 + l)) = path.getD l 0 ∧
      T (cells (33 + l)) = if pos.testBit l then 1 else 0 := by
    intro l hl
    have hm : ∀ x ∈ [(1 + l, path.getD l 0), (33 + l, if pos.testBit l then (1 : Fp) else 0)],
        T (cells x.1) = x.2 := fun x hx =>
      hv x (List.mem_cons_of_mem _ (List.mem_flatMap.2 ⟨l, List.mem_range.2 hl, hx⟩))
    exact ⟨hm _ List.mem_cons_self, hm _ (List.mem_cons_of_mem _ List.mem_cons_self)⟩
  have hpath : ((List.range 32).map fun l => T (cells (1 + l))) = path := by
    refine List.ext_getElem (by simp [h3]) fun l h5 h6 => ?_
    rw [List.getElem_map, List.getElem_range, (hs l (by rw [← h3]; exact h6)).1, List.getD_eq_getElem _ _ h6]
  refine ⟨⟨pos, encs, h4, fun l hl => (hs l hl).2, ?_⟩, ⟨rfl, pos, encs, fun l hl => (hs l hl).2, ?_⟩, h0, hc 0⟩
  · rw [hl.1, h0, hpath]
    exact merkleRoot_mono path h2
  · rw [hl.1, h0, hpath]
    exact h1

end gadgets

theorem hon_assignFreeAdvice {c : Column} {v : Fp} (hc : c ∈ cs.equality) :
    Honest P cs T inst env (assignFreeAdvice c v) fun x => Known cs T x ∧ x.value = v := by
  refine hon_region fun r => hon_mono hon_assignAdvice ?_
  rintro x ⟨rfl, h⟩
  exact ⟨⟨h, hc⟩, rfl⟩

end Layout

end Orchard
