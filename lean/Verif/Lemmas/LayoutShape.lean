import Verif.Lemmas.LayoutCircuit

/-!
# Lemmas on the shape of the table: it does not depend on the witness
-/

namespace Orchard

namespace Layout

open Halo2

variable {α β : Type}

/-- An event without the value that the prover writes. -/
def Event.shape : Event → Event
  | .write c _ => .write c 0
  | e => e

/-- Two runs with the same floor plan, for different witnesses and instances, agree on the shape. -/
def Same (m m' : LayoutM α) (R : α → α → Prop) : Prop :=
  ∀ (plan : Plan) (i i' : ℕ → Fp) (s : Counters),
    (m ⟨plan, i⟩ s).1.2 = (m' ⟨plan, i'⟩ s).1.2 ∧
    R (m ⟨plan, i⟩ s).1.1 (m' ⟨plan, i'⟩ s).1.1 ∧
    (m ⟨plan, i⟩ s).2.map Event.shape = (m' ⟨plan, i'⟩ s).2.map Event.shape

theorem same_pure {x y : α} {R : α → α → Prop} (h : R x y) : Same (pure x) (pure y) R :=
  fun _ _ _ _ => ⟨rfl, h, rfl⟩

theorem same_bind {m m' : LayoutM α} {f f' : α → LayoutM β} {R : α → α → Prop} {S : β → β → Prop}
    (h : Same m m' R) (hf : ∀ x y, R x y → Same (f x) (f' y) S) :
    Same (m >>= f) (m' >>= f') S := by
  intro plan i i' s
  obtain ⟨h1, h2, h3⟩ := h plan i i' s
  obtain ⟨k1, k2, k3⟩ := hf _ _ h2 plan i i' (m ⟨plan, i⟩ s).1.2
  rw [h1] at k2 k3
  refine ⟨?_, ?_, ?_⟩
  · change (f _ _ (m ⟨plan, i⟩ s).1.2).1.2 = _
    rw [k1, h1]; rfl
  · change S (f _ _ (m ⟨plan, i⟩ s).1.2).1.1 _
    rw [h1]; exact k2
  · change ((m ⟨plan, i⟩ s).2 ++ (f _ _ (m ⟨plan, i⟩ s).1.2).2).map _ = (_ ++ _ : List Event).map _
    rw [List.map_append, List.map_append, h3, h1, k3]

theorem same_region {f f' : Region → LayoutM α} {R : α → α → Prop} (h : ∀ r, Same (f r) (f' r) R) :
    Same (assignRegion f) (assignRegion f') R :=
  fun plan i i' s => h (plan.start s.regions) plan i i' { s with regions := s.regions + 1 }

theorem same_mono {m m' : LayoutM α} {R S : α → α → Prop} (h : Same m m' R)
    (hS : ∀ x y, R x y → S x y) : Same m m' S :=
  fun plan i i' s => ⟨(h plan i i' s).1, hS _ _ (h plan i i' s).2.1, (h plan i i' s).2.2⟩

theorem same_emit {l l' : List Event} (h : l.map Event.shape = l'.map Event.shape) :
    Same (emit l) (emit l') fun _ _ => True := fun _ _ _ _ => ⟨rfl, trivial, h⟩

theorem same_enable {q : Selector} {r : Region} {o : ℕ} :
    Same (enable q r o) (enable q r o) fun _ _ => True := same_emit rfl

theorem same_assignAdvice {r : Region} {c : Column} {o : ℕ} {v v' : Fp} :
    Same (assignAdvice r c o v) (assignAdvice r c o v') fun x y => x.cell = y.cell :=
  same_bind (same_emit rfl) fun _ _ _ => same_pure rfl

theorem same_copyAdvice {r : Region} {c : Column} {o : ℕ} {a a' : Assigned} (h : a.cell = a'.cell) :
    Same (copyAdvice a r c o) (copyAdvice a' r c o) fun x y => x.cell = y.cell :=
  same_bind (same_emit (by simp [Event.shape, h])) fun _ _ _ => same_pure rfl

theorem same_assignAdviceFromInstance {r : Region} {c : Column} {o row : ℕ} :
    Same (assignAdviceFromInstance row r c o) (assignAdviceFromInstance row r c o)
      fun x y => x.cell = y.cell := fun _ _ _ _ => ⟨rfl, rfl, rfl⟩

theorem same_constrainInstance {c c' : Cell} {row : ℕ} (h : c = c') :
    Same (constrainInstance c row) (constrainInstance c' row) fun _ _ => True :=
  same_emit (by rw [h])

theorem same_constrainEqualPoints {a b a' b' : PointCells} (h1 : a.x = a'.x) (h2 : a.y = a'.y)
    (h3 : b.x = b'.x) (h4 : b.y = b'.y) :
    Same (constrainEqualPoints a b) (constrainEqualPoints a' b') fun _ _ => True :=
  same_bind (same_emit (by rw [h1, h3])) fun _ _ _ => same_emit (by rw [h2, h4])

theorem same_gadget {v v' : List (ℕ × Fp)} {k k' : (ℕ → Cell) → GadgetCall}
    (hv : v.map Prod.fst = v'.map Prod.fst) (hk : ∀ cells, k cells = k' cells) :
    Same (gadget v k) (gadget v' k') fun x y => x = y := by
  intro plan i i' s
  refine ⟨rfl, rfl, ?_⟩
  change List.map _ (v.map _ ++ [_]) = List.map _ (v'.map _ ++ [_])
  rw [List.map_append, List.map_append, List.map_map, List.map_map]
  congr 1
  · have e : ∀ l : List (ℕ × Fp), l.map (Event.shape ∘ fun x =>
        Event.write (plan.gadget s.gadgets x.1) x.2) =
        (l.map Prod.fst).map fun n => Event.write (plan.gadget s.gadgets n) 0 := by
      intro l
      rw [List.map_map]
      rfl
    exact (e v).trans ((congrArg _ hv).trans (e v').symm)
  · change [Event.gadget _] = [Event.gadget _]
    rw [hk]

theorem same_pointGadget {A A' : Point} {k k' : Cell × Cell → GadgetCall} (hk : ∀ c, k c = k' c) :
    Same (pointGadget A k) (pointGadget A' k') fun a b => a.x = b.x ∧ a.y = b.y := by
  refine same_bind (same_gadget rfl fun cells => hk _) fun x y h => ?_
  subst h
  exact same_pure ⟨rfl, rfl⟩

theorem same_witnessPoint {A A' : Point} :
    Same (witnessPoint A) (witnessPoint A') fun a b => a.x = b.x ∧ a.y = b.y :=
  same_pointGadget fun _ => rfl

theorem same_witnessNonIdentity {A A' : Point} :
    Same (witnessNonIdentity A) (witnessNonIdentity A') fun a b => a.x = b.x ∧ a.y = b.y :=
  same_pointGadget fun _ => rfl

theorem same_addPoints {a b a' b' : PointCells} (h1 : a.x = a'.x) (h2 : a.y = a'.y)
    (h3 : b.x = b'.x) (h4 : b.y = b'.y) :
    Same (addPoints a b) (addPoints a' b') fun a b => a.x = b.x ∧ a.y = b.y := by
  refine same_pointGadget fun _ => ?_
  simp only [PointCells.pair, h1, h2, h3, h4]

theorem same_mulFixed {B : Point} {r r' : Fq} :
    Same (mulFixed B r) (mulFixed B r') fun a b => a.x = b.x ∧ a.y = b.y :=
  same_pointGadget fun _ => rfl

theorem same_mulFixedShort {B : Point} {m m' g g' : Assigned} (h1 : m.cell = m'.cell)
    (h2 : g.cell = g'.cell) :
    Same (mulFixedShort B m g) (mulFixedShort B m' g') fun a b => a.x = b.x ∧ a.y = b.y := by
  refine same_pointGadget fun _ => ?_
  simp only [PointCells.pair, h1, h2]

theorem same_mulFixedBase {B : Point} {m m' : Assigned} (h1 : m.cell = m'.cell) :
    Same (mulFixedBase B m) (mulFixedBase B m') fun a b => a.x = b.x ∧ a.y = b.y := by
  refine same_pointGadget fun _ => ?_
  simp only [PointCells.pair, h1]

theorem same_mulVar {b b' : PointCells} {m m' : Assigned} (h1 : b.x = b'.x) (h2 : b.y = b'.y)
    (h3 : m.cell = m'.cell) :
    Same (mulVar b m) (mulVar b' m') fun a b => a.x = b.x ∧ a.y = b.y := by
  refine same_pointGadget fun _ => ?_
  simp only [PointCells.pair, h1, h2, h3]

theorem same_poseidonHash {P : Prims} {a b a' b' : Assigned} (h1 : a.cell = a'.cell)
    (h2 : b.cell = b'.cell) :
    Same (poseidonHash P a b) (poseidonHash P a' b') fun x y => x.cell = y.cell := by
  refine same_bind (same_gadget rfl fun cells => ?_) fun x y h => same_pure (by rw [h])
  simp only [h1, h2]

theorem same_witnessShort {v v' : Fp} {a b : ℕ} :
    Same (witnessShort v a b) (witnessShort v' a b) fun x y => x.cell = y.cell :=
  same_bind (same_gadget rfl fun _ => rfl) fun x y h => same_pure (by rw [h])

theorem same_witnessCheck {v v' : Fp} {n : ℕ} {b : Bool} :
    Same (witnessCheck v n b) (witnessCheck v' n b) fun x y => ∀ i, (x i).cell = (y i).cell := by
  refine same_bind (same_gadget ?_ fun _ => rfl) fun x y h => same_pure (by intro i; rw [h])
  rw [List.map_map, List.map_map]
  rfl

/-- Message pieces of the same length in the same cell. -/
def SamePiece (x y : MessagePiece) : Prop := x.words = y.words ∧ x.cell.cell = y.cell.cell

theorem same_messagePiece {l l' : List (ℕ × Fp)} (h : l.map Prod.fst = l'.map Prod.fst) :
    Same (messagePiece l) (messagePiece l') SamePiece :=
  same_bind (same_gadget rfl fun _ => rfl) fun x y e => same_pure ⟨by rw [h], by rw [e]⟩

theorem same_sinsemillaCommit {P : Prims} {Q R : Point} {ms ms' : List MessagePiece} {r r' : Fq}
    (h : List.Forall₂ SamePiece ms ms') :
    Same (sinsemillaCommit P Q R ms r) (sinsemillaCommit P Q R ms' r')
      fun x y => (x.1.x = y.1.x ∧ x.1.y = y.1.y) ∧ ∀ j i, (x.2 j i).cell = (y.2 j i).cell := by
  have hz : List.Forall₂ (fun a b => SamePiece a.1 b.1 ∧ a.2 = b.2) ms.zipIdx ms'.zipIdx := by
    generalize 0 = n
    induction h generalizing n with
    | nil => exact .nil
    | cons h1 _ ih => exact .cons ⟨h1, rfl⟩ (ih _)
  refine same_bind (same_gadget ?_ fun cells => ?_) fun x y e => same_pure ?_
  · rw [List.map_append, List.map_append]
    congr 1
    generalize ms.zipIdx = l, ms'.zipIdx = l' at hz
    induction hz with
    | nil => rfl
    | cons h1 _ ih =>
      rw [List.flatMap_cons, List.flatMap_cons, List.map_append, List.map_append, ih]
      congr 1
      rw [List.map_map, List.map_map, h1.1.1, h1.2]
      rfl
  · have e : (ms.zipIdx.map fun m => (m.1.words, zCell cells m.2 m.1)) =
        ms'.zipIdx.map fun m => (m.1.words, zCell cells m.2 m.1) := by
      generalize ms.zipIdx = l, ms'.zipIdx = l' at hz
      induction hz with
      | nil => rfl
      | @cons x y _ _ h1 _ ih =>
        rw [List.map_cons, List.map_cons, ih]
        have : zCell cells x.2 x.1 = zCell cells y.2 y.1 := funext fun i => by
          simp only [zCell, h1.1.2, h1.2]
        rw [this, h1.1.1]
    rw [e]
  · subst e
    refine ⟨⟨rfl, rfl⟩, fun j i => ?_⟩
    have : Option.Rel SamePiece ms[j]? ms'[j]? := by
      clear hz
      induction h generalizing j with
      | nil => exact .none
      | cons h1 _ ih =>
        cases j with
        | zero => exact .some h1
        | succ j => exact ih j
    dsimp only
    generalize ms[j]? = o, ms'[j]? = o' at this
    cases this with
    | none => rfl
    | some h1 => simp only [zCell, h1.2]

theorem same_merkleRoot {P : Prims} {pos pos' : ℕ} {path path' : List Fp} {a a' : Assigned}
    (h : a.cell = a'.cell) :
    Same (merkleRoot P pos path a) (merkleRoot P pos' path' a') fun x y =>
      x.root.cell = y.root.cell ∧ x.sibling = y.sibling ∧ x.bit = y.bit := by
  refine same_bind (same_gadget rfl fun cells => ?_) fun x y e => same_pure (by rw [e]; exact ⟨rfl, rfl, rfl⟩)
  simp only [h]

theorem same_assignFreeAdvice {c : Column} {v v' : Fp} :
    Same (assignFreeAdvice c v) (assignFreeAdvice c v') fun x y => x.cell = y.cell :=
  same_region fun _ => same_assignAdvice

/-- Steps inside a region. -/
macro "same_steps" : tactic => `(tactic|
  repeat' first
    | exact same_enable
    | exact same_pure (by assumption)
    | exact same_mono (same_copyAdvice (by assumption)) fun _ _ _ => trivial
    | exact same_assignAdvice
    | exact same_pure trivial
    | refine same_bind same_enable fun _ _ _ => ?_
    | refine same_bind same_assignAdvice fun _ _ _ => ?_
    | refine same_bind same_assignAdviceFromInstance fun _ _ _ => ?_
    | refine same_bind (same_copyAdvice (by assumption)) fun _ _ _ => ?_)

theorem same_add {cfg : AddConfig} {a b a' b' : Assigned} (h1 : a.cell = a'.cell)
    (h2 : b.cell = b'.cell) :
    Same (cfg.add a b) (cfg.add a' b') fun x y => x.cell = y.cell := by
  refine same_region fun r => ?_
  same_steps

/-! ### `commit_ivk.rs` -/

theorem same_assignGate {cfg : CommitIvkConfig} {k l : GateCells} (ha : k.a.cell = l.a.cell)
    (hb : k.b.cell = l.b.cell) (hc : k.c.cell = l.c.cell) (hd : k.d.cell = l.d.cell)
    (hak : k.ak.cell = l.ak.cell) (hnk : k.nk.cell = l.nk.cell) (hb0 : k.b0.cell = l.b0.cell)
    (hb2 : k.b2.cell = l.b2.cell) (hd0 : k.d0.cell = l.d0.cell)
    (h1 : k.z13a.cell = l.z13a.cell) (h2 : k.aPrime.cell = l.aPrime.cell)
    (h3 : k.z13aPrime.cell = l.z13aPrime.cell) (h4 : k.z13c.cell = l.z13c.cell)
    (h5 : k.b2cPrime.cell = l.b2cPrime.cell) (h6 : k.z14b2cPrime.cell = l.z14b2cPrime.cell) :
    Same (cfg.assignGate k) (cfg.assignGate l) fun _ _ => True := by
  refine same_region fun r => ?_
  same_steps

theorem same_check {v v' : Fp} {n : ℕ} {b : Bool} :
    Same (do let zs ← witnessCheck v n b; pure (zs 0, zs n))
      (do let zs ← witnessCheck v' n b; pure (zs 0, zs n))
      fun x y => x.1.cell = y.1.cell ∧ x.2.cell = y.2.cell :=
  same_bind same_witnessCheck fun _ _ h => same_pure ⟨h 0, h n⟩

theorem same_commitIvk {P : Prims} {cfg : CommitIvkConfig} {ak nk ak' nk' : Assigned} {r r' : Fq}
    (h1 : ak.cell = ak'.cell) (h2 : nk.cell = nk'.cell) :
    Same (commitIvk P cfg ak nk r) (commitIvk P cfg ak' nk' r') fun x y => x.cell = y.cell := by
  refine same_bind (same_messagePiece rfl) fun a a' ha => ?_
  refine same_bind same_witnessShort fun b0 b0' hb0 => ?_
  refine same_bind same_witnessShort fun b2 b2' hb2 => ?_
  refine same_bind (same_messagePiece rfl) fun b b' hb => ?_
  refine same_bind (same_messagePiece rfl) fun c c' hc => ?_
  refine same_bind same_witnessShort fun d0 d0' hd0 => ?_
  refine same_bind (same_messagePiece rfl) fun d d' hd => ?_
  refine same_bind (same_sinsemillaCommit (.cons ha (.cons hb (.cons hc (.cons hd .nil)))))
    fun x y ⟨hx, hz⟩ => ?_
  refine same_bind same_check fun _ _ h3 => ?_
  refine same_bind same_check fun _ _ h4 => ?_
  refine same_bind (same_assignGate ha.2 hb.2 hc.2 hd.2 h1 h2 hb0 hb2 hd0 (hz _ _) h3.1 h3.2 (hz _ _)
    h4.1 h4.2) fun _ _ _ => same_pure hx.1

/-! ### `note_commit.rs` -/

theorem same_yCanonicity {cfg : YCanonicity} {y y' : Assigned} {l l' : Fp} (h : y.cell = y'.cell) :
    Same (yCanonicity cfg y l) (yCanonicity cfg y' l') fun x y => x.cell = y.cell := by
  refine same_bind same_witnessShort fun _ _ _ => ?_
  refine same_bind same_witnessShort fun _ _ _ => ?_
  refine same_bind same_witnessCheck fun zs zs' hz => ?_
  refine same_bind same_check fun _ _ ⟨_, _⟩ => ?_
  refine same_region fun r => ?_
  have := hz 0
  have := hz 1
  have := hz 13
  same_steps

theorem same_noteCommit {P : Prims} {cfg : NoteCommitConfig} {gd pkd gd' pkd' : PointCells}
    {v rho psi v' rho' psi' : Assigned} {r r' : Fq} (hg1 : gd.x = gd'.x) (hg2 : gd.y = gd'.y)
    (hp1 : pkd.x = pkd'.x) (hp2 : pkd.y = pkd'.y) (hv : v.cell = v'.cell)
    (hrho : rho.cell = rho'.cell) (hpsi : psi.cell = psi'.cell) :
    Same (noteCommit P cfg gd pkd v rho psi r) (noteCommit P cfg gd' pkd' v' rho' psi' r')
      fun a b => a.x = b.x ∧ a.y = b.y := by
  have hgx : gd.xCell.cell = gd'.xCell.cell := hg1
  have hpx : pkd.xCell.cell = pkd'.xCell.cell := hp1
  refine same_bind (same_messagePiece rfl) fun a a' ⟨ha, ha'⟩ => ?_
  refine same_bind (R := fun x y => SamePiece x.1 y.1 ∧ x.2.1.cell = y.2.1.cell ∧
    x.2.2.2.2.cell = y.2.2.2.2.cell) ?_ fun b b' ⟨⟨hb, hb'⟩, hb0, hb3⟩ => ?_
  · refine same_bind same_witnessShort fun _ _ _ => ?_
    refine same_bind same_witnessShort fun _ _ _ => ?_
    refine same_bind (same_messagePiece rfl) fun _ _ _ => ?_
    exact same_pure ⟨by assumption, by assumption, by assumption⟩
  refine same_bind (same_messagePiece rfl) fun c c' ⟨hc, hc'⟩ => ?_
  refine same_bind (R := fun x y => SamePiece x.1 y.1 ∧ x.2.2.2.cell = y.2.2.2.cell) ?_
    fun d d' ⟨⟨hd, hd'⟩, hd2⟩ => ?_
  · refine same_bind same_witnessShort fun _ _ _ => ?_
    refine same_bind (same_messagePiece rfl) fun _ _ _ => ?_
    exact same_pure ⟨by assumption, by assumption⟩
  refine same_bind (R := fun x y => SamePiece x.1 y.1 ∧ x.2.1.cell = y.2.1.cell ∧
    x.2.2.cell = y.2.2.cell) ?_ fun e e' ⟨⟨he, he'⟩, he0, he1⟩ => ?_
  · refine same_bind same_witnessShort fun _ _ _ => ?_
    refine same_bind same_witnessShort fun _ _ _ => ?_
    refine same_bind (same_messagePiece rfl) fun _ _ _ => ?_
    exact same_pure ⟨by assumption, by assumption, by assumption⟩
  refine same_bind (same_messagePiece rfl) fun f f' ⟨hf, hf'⟩ => ?_
  refine same_bind (R := fun x y => SamePiece x.1 y.1 ∧ x.2.2.cell = y.2.2.cell) ?_
    fun g g' ⟨⟨hg, hg'⟩, hg1⟩ => ?_
  · refine same_bind same_witnessShort fun _ _ _ => ?_
    refine same_bind (same_messagePiece rfl) fun _ _ _ => ?_
    exact same_pure ⟨by assumption, by assumption⟩
  refine same_bind (R := fun x y => SamePiece x.1 y.1 ∧ x.2.1.cell = y.2.1.cell) ?_
    fun h h' ⟨⟨hh, hh'⟩, hh0⟩ => ?_
  · refine same_bind same_witnessShort fun _ _ _ => ?_
    refine same_bind (same_messagePiece rfl) fun _ _ _ => ?_
    exact same_pure ⟨by assumption, by assumption⟩
  refine same_bind (same_yCanonicity hg2) fun b2 b2' hb2 => ?_
  refine same_bind (same_yCanonicity hp2) fun d1 d1' hd1 => ?_
  refine same_bind (same_sinsemillaCommit (.cons ⟨ha, ha'⟩ (.cons ⟨hb, hb'⟩ (.cons ⟨hc, hc'⟩
    (.cons ⟨hd, hd'⟩ (.cons ⟨he, he'⟩ (.cons ⟨hf, hf'⟩ (.cons ⟨hg, hg'⟩ (.cons ⟨hh, hh'⟩ .nil)))))))))
    fun x y ⟨hx, hz⟩ => ?_
  have hz1 := hz 0 13
  have hz2 := hz 2 13
  have hz3 := hz 3 1
  have hz4 := hz 5 13
  have hz5 := hz 6 1
  have hz6 := hz 6 13
  refine same_bind same_check fun _ _ ⟨_, _⟩ => ?_
  refine same_bind same_check fun _ _ ⟨_, _⟩ => ?_
  refine same_bind same_check fun _ _ ⟨_, _⟩ => ?_
  refine same_bind same_check fun _ _ ⟨_, _⟩ => ?_
  refine same_bind (R := fun x y => x.cell = y.cell) (same_region fun r => ?_) fun b1 b1' hb1 => ?_
  · same_steps
  refine same_bind (R := fun x y => x.cell = y.cell) (same_region fun r => ?_) fun d0 d0' hd0 => ?_
  · same_steps
  refine same_bind (R := fun _ _ => True) (same_region fun r => ?_) fun _ _ _ => ?_
  · same_steps
  refine same_bind (R := fun x y => x.cell = y.cell) (same_region fun r => ?_) fun g0 g0' hg0 => ?_
  · same_steps
  refine same_bind (R := fun x y => x.cell = y.cell) (same_region fun r => ?_) fun h1 h1' hh1 => ?_
  · same_steps
  refine same_bind (R := fun _ _ => True) (same_region fun r => ?_) fun _ _ _ => ?_
  · same_steps
  refine same_bind (R := fun _ _ => True) (same_region fun r => ?_) fun _ _ _ => ?_
  · same_steps
  refine same_bind (R := fun _ _ => True) (same_region fun r => ?_) fun _ _ _ => ?_
  · same_steps
  refine same_bind (R := fun _ _ => True) (same_region fun r => ?_) fun _ _ _ => ?_
  · same_steps
  refine same_bind (R := fun _ _ => True) (same_region fun r => ?_) fun _ _ _ => ?_
  · same_steps
  exact same_pure hx

/-! ### `circuit.rs` -/

theorem same_synthesize {P : Prims} {w w' : Circuit} {cfg : Config} :
    Same (synthesize P w cfg) (synthesize P w' cfg) Eq := by
  refine same_bind same_assignFreeAdvice fun psi psi' hpsi => ?_
  refine same_bind same_assignFreeAdvice fun rho rho' hrho => ?_
  refine same_bind same_witnessPoint fun cm cm' ⟨hcx, hcy⟩ => ?_
  refine same_bind same_witnessNonIdentity fun gd gd' ⟨hgx, hgy⟩ => ?_
  refine same_bind same_witnessNonIdentity fun ak ak' ⟨hax, hay⟩ => ?_
  refine same_bind same_assignFreeAdvice fun nk nk' hnk => ?_
  refine same_bind same_assignFreeAdvice fun vo vo' hvo => ?_
  refine same_bind same_assignFreeAdvice fun vn vn' hvn => ?_
  refine same_bind (same_merkleRoot hcx) fun mk mk' ⟨hroot, hsib, hbit⟩ => ?_
  refine same_bind same_assignFreeAdvice fun m m' hm => ?_
  refine same_bind same_assignFreeAdvice fun g g' hg => ?_
  refine same_bind (R := fun a b => a.x = b.x ∧ a.y = b.y) ?_ fun cv cv' ⟨hvx, hvy⟩ => ?_
  · refine same_bind (same_mulFixedShort hm hg) fun _ _ ⟨_, _⟩ => ?_
    refine same_bind same_mulFixed fun _ _ ⟨_, _⟩ => ?_
    exact same_addPoints (by assumption) (by assumption) (by assumption) (by assumption)
  refine same_bind (same_constrainInstance hvx) fun _ _ _ => ?_
  refine same_bind (same_constrainInstance hvy) fun _ _ _ => ?_
  refine same_bind (R := fun x y => x.cell = y.cell) ?_ fun nf nf' hnf => ?_
  · refine same_bind (same_poseidonHash hnk hrho) fun _ _ h1 => ?_
    refine same_bind (same_add h1 hpsi) fun _ _ h2 => ?_
    refine same_bind (same_mulFixedBase h2) fun _ _ ⟨h3, h4⟩ => ?_
    exact same_bind (same_addPoints hcx hcy h3 h4) fun _ _ ⟨h, _⟩ => same_pure h
  refine same_bind (same_constrainInstance hnf) fun _ _ _ => ?_
  refine same_bind same_mulFixed fun _ _ ⟨h1, h2⟩ => ?_
  refine same_bind (same_addPoints h1 h2 hax hay) fun rk rk' ⟨hrx, hry⟩ => ?_
  refine same_bind (same_constrainInstance hrx) fun _ _ _ => ?_
  refine same_bind (same_constrainInstance hry) fun _ _ _ => ?_
  refine same_bind (same_commitIvk hax hnk) fun ivk ivk' hivk => ?_
  refine same_bind (same_mulVar hgx hgy hivk) fun _ _ ⟨h1, h2⟩ => ?_
  refine same_bind same_witnessNonIdentity fun pkd pkd' ⟨hpx, hpy⟩ => ?_
  refine same_bind (same_constrainEqualPoints h1 h2 hpx hpy) fun _ _ _ => ?_
  refine same_bind (same_noteCommit hgx hgy hpx hpy hvo hrho hpsi) fun _ _ ⟨h1, h2⟩ => ?_
  refine same_bind (same_constrainEqualPoints h1 h2 hcx hcy) fun _ _ _ => ?_
  refine same_bind same_witnessNonIdentity fun _ _ ⟨hgnx, hgny⟩ => ?_
  refine same_bind same_witnessNonIdentity fun _ _ ⟨hpnx, hpny⟩ => ?_
  refine same_bind same_assignFreeAdvice fun _ _ hpsin => ?_
  refine same_bind (same_noteCommit hgnx hgny hpnx hpny hvn hnf hpsin) fun _ _ ⟨h1, _⟩ => ?_
  refine same_bind (same_constrainInstance h1) fun _ _ _ => ?_
  refine same_bind (R := fun _ _ => True) (same_region fun r => ?_) fun _ _ _ => ?_
  · same_steps
  refine same_pure ?_
  simp only [*]

end Layout

end Orchard
