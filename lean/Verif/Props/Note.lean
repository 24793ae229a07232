import Verif.Examples.Note
import Verif.Props.Keys

/-!
# Properties C38–C40 (and the nullifier part of C36)
-/

namespace Orchard

/-! ### C38: notes always have a commitment -/

/-- **C38.** `from_parts` succeeds iff the note commitment of the protocol specification is defined
for the parts, and then returns a note with exactly these parts. -/
theorem C38_from_parts (P : Prims) (a : Address) (v : NoteValue) (rho : Fp) (s : Bytes 32) (n : Note) :
    Note.fromParts P a v rho s = some n ↔
      (n.recipient = a ∧ n.value = v ∧ n.rho = rho ∧ n.rseed = s) ∧
      ∃ cm, Spec.noteCommitOf P a.d a.pkd v.inner.toNat rho s = some cm := by
  rw [fromParts_eq]
  cases n
  simp

/-- **C38.** `Note::new` returns a note with the given recipient, value and `rho`, whose seed is the
first random draw having a non-zero ephemeral secret and a defined commitment. -/
theorem C38_new (P : Prims) (a : Address) (v : NoteValue) (rho : Fp) (n : Note)
    (draws rest : List (Bytes 32)) : Note.new P a v rho draws = some (n, rest) ↔
      ∃ pre s, draws = pre ++ s :: rest ∧ n = ⟨a, v, rho, s⟩ ∧
        (Spec.esk P s rho ≠ 0 ∧ ∃ cm, Spec.noteCommitOf P a.d a.pkd v.inner.toNat rho s = some cm) ∧
        ∀ b ∈ pre, ¬ (Spec.esk P b rho ≠ 0 ∧
          ∃ cm, Spec.noteCommitOf P a.d a.pkd v.inner.toNat rho b = some cm) :=
  new_eq_some P a v rho n draws rest

/-- Notes obtainable through the constructors (decryption builds notes with `from_parts`, see
`Verif/Props/NoteEncryption.lean`). -/
inductive Note.Obtainable (P : Prims) : Note → Prop
  | fromParts {a v rho s n} (h : Note.fromParts P a v rho s = some n) : Note.Obtainable P n
  | new {a v rho draws n rest} (h : Note.new P a v rho draws = some (n, rest)) : Note.Obtainable P n
  | dummy {skDraws rho rp seedDraws sk fvk n}
      (h : Note.dummy P skDraws rho rp seedDraws = .ret (some (sk, fvk, n))) : Note.Obtainable P n

/-- What `Note::dummy` returns. -/
theorem dummy_eq_ret {P : Prims} {skDraws : List (Bytes 32)} {rho : Option Fp} {rp : Point}
    {seedDraws : List (Bytes 32)} {sk : SpendingKey} {fvk : FullViewingKey} {n : Note}
    (h : Note.dummy P skDraws rho rp seedDraws = .ret (some (sk, fvk, n))) :
    (∃ rest, SpendingKey.random P skDraws = .ret (some (sk, rest))) ∧
      FullViewingKey.ofSk P sk = .ret fvk ∧
      fvk.addressAt P (Bytes.ofNat 11 0) .external = .ret n.recipient ∧
      ∃ rest, Note.new P n.recipient NoteValue.zero (rho.getD (nullifierDummy rp)) seedDraws =
        some (n, rest) := by
  unfold Note.dummy at h
  rw [Outcome.bind_eq_ret] at h
  obtain ⟨x, h1, h⟩ := h
  cases x with
  | none => simp at h
  | some x =>
    obtain ⟨sk', rest⟩ := x
    simp only at h
    rw [Outcome.bind_eq_ret] at h
    obtain ⟨fvk', h2, h⟩ := h
    rw [Outcome.bind_eq_ret] at h
    obtain ⟨a, h3, h⟩ := h
    cases hn : Note.new P a NoteValue.zero (rho.getD (nullifierDummy rp)) seedDraws with
    | none => rw [hn] at h; simp at h
    | some y =>
      obtain ⟨n', rest'⟩ := y
      rw [hn] at h
      simp only [Outcome.pure_eq, Outcome.ret.injEq, Option.some.injEq, Prod.mk.injEq] at h
      obtain ⟨rfl, rfl, rfl⟩ := h
      obtain ⟨pre, s, -, e, -⟩ := (new_eq_some ..).1 hn
      have ea : n'.recipient = a := by rw [e]
      refine ⟨⟨rest, h1⟩, h2, by rw [ea]; exact h3, rest', by rw [ea]; exact hn⟩

/-- **C38.** For every obtainable note `commitment()` does not panic and returns the note commitment
of the protocol specification. -/
theorem C38_commitment_never_panics (P : Prims) (n : Note) (h : n.Obtainable P) :
    ∃ cm, n.commitment P = .ret cm ∧
      Spec.noteCommitOf P n.recipient.d n.recipient.pkd n.value.inner.toNat n.rho n.rseed = some cm := by
  have key : ∀ cm, Spec.noteCommitOf P n.recipient.d n.recipient.pkd n.value.inner.toNat n.rho
      n.rseed = some cm → ∃ cm, n.commitment P = .ret cm ∧
      Spec.noteCommitOf P n.recipient.d n.recipient.pkd n.value.inner.toNat n.rho n.rseed = some cm :=
    fun cm hcm => ⟨cm, commitment_eq_ret.2 hcm, hcm⟩
  have hnew : ∀ {a v rho draws rest}, Note.new P a v rho draws = some (n, rest) →
      ∃ cm, Spec.noteCommitOf P n.recipient.d n.recipient.pkd n.value.inner.toNat n.rho n.rseed =
        some cm := by
    intro a v rho draws rest h
    obtain ⟨pre, s, -, rfl, ⟨-, hcm⟩, -⟩ := (new_eq_some ..).1 h
    exact hcm
  cases h with
  | fromParts h =>
    obtain ⟨rfl, cm, hcm⟩ := (fromParts_eq ..).1 h
    exact key cm hcm
  | new h =>
    obtain ⟨cm, hcm⟩ := hnew h
    exact key cm hcm
  | dummy h =>
    obtain ⟨-, -, -, rest, h⟩ := dummy_eq_ret h
    obtain ⟨cm, hcm⟩ := hnew h
    exact key cm hcm

/-- **C38.** A dummy note has value zero, the requested `rho` (or the nullifier of the random
point), and is addressed to the external address with index zero of the returned keys. -/
theorem C38_dummy (P : Prims) (skDraws : List (Bytes 32)) (rho : Option Fp) (rp : Point)
    (seedDraws : List (Bytes 32)) (sk : SpendingKey) (fvk : FullViewingKey) (n : Note)
    (h : Note.dummy P skDraws rho rp seedDraws = .ret (some (sk, fvk, n))) :
    n.value.inner = 0 ∧ n.rho = rho.getD (extractP rp) ∧ FullViewingKey.ofSk P sk = .ret fvk ∧
      fvk.addressAt P (Bytes.ofNat 11 0) .external = .ret n.recipient ∧ sk.bytes ∈ skDraws ∧
      n.rseed ∈ seedDraws := by
  obtain ⟨⟨rest', h1⟩, h2, h3, rest, h4⟩ := dummy_eq_ret h
  obtain ⟨pre, s, hd, hn, -⟩ := (new_eq_some ..).1 h4
  refine ⟨by rw [hn]; rfl, by rw [hn]; rfl, h2, h3, ?_, by rw [hd, hn]; simp⟩
  clear h h4 hd
  induction skDraws with
  | nil => simp [SpendingKey.random] at h1
  | cons b t ih =>
    simp only [SpendingKey.random] at h1
    rw [Outcome.bind_eq_ret] at h1
    obtain ⟨x, hx, h1⟩ := h1
    cases x with
    | none => exact List.mem_cons_of_mem _ (ih h1)
    | some sk' =>
      simp only [Outcome.pure_eq, Outcome.ret.injEq, Option.some.injEq, Prod.mk.injEq] at h1
      obtain ⟨rfl, -⟩ := h1
      have : sk'.bytes = b := by
        unfold SpendingKey.fromBytes at hx
        simp only at hx
        rw [Outcome.bind_eq_ret] at hx
        obtain ⟨_, -, hx⟩ := hx
        rw [Outcome.bind_eq_ret] at hx
        obtain ⟨_, -, hx⟩ := hx
        simp only [Outcome.pure_eq, Outcome.ret.injEq] at hx
        split_ifs at hx
        simp only [Option.some.injEq] at hx
        rw [← hx]
      rw [this]; exact List.mem_cons_self

/-- Under `P0` a note of value 5 is obtainable from `from_parts` and from `new`. -/
example : ∃ n : Note, n.value.inner = 5 ∧ n.Obtainable Examples.P0 ∧
    Note.new Examples.P0 n.recipient n.value n.rho [default, default] = some (n, [default]) := by
  obtain ⟨cm, -, h⟩ := Examples.noteCommit_P0
  refine ⟨⟨⟨default, genG⟩, ⟨5⟩, 7, default⟩, rfl, .fromParts ((C38_from_parts _ _ _ _ _ _).2
    ⟨⟨rfl, rfl, rfl, rfl⟩, cm, h _ _ _ _ _⟩), ?_⟩
  rw [C38_new]
  exact ⟨[], default, rfl, rfl, ⟨by rw [Examples.esk_P0]; exact one_ne_zero, cm, h _ _ _ _ _⟩, by simp⟩

/-! ### C39: note commitments are binding -/

/-- **C39.** The committed bit string has 1086 bits and determines all components. -/
theorem C39_message (gd pkd gd' pkd' : Point) (v v' : NoteValue) (rho psi rho' psi' : Fp) :
    (noteCommitMessage gd.toBytes pkd.toBytes v rho psi).length = 1086 ∧
    (noteCommitMessage gd.toBytes pkd.toBytes v rho psi =
        noteCommitMessage gd'.toBytes pkd'.toBytes v' rho' psi' →
      gd = gd' ∧ pkd = pkd' ∧ v = v' ∧ rho = rho' ∧ psi = psi') := by
  refine ⟨Spec.length_noteBits gd pkd v.inner.toNat rho psi, fun h => ?_⟩
  obtain ⟨h1, h2, h3, h4, h5⟩ := Spec.noteBits_inj (v := v.inner.toNat) (v' := v'.inner.toNat)
    v.inner.toNat_lt v'.inner.toNat_lt h
  refine ⟨h1, h2, ?_, h4, h5⟩
  cases v; cases v'
  simp only [NoteValue.mk.injEq]
  exact UInt64.toNat_inj.1 h3

/-- The bit string committed to by a note. -/
def Spec.bitsOf (P : Prims) (n : Note) : List Bool :=
  Spec.noteBits (diversifyHash P n.recipient.d) n.recipient.pkd n.value.inner.toNat n.rho
    (Spec.psi P n.rseed n.rho)

/-- Two notes agree on everything that is committed to. -/
def Spec.SameCommitted (P : Prims) (n n' : Note) : Prop :=
  diversifyHash P n.recipient.d = diversifyHash P n'.recipient.d ∧
    n.recipient.pkd = n'.recipient.pkd ∧ n.value = n'.value ∧ n.rho = n'.rho ∧
    Spec.psi P n.rseed n.rho = Spec.psi P n'.rseed n'.rho ∧
    Spec.rcm P n.rseed n.rho = Spec.rcm P n'.rseed n'.rho

theorem bitsOf_inj {P : Prims} {n n' : Note} (h : Spec.bitsOf P n = Spec.bitsOf P n')
    (hr : Spec.rcm P n.rseed n.rho = Spec.rcm P n'.rseed n'.rho) : Spec.SameCommitted P n n' := by
  obtain ⟨h1, h2, h3, h4, h5⟩ := Spec.noteBits_inj n.value.inner.toNat_lt n'.value.inner.toNat_lt h
  refine ⟨h1, h2, ?_, h4, h5, hr⟩
  cases hv : n.value; cases hv' : n'.value
  rw [hv, hv'] at h3
  simp only [NoteValue.mk.injEq]
  exact UInt64.toNat_inj.1 h3

theorem length_bitsOf (P : Prims) (n : Note) : (Spec.bitsOf P n).length = 1086 :=
  Spec.length_noteBits ..

theorem length_chunks_bitsOf (P : Prims) (n : Note) : (chunks (Spec.bitsOf P n)).length = 109 := by
  rw [length_chunks, length_bitsOf]

theorem commitment_hash {P : Prims} {n : Note} {cm : Point} (h : n.commitment P = .ret cm) :
    ∃ a, sinsemillaHashToPoint P Constants.qNoteCommit (Spec.bitsOf P n) = some a ∧
      cm = a + Spec.rcm P n.rseed n.rho • Constants.noteCommitR := by
  rw [commitment_eq_ret] at h
  unfold Spec.noteCommitOf Spec.noteCommit at h
  unfold Spec.bitsOf
  cases ha : sinsemillaHashToPoint P Constants.qNoteCommit _ with
  | none => rw [ha] at h; simp at h
  | some a =>
    rw [ha] at h
    simp only [Option.some.injEq] at h
    exact ⟨a, rfl, h.symm⟩

/-- **C39.** If two notes have equal extracted commitments then they agree on everything committed
to, or one of two explicit linear forms, computed from the two notes, is a non-trivial
discrete-logarithm relation between the generators of the commitment scheme. -/
theorem C39_binding (P : Prims) (n n' : Note) (cmx : Fp) (h : n.cmx P = .ret cmx)
    (h' : n'.cmx P = .ret cmx) :
    Spec.SameCommitted P n n' ∨
      ∃ L ∈ collisionCandidates (chunks (Spec.bitsOf P n)) (chunks (Spec.bitsOf P n'))
          (Spec.rcm P n.rseed n.rho) (Spec.rcm P n'.rseed n'.rho),
        L.IsRelation P Constants.qNoteCommit Constants.noteCommitR := by
  unfold Note.cmx at h h'
  rw [Outcome.bind_eq_ret] at h h'
  obtain ⟨cm, hc, h⟩ := h
  obtain ⟨cm', hc', h'⟩ := h'
  simp only [Outcome.pure_eq, Outcome.ret.injEq] at h h'
  obtain ⟨a, ha, e⟩ := commitment_hash hc
  obtain ⟨a', ha', e'⟩ := commitment_hash hc'
  by_cases hne : chunks (Spec.bitsOf P n) ≠ chunks (Spec.bitsOf P n') ∨
      Spec.rcm P n.rseed n.rho ≠ Spec.rcm P n'.rseed n'.rho
  · right
    refine relation_of_collision chunks_lt chunks_lt ?_ ?_ ha ha' ?_ hne
    · rw [length_chunks_bitsOf, length_chunks_bitsOf]
    · rw [length_chunks_bitsOf]; norm_num
    · rw [← e, ← e', ← extractP_eq_iff, h, h']
  · left
    push Not at hne
    exact bitsOf_inj (chunks_inj (by rw [length_bitsOf, length_bitsOf]) hne.1) hne.2

/-- **C39.** If the parts of a note have no commitment, one of explicitly listed linear forms is a
non-trivial discrete-logarithm relation: the failure branch of `from_parts` is infeasible to hit. -/
theorem C39_undefined (P : Prims) (n : Note) (h : n.commitmentInner P = none) :
    ∃ L ∈ botCandidates (chunks (Spec.bitsOf P n)),
      L.IsRelation P Constants.qNoteCommit Constants.noteCommitR := by
  refine relation_of_bot _ chunks_lt ?_
  rw [commitmentInner_eq] at h
  unfold Spec.noteCommitOf Spec.noteCommit at h
  unfold Spec.bitsOf
  change sinsemillaHashToPoint P Constants.qNoteCommit _ = none
  cases ha : sinsemillaHashToPoint P Constants.qNoteCommit _ with
  | none => rfl
  | some a => rw [ha] at h; simp at h

/-- Two different notes with the same extracted commitment exist under `P0` (whose Sinsemilla table
is constant), so the hypotheses of `C39_binding` are met and its second alternative occurs. -/
example : ∃ n n' : Note, n.value ≠ n'.value ∧ ∃ cmx, n.cmx Examples.P0 = .ret cmx ∧
    n'.cmx Examples.P0 = .ret cmx := by
  obtain ⟨cm, -, h⟩ := Examples.noteCommit_P0
  refine ⟨⟨⟨default, genG⟩, ⟨5⟩, 7, default⟩, ⟨⟨default, genG⟩, ⟨6⟩, 7, default⟩, by decide,
    extractP cm, ?_, ?_⟩
  all_goals
    unfold Note.cmx
    rw [commitment_eq_ret.2 (h _ _ _ _ _)]; rfl

/-! ### C71: equality of notes -/

/-- **C71.** Comparing notes that can be obtained never panics, and compares the extracted
commitments of the protocol specification. -/
theorem C71_note_eq (P : Prims) (n n' : Note) (h : n.Obtainable P) (h' : n'.Obtainable P) :
    ∃ cm cm' b,
      Spec.noteCommitOf P n.recipient.d n.recipient.pkd n.value.inner.toNat n.rho n.rseed = some cm ∧
      Spec.noteCommitOf P n'.recipient.d n'.recipient.pkd n'.value.inner.toNat n'.rho n'.rseed =
        some cm' ∧
      Note.rustEq P n n' = .ret b ∧ (b = true ↔ extractP cm = extractP cm') := by
  obtain ⟨cm, h1, h2⟩ := C38_commitment_never_panics P n h
  obtain ⟨cm', h1', h2'⟩ := C38_commitment_never_panics P n' h'
  refine ⟨cm, cm', decide (extractP cm = extractP cm'), h2, h2', ?_, decide_eq_true_iff⟩
  unfold Note.rustEq Note.cmx
  rw [h1, h1']; rfl

/-- **C71** (the laws of `Eq`). On notes that can be obtained, `==` is an equivalence relation. -/
theorem C71_equivalence (P : Prims) :
    (∀ n : Note, n.Obtainable P → Note.rustEq P n n = .ret true) ∧
    (∀ n n' : Note, Note.rustEq P n n' = .ret true → Note.rustEq P n' n = .ret true) ∧
    ∀ n n' n'' : Note, Note.rustEq P n n' = .ret true → Note.rustEq P n' n'' = .ret true →
      Note.rustEq P n n'' = .ret true := by
  have key : ∀ n n' : Note, Note.rustEq P n n' = .ret true ↔
      ∃ c, n.cmx P = .ret c ∧ n'.cmx P = .ret c := by
    intro n n'
    unfold Note.rustEq
    rw [Outcome.bind_eq_ret]
    constructor
    · rintro ⟨x, hx, h⟩
      rw [Outcome.bind_eq_ret] at h
      obtain ⟨y, hy, h⟩ := h
      rw [Outcome.pure_eq, Outcome.ret.injEq, decide_eq_true_iff] at h
      exact ⟨x, hx, h ▸ hy⟩
    · rintro ⟨c, h1, h2⟩
      refine ⟨c, h1, ?_⟩
      rw [h2, Outcome.ret_bind, decide_eq_true rfl]
      rfl
  refine ⟨fun n h => ?_, fun n n' h => ?_, fun n n' n'' h h' => ?_⟩
  · obtain ⟨cm, h1, -⟩ := C38_commitment_never_panics P n h
    exact (key n n).2 ⟨extractP cm, by unfold Note.cmx; rw [h1]; rfl, by unfold Note.cmx; rw [h1]; rfl⟩
  · obtain ⟨c, h1, h2⟩ := (key _ _).1 h
    exact (key _ _).2 ⟨c, h2, h1⟩
  · obtain ⟨c, h1, h2⟩ := (key _ _).1 h
    obtain ⟨c', h3, h4⟩ := (key _ _).1 h'
    rw [h2, Outcome.ret.injEq] at h3
    exact (key _ _).2 ⟨c, h1, by rw [h3]; exact h4⟩

/-- **C71** (meaning). Notes that agree on everything committed to are equal; notes that are equal
agree on everything committed to, or give a discrete-logarithm relation as in `C39_binding`. -/
theorem C71_meaning (P : Prims) (n n' : Note) (h : n.Obtainable P) :
    (Spec.SameCommitted P n n' → Note.rustEq P n n' = .ret true) ∧
    (Note.rustEq P n n' = .ret true → Spec.SameCommitted P n n' ∨
      ∃ L ∈ collisionCandidates (chunks (Spec.bitsOf P n)) (chunks (Spec.bitsOf P n'))
          (Spec.rcm P n.rseed n.rho) (Spec.rcm P n'.rseed n'.rho),
        L.IsRelation P Constants.qNoteCommit Constants.noteCommitR) := by
  constructor
  · rintro ⟨h1, h2, h3, h4, h5, h6⟩
    obtain ⟨cm, hc, hs⟩ := C38_commitment_never_panics P n h
    have hs' : Spec.noteCommitOf P n'.recipient.d n'.recipient.pkd n'.value.inner.toNat n'.rho
        n'.rseed = some cm := by
      rw [← hs]
      unfold Spec.noteCommitOf
      rw [h1, h2, h3, h5, h6, h4]
    unfold Note.rustEq Note.cmx
    rw [hc, commitment_eq_ret.2 hs']
    simp only [Outcome.ret_bind, Outcome.pure_eq, decide_true]
  · intro he
    unfold Note.rustEq at he
    rw [Outcome.bind_eq_ret] at he
    obtain ⟨x, hx, he⟩ := he
    rw [Outcome.bind_eq_ret] at he
    obtain ⟨y, hy, he⟩ := he
    rw [Outcome.pure_eq, Outcome.ret.injEq, decide_eq_true_iff] at he
    subst he
    exact C39_binding P n n' x hx hy

/-- Under `P0` there are two different obtainable notes that `==` identifies, and two obtainable notes
with different `rseed` that agree on everything committed to. -/
example : ∃ n n' n'' : Note, n.Obtainable Examples.P0 ∧ n'.Obtainable Examples.P0 ∧ n.value ≠ n'.value ∧
    Note.rustEq Examples.P0 n n' = .ret true ∧ n.rseed ≠ n''.rseed ∧
    Spec.SameCommitted Examples.P0 n n'' := by
  obtain ⟨cm, -, h⟩ := Examples.noteCommit_P0
  refine ⟨⟨⟨default, genG⟩, ⟨5⟩, 7, default⟩, ⟨⟨default, genG⟩, ⟨6⟩, 7, default⟩,
    ⟨⟨default, genG⟩, ⟨5⟩, 7, Bytes.ofNat 32 1⟩, ?_, ?_, by decide, ?_, by decide, ?_⟩
  · exact .fromParts ((fromParts_eq ..).2 ⟨rfl, cm, h _ _ _ _ _⟩)
  · exact .fromParts ((fromParts_eq ..).2 ⟨rfl, cm, h _ _ _ _ _⟩)
  · unfold Note.rustEq Note.cmx
    rw [commitment_eq_ret.2 (h _ _ _ _ _), commitment_eq_ret.2 (h _ _ _ _ _)]
    simp only [Outcome.ret_bind, Outcome.pure_eq, decide_true]
  · exact ⟨rfl, rfl, rfl, rfl, rfl, rfl⟩

/-! ### C40: nullifiers -/

/-- **C40.** For a note with a commitment, `nullifier` does not panic and is `DeriveNullifier` of the
protocol specification; for other notes it panics. -/
theorem C40_formula (P : Prims) (n : Note) (fvk : FullViewingKey) :
    (∀ cm, Spec.noteCommitOf P n.recipient.d n.recipient.pkd n.value.inner.toNat n.rho n.rseed =
        some cm → n.nullifier P fvk =
        .ret (Spec.deriveNullifier P fvk.nk n.rho (Spec.psi P n.rseed n.rho) cm)) ∧
    (Spec.noteCommitOf P n.recipient.d n.recipient.pkd n.value.inner.toNat n.rho n.rseed = none →
      n.nullifier P fvk = .panic) := by
  constructor
  · intro cm h
    unfold Note.nullifier nullifierDerive Spec.deriveNullifier prfNf
    rw [commitment_eq_ret.2 h, psi_eq, Outcome.ret_bind, modRP_eq, Outcome.ret_bind,
      add_comm (_ • Constants.nullifierK) cm]
    rfl
  · intro h
    unfold Note.nullifier Note.commitment
    rw [commitmentInner_eq, h]; rfl

/-- The scalar multiplying `K` in the nullifier of `n` under `nk`. -/
def Spec.nfScalar (P : Prims) (nk : Fp) (n : Note) : Fq :=
  (((P.poseidon nk n.rho + Spec.psi P n.rseed n.rho).val : ℕ) : Fq)

/-- Candidate relations between `Q`, `S(j)`, `R` and the nullifier base `K` (second component). -/
def Spec.nfCandidates (P : Prims) (nk nk' : Fp) (n n' : Note) : List (Lin × Fq) :=
  let ms := chunks (Spec.bitsOf P n)
  let ms' := chunks (Spec.bitsOf P n')
  let r := Spec.rcm P n.rseed n.rho
  let r' := Spec.rcm P n'.rseed n'.rho
  let s := Spec.nfScalar P nk n
  let s' := Spec.nfScalar P nk' n'
  [(accLin ms - accLin ms' + blindLin (r - r'), s - s'),
   (accLin ms + accLin ms' + blindLin (r + r'), s + s')]

/-- **C40** (Faerie gold). If two notes, under any two viewing keys, have the same nullifier, then
they agree on everything committed to and on `PRF^nf(ρ) + ψ`, or one of two explicit linear forms
computed from the notes is a non-trivial relation between the commitment generators and `K`. In
particular notes with different `ρ` and equal nullifiers reveal a discrete logarithm. -/
theorem C40_faerie_gold (P : Prims) (n n' : Note) (fvk fvk' : FullViewingKey) (nf : Fp)
    (h : n.nullifier P fvk = .ret nf) (h' : n'.nullifier P fvk' = .ret nf) :
    (Spec.SameCommitted P n n' ∧ P.poseidon fvk.nk n.rho = P.poseidon fvk'.nk n'.rho) ∨
      ∃ Lk ∈ Spec.nfCandidates P fvk.nk fvk'.nk n n', (Lk.1.Nontrivial ∨ Lk.2 ≠ 0) ∧
        Lk.1.eval P Constants.qNoteCommit Constants.noteCommitR + Lk.2 • Constants.nullifierK = 0 := by
  have hcm : ∀ {n : Note} {fvk : FullViewingKey}, n.nullifier P fvk = .ret nf →
      ∃ a, sinsemillaHashToPoint P Constants.qNoteCommit (Spec.bitsOf P n) = some a ∧
        nf = extractP (a + Spec.rcm P n.rseed n.rho • Constants.noteCommitR +
          Spec.nfScalar P fvk.nk n • Constants.nullifierK) := by
    intro n fvk h
    have h0 := h
    unfold Note.nullifier at h
    rw [Outcome.bind_eq_ret] at h
    obtain ⟨cm, hc, h⟩ := h
    obtain ⟨a, ha, e⟩ := commitment_hash hc
    refine ⟨a, ha, ?_⟩
    rw [(C40_formula P n fvk).1 cm (commitment_eq_ret.1 hc), Outcome.ret.injEq] at h0
    rw [← h0, ← e]; rfl
  obtain ⟨a, ha, e⟩ := hcm h
  obtain ⟨a', ha', e'⟩ := hcm h'
  obtain ⟨ev, -⟩ := hash_eq_eval Constants.noteCommitR chunks_lt ha
  obtain ⟨ev', -⟩ := hash_eq_eval Constants.noteCommitR chunks_lt ha'
  have hlen : (chunks (Spec.bitsOf P n)).length = (chunks (Spec.bitsOf P n')).length := by
    rw [length_chunks_bitsOf, length_chunks_bitsOf]
  rw [e, extractP_eq_iff] at e'
  unfold Spec.nfCandidates
  simp only
  generalize hs : Spec.nfScalar P fvk.nk n = s at *
  generalize hs' : Spec.nfScalar P fvk'.nk n' = s' at *
  rcases e' with e' | e'
  · by_cases hne : (chunks (Spec.bitsOf P n) ≠ chunks (Spec.bitsOf P n') ∨
        Spec.rcm P n.rseed n.rho - Spec.rcm P n'.rseed n'.rho ≠ 0) ∨ s - s' ≠ 0
    · right
      refine ⟨_, List.mem_cons_self, ?_, ?_⟩
      · exact hne.imp (nontrivial_sub chunks_lt hlen (by rw [length_chunks_bitsOf]; norm_num)) id
      · simp only
        rw [Lin.eval_add, Lin.eval_sub, eval_blindLin, ← ev, ← ev', sub_smul, sub_smul]
        rw [← sub_eq_zero] at e'
        rw [← e']; abel
    · left
      push Not at hne
      obtain ⟨⟨h1, h2⟩, h3⟩ := hne
      have hsame := bitsOf_inj (chunks_inj (by rw [length_bitsOf, length_bitsOf]) h1)
        (sub_eq_zero.1 h2)
      refine ⟨hsame, ?_⟩
      rw [sub_eq_zero, ← hs, ← hs'] at h3
      have h4 := modRPVal_injective h3
      rw [hsame.2.2.2.2.1] at h4
      exact add_right_cancel h4
  · right
    refine ⟨_, List.mem_cons_of_mem _ List.mem_cons_self, Or.inl (nontrivial_add hlen _), ?_⟩
    simp only
    rw [Lin.eval_add, Lin.eval_add, eval_blindLin, ← ev, ← ev', add_smul, add_smul]
    rw [← sub_eq_zero, sub_neg_eq_add] at e'
    rw [← e']; abel

/-- Two different notes with the same nullifier exist under `P0`. -/
example : ∃ (n n' : Note) (fvk : FullViewingKey) (nf : Fp), n.value ≠ n'.value ∧
    n.nullifier Examples.P0 fvk = .ret nf ∧ n'.nullifier Examples.P0 fvk = .ret nf := by
  obtain ⟨cm, -, h⟩ := Examples.noteCommit_P0
  refine ⟨⟨⟨default, genG⟩, ⟨5⟩, 7, default⟩, ⟨⟨default, genG⟩, ⟨6⟩, 7, default⟩,
    ⟨⟨genG⟩, 1, 1⟩, _, by decide, (C40_formula _ _ _).1 cm (h _ _ _ _ _),
    (C40_formula _ _ _).1 cm (h _ _ _ _ _)⟩

/-- **C36** (nullifiers). A note has the same nullifier under a full viewing key and under its
internal key. -/
theorem C36_nullifier (P : Prims) (fvk i : FullViewingKey) (h : fvk.deriveInternal P = .ret i)
    (n : Note) : n.nullifier P i = n.nullifier P fvk := by
  unfold FullViewingKey.deriveInternal at h
  rw [Outcome.bind_eq_ret] at h
  obtain ⟨r, -, h⟩ := h
  simp only [Outcome.pure_eq, Outcome.ret.injEq] at h
  rw [← h]; rfl

end Orchard
