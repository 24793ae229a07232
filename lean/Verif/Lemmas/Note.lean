import Verif.Lemmas.Sinsemilla
import Verif.Lemmas.Keys
import Verif.Model.Note
import Verif.Spec.Note

/-! # Lemmas about notes -/

namespace Orchard

theorem psi_eq (P : Prims) (s : Bytes 32) (rho : Fp) : RandomSeed.psi P s rho = Spec.psi P s rho := by
  unfold RandomSeed.psi Spec.psi Spec.seedPrf toBase Fp.fromUniform prfExpand
  rw [List.append_assoc]; rfl

theorem rcm_eq (P : Prims) (s : Bytes 32) (rho : Fp) : RandomSeed.rcm P s rho = Spec.rcm P s rho := by
  unfold RandomSeed.rcm Spec.rcm Spec.seedPrf toScalar Fq.fromUniform prfExpand
  rw [List.append_assoc]; rfl

theorem eskInner_eq (P : Prims) (s : Bytes 32) (rho : Fp) :
    RandomSeed.eskInner P s rho = if Spec.esk P s rho = 0 then none else some (Spec.esk P s rho) := by
  unfold RandomSeed.eskInner Spec.esk Spec.seedPrf toScalar Fq.fromUniform prfExpand nonZeroFromScalar
  rw [List.append_assoc]; rfl

theorem randomSeed_fromBytes_eq (P : Prims) (s : Bytes 32) (rho : Fp) :
    RandomSeed.fromBytes P s rho = if Spec.esk P s rho = 0 then none else some s := by
  unfold RandomSeed.fromBytes
  rw [eskInner_eq]
  split_ifs <;> simp_all

theorem noteCommitDerive_eq (P : Prims) (gd pkd : Point) (v : NoteValue) (rho psi : Fp) (rcm : Fq) :
    noteCommitDerive P gd.toBytes pkd.toBytes v rho psi rcm =
      Spec.noteCommit P gd pkd v.inner.toNat rho psi rcm := by
  unfold noteCommitDerive Spec.noteCommit sinsemillaCommit noteCommitMessage Spec.noteBits
  unfold NoteValue.toLeBits Fp.toLeBits
  cases sinsemillaHashToPoint P Constants.qNoteCommit _ <;> rfl

theorem commitmentInner_eq (P : Prims) (n : Note) :
    n.commitmentInner P =
      Spec.noteCommitOf P n.recipient.d n.recipient.pkd n.value.inner.toNat n.rho n.rseed := by
  unfold Note.commitmentInner
  rw [noteCommitDerive_eq, psi_eq, rcm_eq]
  rfl

theorem commitment_eq_ret {P : Prims} {n : Note} {cm : Point} :
    n.commitment P = .ret cm ↔
      Spec.noteCommitOf P n.recipient.d n.recipient.pkd n.value.inner.toNat n.rho n.rseed = some cm := by
  unfold Note.commitment
  rw [commitmentInner_eq]
  cases Spec.noteCommitOf P n.recipient.d n.recipient.pkd n.value.inner.toNat n.rho n.rseed <;> simp

theorem fromParts_eq (P : Prims) (a : Address) (v : NoteValue) (rho : Fp) (s : Bytes 32) (n : Note) :
    Note.fromParts P a v rho s = some n ↔ n = ⟨a, v, rho, s⟩ ∧
      ∃ cm, Spec.noteCommitOf P a.d a.pkd v.inner.toNat rho s = some cm := by
  unfold Note.fromParts
  simp only [commitmentInner_eq]
  rw [← Option.isSome_iff_exists]
  split_ifs with h
  · simp only [Option.some.injEq, h, and_true]; exact eq_comm
  · simp [h]

theorem random_eq_some (P : Prims) (rho : Fp) (draws : List (Bytes 32)) (s : Bytes 32)
    (rest : List (Bytes 32)) : RandomSeed.random P rho draws = some (s, rest) ↔
      ∃ pre, draws = pre ++ s :: rest ∧ Spec.esk P s rho ≠ 0 ∧ ∀ b ∈ pre, Spec.esk P b rho = 0 := by
  induction draws with
  | nil => simp [RandomSeed.random]
  | cons b draws ih =>
    simp only [RandomSeed.random, randomSeed_fromBytes_eq]
    by_cases hb : Spec.esk P b rho = 0
    · rw [if_pos hb, ih]
      constructor
      · rintro ⟨pre, rfl, h1, h2⟩
        exact ⟨b :: pre, rfl, h1, by simpa [hb] using h2⟩
      · rintro ⟨pre, h0, h1, h2⟩
        cases pre with
        | nil =>
          simp only [List.nil_append, List.cons.injEq] at h0
          rw [h0.1] at hb; exact absurd hb h1
        | cons c pre =>
          simp only [List.cons_append, List.cons.injEq] at h0
          exact ⟨pre, h0.2, h1, fun b hb => h2 b (by simp [hb])⟩
    · rw [if_neg hb]
      simp only [Option.some.injEq, Prod.mk.injEq]
      constructor
      · rintro ⟨rfl, rfl⟩
        exact ⟨[], rfl, hb, by simp⟩
      · rintro ⟨pre, h0, h1, h2⟩
        cases pre with
        | nil => simpa using h0
        | cons c pre =>
          simp only [List.cons_append, List.cons.injEq] at h0
          exact absurd (h2 b (by simp [h0.1])) hb

theorem newAux_eq_some (P : Prims) (a : Address) (v : NoteValue) (rho : Fp) (n : Note)
    (rest : List (Bytes 32)) (fuel : ℕ) : ∀ draws : List (Bytes 32), draws.length ≤ fuel →
    (Note.newAux P a v rho fuel draws = some (n, rest) ↔
      ∃ pre s, draws = pre ++ s :: rest ∧ n = ⟨a, v, rho, s⟩ ∧
        Spec.GoodSeed P a.d a.pkd v.inner.toNat rho s ∧
        ∀ b ∈ pre, ¬ Spec.GoodSeed P a.d a.pkd v.inner.toNat rho b) := by
  induction fuel with
  | zero =>
    intro draws hd
    have : draws = [] := List.length_eq_zero_iff.1 (by omega)
    subst this
    simp [Note.newAux]
  | succ fuel ih =>
    intro draws hd
    simp only [Note.newAux]
    cases hr : RandomSeed.random P rho draws with
    | none =>
      simp only [reduceCtorEq, false_iff]
      rintro ⟨pre, s, rfl, -, hg, -⟩
      -- a good seed has a non-zero esk, so `random` finds some seed
      have : ∀ pre : List (Bytes 32), RandomSeed.random P rho (pre ++ s :: rest) ≠ none := by
        intro pre
        induction pre with
        | nil => simp [RandomSeed.random, randomSeed_fromBytes_eq, hg.1]
        | cons c pre ihp =>
          simp only [List.cons_append, RandomSeed.random, randomSeed_fromBytes_eq]
          by_cases hc : Spec.esk P c rho = 0
          · rw [if_pos hc]; exact ihp
          · rw [if_neg hc]; simp
      exact this pre hr
    | some x =>
      obtain ⟨s0, rest0⟩ := x
      obtain ⟨pre0, rfl, h1, h2⟩ := (random_eq_some P rho draws s0 rest0).1 hr
      have hpre0 : ∀ b ∈ pre0, ¬ Spec.GoodSeed P a.d a.pkd v.inner.toNat rho b :=
        fun b hb hg => hg.1 (h2 b hb)
      have key : ∀ pre s, pre0 ++ s0 :: rest0 = pre ++ s :: rest →
          Spec.GoodSeed P a.d a.pkd v.inner.toNat rho s →
          (pre = pre0 ∧ s = s0 ∧ rest = rest0) ∨
            ∃ pre', pre = pre0 ++ s0 :: pre' ∧ rest0 = pre' ++ s :: rest := by
        intro pre s he hg
        rcases List.append_eq_append_iff.1 he with ⟨m, hm1, hm2⟩ | ⟨m, hm1, hm2⟩
        · cases m with
          | nil =>
            simp only [List.nil_append, List.cons.injEq] at hm2
            left; exact ⟨by simpa using hm1, hm2.1.symm, hm2.2.symm⟩
          | cons c m =>
            simp only [List.cons_append, List.cons.injEq] at hm2
            right; exact ⟨m, by rw [hm1, hm2.1], hm2.2⟩
        · cases m with
          | nil =>
            simp only [List.nil_append, List.cons.injEq] at hm2
            left; exact ⟨by simpa using hm1.symm, hm2.1, hm2.2⟩
          | cons c m =>
            simp only [List.cons_append, List.cons.injEq] at hm2
            refine absurd hg (hpre0 s ?_)
            rw [hm1, hm2.1]; simp
      cases hf : Note.fromParts P a v rho s0 with
      | some note =>
        obtain ⟨e, hcm⟩ := (fromParts_eq P a v rho s0 note).1 hf
        simp only [hf, Option.some.injEq, Prod.mk.injEq]
        constructor
        · rintro ⟨rfl, rfl⟩
          exact ⟨pre0, s0, rfl, e, ⟨h1, hcm⟩, hpre0⟩
        · rintro ⟨pre, s, he, hn, hg, hb⟩
          rcases key pre s he hg with ⟨rfl, rfl, rfl⟩ | ⟨pre', rfl, -⟩
          · exact ⟨by rw [e, hn], rfl⟩
          · exact absurd ⟨h1, hcm⟩ (hb s0 (by simp))
      | none =>
        have hbad : ¬ Spec.GoodSeed P a.d a.pkd v.inner.toNat rho s0 := by
          rintro ⟨-, hcm⟩
          have := (fromParts_eq P a v rho s0 ⟨a, v, rho, s0⟩).2 ⟨rfl, hcm⟩
          rw [hf] at this; simp at this
        have hlen : rest0.length ≤ fuel := by
          simp only [List.length_append, List.length_cons] at hd; omega
        simp only [hf, ih rest0 hlen]
        constructor
        · rintro ⟨pre, s, rfl, hn, hg, hb⟩
          refine ⟨pre0 ++ s0 :: pre, s, by simp, hn, hg, ?_⟩
          intro b hb'
          rw [List.mem_append, List.mem_cons] at hb'
          rcases hb' with h | rfl | h
          · exact hpre0 b h
          · exact hbad
          · exact hb b h
        · rintro ⟨pre, s, he, hn, hg, hb⟩
          rcases key pre s he hg with ⟨rfl, rfl, rfl⟩ | ⟨pre', rfl, h⟩
          · exact absurd hg hbad
          · exact ⟨pre', s, h, hn, hg, fun b hb' => hb b (by simp [hb'])⟩

theorem new_eq_some (P : Prims) (a : Address) (v : NoteValue) (rho : Fp) (n : Note)
    (draws rest : List (Bytes 32)) : Note.new P a v rho draws = some (n, rest) ↔
      ∃ pre s, draws = pre ++ s :: rest ∧ n = ⟨a, v, rho, s⟩ ∧
        Spec.GoodSeed P a.d a.pkd v.inner.toNat rho s ∧
        ∀ b ∈ pre, ¬ Spec.GoodSeed P a.d a.pkd v.inner.toNat rho b :=
  newAux_eq_some P a v rho n rest _ draws le_rfl

theorem Spec.length_noteBits (gd pkd : Point) (v : ℕ) (rho psi : Fp) :
    (Spec.noteBits gd pkd v rho psi).length = 1086 := by
  simp [Spec.noteBits]

theorem val_lt_two_pow_255 (x : Fp) : x.val < 2 ^ 255 := (ZMod.val_lt x).trans p_lt_two_pow_255

theorem toNat_toBytes_lt (A : Point) : A.toBytes.toNat < 2 ^ 256 := by
  have := A.toBytes.toNat_lt
  have e : (256 : ℕ) ^ 32 = 2 ^ 256 := by norm_num
  omega

theorem Spec.noteBits_inj {gd pkd gd' pkd' : Point} {v v' : ℕ} {rho psi rho' psi' : Fp}
    (hv : v < 2 ^ 64) (hv' : v' < 2 ^ 64)
    (h : Spec.noteBits gd pkd v rho psi = Spec.noteBits gd' pkd' v' rho' psi') :
    gd = gd' ∧ pkd = pkd' ∧ v = v' ∧ rho = rho' ∧ psi = psi' := by
  unfold Spec.noteBits at h
  obtain ⟨h, h5⟩ := List.append_inj' h (by simp)
  obtain ⟨h, h4⟩ := List.append_inj' h (by simp)
  obtain ⟨h, h3⟩ := List.append_inj' h (by simp)
  obtain ⟨h1, h2⟩ := List.append_inj' h (by simp)
  refine ⟨?_, ?_, leBits_inj hv hv' h3, ?_, ?_⟩
  · exact Point.toBytes_injective (Bytes.toNat_injective
      (leBits_inj (toNat_toBytes_lt _) (toNat_toBytes_lt _) h1))
  · exact Point.toBytes_injective (Bytes.toNat_injective
      (leBits_inj (toNat_toBytes_lt _) (toNat_toBytes_lt _) h2))
  · exact ZMod.val_injective p (leBits_inj (val_lt_two_pow_255 _) (val_lt_two_pow_255 _) h4)
  · exact ZMod.val_injective p (leBits_inj (val_lt_two_pow_255 _) (val_lt_two_pow_255 _) h5)

end Orchard
