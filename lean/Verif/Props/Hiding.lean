import Verif.Lemmas.Hiding

/-!
# Property C78: commitments and randomised keys hide perfectly

For whatever is committed to, each point is the commitment for exactly one trapdoor; so with a uniform
trapdoor the commitment is uniform and tells nothing.  Likewise `rk` tells nothing about `ak`.  The
last theorem is the statement for a whole build: whatever is spent and paid, each list of `cv_net` and
`rk` comes from exactly one choice of blinding values.
-/

namespace Orchard

open RedPallas

/-- **C78** (value commitments). For a value that can be committed to and any point there is exactly
one trapdoor with which the value commitment is that point. -/
theorem C78_value_commitment (v : ValueSum) (hv : -(2 ^ 64 - 1) ≤ v.inner ∧ v.inner ≤ 2 ^ 64 - 1)
    (C : Point) : ∃! rcv : Fq, ValueCommitment.derive v ⟨rcv⟩ = some ⟨C⟩ := by
  obtain ⟨s, hs, hu⟩ := existsUnique_add_smul Constants.valueCommitR_ne_zero
    ((v.inner : Fq) • Constants.valueCommitV) C
  refine ⟨s, ?_, fun t ht => hu t ?_⟩
  · simp only
    rw [ValueCommitment.derive_eq hv, hs]
  · simp only at ht
    rw [ValueCommitment.derive_eq hv, Option.some.injEq, ValueCommitment.mk.injEq] at ht
    exact ht

/-- **C78** (randomised validating keys). For a validating key and any point there is exactly one
randomiser that makes the key into that point. -/
theorem C78_rk (ak : SpendValidatingKey) (R : Point) :
    ∃! alpha : Fq, VerificationKey.randomize ak alpha = ⟨R⟩ := by
  obtain ⟨s, hs, hu⟩ := existsUnique_add_smul Constants.spendAuthG_ne_zero ak.point R
  refine ⟨s, ?_, fun t ht => hu t ?_⟩
  · simp only
    rw [← hs]; rfl
  · exact congrArg VerificationKey.point ht

/-- **C78** (note commitments). If some trapdoor gives a note commitment for the note's fields, every
trapdoor does, and any point is the commitment for exactly one of them. -/
theorem C78_note_commitment (P : Prims) (gd pkd : Point) (v : NoteValue) (rho psi : Fp)
    (h : ∃ rcm cm, noteCommitDerive P gd.toBytes pkd.toBytes v rho psi rcm = some cm) (C : Point) :
    ∃! rcm : Fq, noteCommitDerive P gd.toBytes pkd.toBytes v rho psi rcm = some C := by
  simp only [noteCommitDerive_eq] at h ⊢
  unfold Spec.noteCommit at h ⊢
  cases hh : sinsemillaHashToPoint P Constants.qNoteCommit
      (Spec.noteBits gd pkd v.inner.toNat rho psi) with
  | none => rw [hh] at h; obtain ⟨_, _, h⟩ := h; cases h
  | some x =>
    obtain ⟨s, hs, hu⟩ := existsUnique_add_smul Constants.noteCommitR_ne_zero x C
    exact ⟨s, by simp only; rw [hs], fun t ht => hu t (by simpa using ht)⟩

section

variable {V : Type} {P : Prims} {tryFrom : I64 → Option V} {rng : BuildDraws} {anchor : Fp}
  {ty : BundleType} {spends : List SpendInfo} {outputs : List OutputInfo} {b : UnauthorizedBundle V}
  {m : BundleMetadata}

/-- **C78** (a whole build). Take any request that can be built.  Then for any values of `cv_net` and
`rk` of its actions there is exactly one choice of the trapdoors and randomisers (the other draws being
as they are) with which the build gives a bundle with those values; its nullifiers are the same as
before. -/
theorem C78_build (hr : ∀ s ∈ spends, Spec.Requestable P s) (hk : Spec.NoZeroKeys P rng)
    (he : Spec.EnoughDraws P rng)
    (h : bundle P tryFrom rng anchor ty spends outputs = .ok (some (b, m)))
    (target : List (Point × Point)) (hl : target.length = b.actions.length) :
    ∃! z : Fin b.actions.length → Fq × Fq, ∃ b' m',
      bundle P tryFrom (Spec.reblind rng z) anchor ty spends outputs = .ok (some (b', m')) ∧
      b'.actions.map Action.nf = b.actions.map Action.nf ∧
      b'.actions.map Spec.blinded = target := by
  obtain ⟨A, R, hAR⟩ := blinded_reblind h rfl
  have hx := fun i : Fin b.actions.length =>
    existsUnique_add_smul Constants.valueCommitR_ne_zero (A i) (target[i.val]'(by omega)).1
  have hy := fun i : Fin b.actions.length =>
    existsUnique_add_smul Constants.spendAuthG_ne_zero (R i) (target[i.val]'(by omega)).2
  choose x hx hxu using hx
  choose y hy hyu using hy
  have hsucc : ∀ z : Fin b.actions.length → Fq × Fq, ∃ b' m',
      bundle P tryFrom (Spec.reblind rng z) anchor ty spends outputs = .ok (some (b', m')) := by
    intro z
    have h1 := (C13_outcome (tryFrom := tryFrom) (anchor := anchor) (ty := ty) (outputs := outputs)
      hr hk he).2.2.2.2.2
    have h2 := (C13_outcome (rng := Spec.reblind rng z) (tryFrom := tryFrom) (anchor := anchor)
      (ty := ty) (outputs := outputs) hr hk he).2.2.2.2.2
    obtain ⟨x, hx⟩ := h2.2 (h1.1 ⟨_, h⟩)
    exact ⟨x.1, x.2, hx⟩
  refine ⟨fun i => (x i, y i), ?_, ?_⟩
  · obtain ⟨b', m', h'⟩ := hsucc fun i => (x i, y i)
    obtain ⟨g1, g2⟩ := hAR _ _ _ h'
    refine ⟨b', m', h', g1, ?_⟩
    rw [g2]
    apply List.ext_getElem
    · rw [List.length_ofFn, hl]
    intro i h1 h2
    rw [List.length_ofFn] at h1
    rw [List.getElem_ofFn]
    have e1 := hx ⟨i, h1⟩
    have e2 := hy ⟨i, h1⟩
    simp only at e1 e2
    rw [e1, e2]
  · rintro z ⟨b', m', h', -, ht⟩
    obtain ⟨-, g2⟩ := hAR _ _ _ h'
    rw [ht] at g2
    funext i
    have e : target[i.val]'(by omega) = (A i + (z i).1 • Constants.valueCommitR,
        R i + (z i).2 • Constants.spendAuthG) := by
      simp only [g2, List.getElem_ofFn]
    refine Prod.ext (hxu i _ ?_) (hyu i _ ?_)
    · simp only [e]
    · simp only [e]

end

namespace Examples

/-- C78: 5 zatoshi committed to; the commitment can be any point, also the identity. -/
example : ∃! rcv : Fq, ValueCommitment.derive ⟨5⟩ ⟨rcv⟩ = some ⟨0⟩ :=
  C78_value_commitment _ (by norm_num) _

/-- C78: a bundle with two actions whose `cv_net` and `rk` are chosen beforehand. -/
example (C R C' R' : Point) : ∃ s anchor b m, s.note.value.inner = 5 ∧
    ∃ rng outs, bundle P0 (some : I64 → Option I64) rng anchor .DEFAULT [s] outs = .ok (some (b, m)) ∧
      b.actions.map Spec.blinded = [(C, R), (C', R')] := by
  obtain ⟨s, anchor, h1, h2, h⟩ := built_P0_all
  obtain ⟨b, m, h3, h4⟩ := h (fun _ => 0) (fun _ => 0)
  obtain ⟨hk, he⟩ := rng_ok
    (rng := { rng0 path0 with spendShuffle := fun _ => 0, outputShuffle := fun _ => 0 })
    (fun _ => rfl) (fun _ => rfl) (fun _ => rfl) (fun _ => rfl)
  obtain ⟨z, ⟨b', m', g1, -, g2⟩, -⟩ := C78_build
    (by intro s' hs'; rw [List.mem_singleton.1 hs']; exact h2) hk he h3 [(C, R), (C', R')] h4.symm
  exact ⟨s, anchor, b', m', h1, _, _, g1, g2⟩

end Examples

end Orchard
