import Verif.Examples.Note
import Verif.Lemmas.Plan

/-! # Example requests and random values for bundle construction -/

namespace Orchard.Examples

theorem fromBytes_P0 (b : Bytes 32) : SpendingKey.fromBytes P0 b = .ret (some ⟨b⟩) := by
  obtain ⟨r, fvk, h1, h2, h3, h4⟩ := C30_spending_key_partial P0 b
    (by rw [askScalar_P0]; exact one_ne_zero)
  obtain ⟨fvk', e1, -, -, hv⟩ := fvk_P0 ⟨b⟩
  rw [h2, Outcome.ret.injEq] at e1
  obtain ⟨sk, hsk⟩ := Option.isSome_iff_exists.1 (h4.2 (e1 ▸ hv))
  rw [h1, hsk]
  have := h3 sk hsk
  cases sk; simp only at this; rw [this]

/-- Random values: every list of draws has one element, no shuffling. -/
def rng0 (path : MerklePath) : BuildDraws where
  spendDummy _ := ⟨[default], Constants.spendAuthG, [default], path⟩
  outputDummy _ := [default]
  spendShuffle i := i
  outputShuffle i := i
  rcv i := i + 1
  action _ := ⟨0, [default], default, default⟩

/-- Some Merkle path. -/
def path0 : MerklePath := ⟨5, List.replicate 32 3, by simp [Constants.MERKLE_DEPTH]⟩

theorem goodSeed_P0 (a : Address) (v : NoteValue) (rho : Fp) (s : Bytes 32) :
    Spec.GoodSeed P0 a.d a.pkd v.inner.toNat rho s := by
  obtain ⟨cm, -, h⟩ := noteCommit_P0
  exact ⟨by rw [esk_P0]; exact one_ne_zero, cm, h _ _ _ _ _⟩

/-- Any draws with one-element lists satisfy the side conditions under `P0`. -/
theorem rng_ok {rng : BuildDraws} (h1 : ∀ i, (rng.spendDummy i).skDraws = [default])
    (h2 : ∀ i, (rng.spendDummy i).seedDraws = [default]) (h3 : ∀ i, rng.outputDummy i = [default])
    (h4 : ∀ i, (rng.action i).seedDraws = [default]) :
    Spec.NoZeroKeys P0 rng ∧ Spec.EnoughDraws P0 rng := by
  refine ⟨⟨fun i b _ => by rw [askScalar_P0]; exact one_ne_zero,
    fun i b _ => by rw [askScalar_P0]; exact one_ne_zero⟩, fun i => ?_, fun i => ?_, ?_⟩
  · obtain ⟨fvk, hf, -, -, hv⟩ := fvk_P0 ⟨default⟩
    obtain ⟨a, ha, -⟩ := addressAt_owned hv (Bytes.ofNat 11 0) .external
    have hn : Note.new P0 a NoteValue.zero (nullifierDummy (rng.spendDummy i).rhoPoint) [default] ≠
        none := new_ne_none ⟨default, by simp, goodSeed_P0 _ _ _ _⟩
    obtain ⟨x, hx⟩ := Option.ne_none_iff_exists'.1 hn
    have : Note.dummy P0 (rng.spendDummy i).skDraws none (rng.spendDummy i).rhoPoint
        (rng.spendDummy i).seedDraws = .ret (some (⟨default⟩, fvk, x.1)) := by
      rw [h1, h2]
      unfold Note.dummy SpendingKey.random
      rw [fromBytes_P0]
      simp only [Outcome.ret_bind, Outcome.pure_eq, hf, ha, Option.getD_none, hx]
    unfold SpendInfo.dummy
    rw [this]; simp
  · obtain ⟨fvk, hf, -, -, hv⟩ := fvk_P0 ⟨default⟩
    obtain ⟨a, ha, -⟩ := addressAt_owned hv (Bytes.ofNat 11 0) .external
    unfold OutputInfo.dummy SpendingKey.random
    rw [h3]
    simp [fromBytes_P0, hf, ha]
  · intro i a v rho
    exact ⟨default, by rw [h4]; simp, goodSeed_P0 _ _ _ _⟩

/-- A spend of any value that can be requested, together with its anchor. -/
theorem spend_P0 (v : UInt64) : ∃ (s : SpendInfo) (anchor : Fp), s.note.value = ⟨v⟩ ∧
    Spec.Requestable P0 s ∧ Spec.PathToAnchor P0 anchor s := by
  obtain ⟨fvk, -, -, -, hv⟩ := fvk_P0 ⟨default⟩
  obtain ⟨a, -, ho⟩ := addressAt_owned hv default .internal
  obtain ⟨cm, -, h⟩ := noteCommit_P0
  have hc : Spec.commitmentOf P0 ⟨a, ⟨v⟩, 7, default⟩ = some cm := h _ _ _ _ _
  refine ⟨⟨none, fvk, .internal, ⟨a, ⟨v⟩, 7, default⟩, path0⟩, _, rfl, ⟨rfl, hv, ho, cm, hc⟩,
    cm, hc, (pathRoot_iff P0 path0 _ _).1 (root_eq P0 path0 (extractP cm))⟩

/-- An output of any value. -/
def output0 (v : UInt64) : OutputInfo :=
  OutputInfo.new (some default) ⟨default, Constants.spendAuthG⟩ ⟨v⟩ none

end Orchard.Examples
