import Verif.Props.EndToEnd
import Verif.Crypto.EvalPoseidon

/-!
# Examples for payments: the nullifiers of dummy notes under `P0`
-/

namespace Orchard.Examples

open Spec

/-- The nullifier under `P0` of a note with commitment `cm`, `nk = 2` and `ρ` the abscissa of `R`. -/
noncomputable def nfAt (cm R : Point) : Fp :=
  extractP (cm + (((Poseidon.hash 2 (extractP R)).val : ℕ) : Fq) • Constants.nullifierK)

theorem nfAt_fibre {cm R S T : Point} {c : Fp}
    (h1 : Poseidon.hash 2 (extractP R) ≠ Poseidon.hash 2 (extractP S))
    (h2 : Poseidon.hash 2 (extractP R) ≠ Poseidon.hash 2 (extractP T))
    (h3 : Poseidon.hash 2 (extractP S) ≠ Poseidon.hash 2 (extractP T))
    (e1 : nfAt cm R = c) (e2 : nfAt cm S = c) (e3 : nfAt cm T = c) : False := by
  have key : ∀ x y : Fp, x ≠ y → ((x.val : ℕ) : Fq) • Constants.nullifierK ≠
      ((y.val : ℕ) : Fq) • Constants.nullifierK := by
    intro x y hxy h
    rw [← sub_eq_zero, ← sub_smul, smul_eq_zero_iff', sub_eq_zero] at h
    rcases h with h | h
    · have hx := (ZMod.val_lt x).trans p_lt_q
      have hy := (ZMod.val_lt y).trans p_lt_q
      rw [ZMod.natCast_eq_natCast_iff', Nat.mod_eq_of_lt hx, Nat.mod_eq_of_lt hy] at h
      exact hxy (ZMod.val_injective _ h)
    · exact Constants.nullifierK_ne_zero h
  unfold nfAt at e1 e2 e3
  rcases extractP_eq_iff.1 (e1.trans e2.symm) with h | h
  · exact key _ _ h1 (add_left_cancel h)
  rcases extractP_eq_iff.1 (e1.trans e3.symm) with h' | h'
  · exact key _ _ h2 (add_left_cancel h')
  · exact key _ _ h3 (add_left_cancel (neg_injective (h.symm.trans h')))

theorem pigeon : ∀ g : Fin 5 → Bool, ∃ (c : Bool) (i j k : Fin 5), i ≠ j ∧ i ≠ k ∧ j ≠ k ∧
    g i = c ∧ g j = c ∧ g k = c := by decide +kernel

/-- Some `ρ` avoids two given nullifiers. -/
theorem exists_fresh (cm : Point) (a b : Fp) : ∃ R, nfAt cm R ≠ a ∧ nfAt cm R ≠ b := by
  have ne : ∀ (x y : ℕ), (Compute.poseidonK 2 x) % p ≠ (Compute.poseidonK 2 y) % p →
      Poseidon.hash 2 (x : Fp) ≠ Poseidon.hash 2 (y : Fp) := by
    intro x y h e
    have h2 : ((2 : ℕ) : Fp) = 2 := rfl
    rw [← h2, ← Compute.poseidonK_cast, ← Compute.poseidonK_cast, ZMod.natCast_eq_natCast_iff'] at e
    exact h e
  let X : Fin 5 → ℕ := ![25027635063850382358429654596649554085117301901282348152423547104939793041763,
    17144890976040313974462754624161095328261290075490099718273142830262355741301,
    21457208314186520936880902219424053485005045883401337627148481900742711001959,
    3597772235883004661259329170144280297379687592370687591147658848249887611537,
    17502433695644481444785977856966854265310331039772160001849803703443502427667]
  let R : Fin 5 → Point := ![Constants.spendAuthG, Constants.nullifierK, Constants.valueCommitV,
    Constants.valueCommitR, Constants.noteCommitR]
  have hR : ∀ i, extractP (R i) = (X i : Fp) := by
    intro i
    fin_cases i <;> exact (Nat.cast_ofNat (R := Fp)).symm
  have hd : ∀ i j : Fin 5, i ≠ j → (Compute.poseidonK 2 (X i)) % p ≠ (Compute.poseidonK 2 (X j)) % p := by
    decide +kernel
  have hne : ∀ i j : Fin 5, i ≠ j →
      Poseidon.hash 2 (extractP (R i)) ≠ Poseidon.hash 2 (extractP (R j)) := by
    intro i j hij
    rw [hR, hR]
    exact ne _ _ (hd i j hij)
  have fib : ∀ (c : Fp) (i j k : Fin 5), i ≠ j → i ≠ k → j ≠ k → nfAt cm (R i) = c →
      nfAt cm (R j) = c → nfAt cm (R k) = c → False := fun c i j k h1 h2 h3 e1 e2 e3 =>
    nfAt_fibre (hne i j h1) (hne i k h2) (hne j k h3) e1 e2 e3
  by_contra hcon
  push Not at hcon
  have h : ∀ i, nfAt cm (R i) = a ∨ nfAt cm (R i) = b := fun i => by
    by_contra hh
    push Not at hh
    exact hh.2 (hcon _ hh.1)
  classical
  obtain ⟨c, i, j, k, h1, h2, h3, e1, e2, e3⟩ := pigeon fun i => decide (nfAt cm (R i) = a)
  cases c with
  | true =>
    rw [decide_eq_true_iff] at e1 e2 e3
    exact fib a i j k h1 h2 h3 e1 e2 e3
  | false =>
    rw [decide_eq_false_iff_not] at e1 e2 e3
    exact fib b i j k h1 h2 h3 ((h i).resolve_left e1) ((h j).resolve_left e2)
      ((h k).resolve_left e3)

theorem verifier_complete : Spec.CompleteProofSystem P0 (fun (_ : Unit) _ _ => .ok [1, 2, 3])
    (fun _ _ => true) := fun _ _ _ _ => ⟨_, rfl, rfl⟩

/-- The random values of `rng0` with another point for `ρ` of the dummy notes. -/
def rngAt (R : Point) : BuildDraws :=
  { rng0 path0 with spendDummy := fun _ => ⟨[default], R, [default], path0⟩ }

theorem deriveNullifier_P0 (rho cm R : Point) (s : Bytes 32) (h : rho = R) :
    Spec.deriveNullifier P0 2 (extractP rho) (Spec.psi P0 s (extractP rho)) cm = nfAt cm R := by
  rw [h]
  unfold Spec.deriveNullifier
  have e : P0.poseidon = Poseidon.hash := rfl
  rw [psi_P0, add_zero, e]
  unfold nfAt
  rfl

theorem other_mem {α : Type} {l d : List α} {s x : α} {i j : ℕ} (h2 : l.length = 2)
    (hi : l[i]? = some x) (hj : l[j]? = some s) (hij : i ≠ j) (hp : l.Perm ([s] ++ d)) : x ∈ d := by
  match l, h2 with
  | [a, b], _ =>
    obtain ⟨l1, v1⟩ := List.getElem?_eq_some_iff.1 hi
    obtain ⟨l2, v2⟩ := List.getElem?_eq_some_iff.1 hj
    have : i < 2 := l1
    have : j < 2 := l2
    rcases (by omega : i = 0 ∧ j = 1 ∨ i = 1 ∧ j = 0) with ⟨rfl, rfl⟩ | ⟨rfl, rfl⟩
    · simp only [List.getElem_cons_zero, List.getElem_cons_succ] at v1 v2
      rw [v1, v2] at hp
      exact (List.Perm.cons_inv ((List.Perm.swap _ _ _).trans hp)).subset (by simp)
    · simp only [List.getElem_cons_zero, List.getElem_cons_succ] at v1 v2
      rw [v1, v2] at hp
      exact (List.Perm.cons_inv hp).subset (by simp)
end Orchard.Examples
