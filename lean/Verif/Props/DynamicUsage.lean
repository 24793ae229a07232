import Verif.Model.DynamicUsage

/-!
# C93: memory accounting
-/

namespace Orchard

open RedPallas

/-- The bounds enclose the usage. -/
def Spec.Enclosed {X : Type} (u : DynamicUsage X) (x : X) : Prop :=
  (u.bounds x).1 ≤ u.usage x ∧ ∀ up, (u.bounds x).2 = some up → u.usage x ≤ up

theorem vec_none_usage {X : Type} (size cap : ℕ) (l : List X) :
    (DynamicUsage.vec (.none : DynamicUsage X) size cap).usage l = cap * size := by
  unfold DynamicUsage.vec DynamicUsage.none
  induction l with
  | nil => rfl
  | cons x l ih => simp

theorem vec_none_bounds {X : Type} (size cap : ℕ) (l : List X) :
    (DynamicUsage.vec (.none : DynamicUsage X) size cap).bounds l = (cap * size, some (cap * size)) := by
  have : l.foldl (fun acc x => DynamicUsage.addBounds acc ((.none : DynamicUsage X).bounds x))
      (0, some 0) = (0, some 0) := by
    induction l with
    | nil => rfl
    | cons x l ih => exact ih
  show (cap * size + (l.foldl (fun acc x => DynamicUsage.addBounds acc
    ((.none : DynamicUsage X).bounds x)) (0, some 0)).1, _) = _
  rw [this]; rfl

/-- **C93.** The heap usage reported for an authorised bundle is the room allocated for the actions after
the first, plus the usage of the value balance, plus the room allocated for the proof; so it covers all
actions but the first (stored inline) and all bytes of the proof. The reported bounds enclose it whenever
those of the value balance do, and miss it by exactly as much as those of the value balance. -/
theorem C93_bundle {V : Type} (u : DynamicUsage V) (size capTail capProof : ℕ) (b : AuthorizedBundle V) :
    (bundleUsage u size capTail capProof).usage b = capTail * size + u.usage b.valueBalance + capProof ∧
    (b.actions.length - 1 ≤ capTail → b.authorization.proof.length ≤ capProof →
      (b.actions.length - 1) * size + b.authorization.proof.length ≤
        (bundleUsage u size capTail capProof).usage b) ∧
    (bundleUsage u size capTail capProof).bounds b =
      (capTail * size + (u.bounds b.valueBalance).1 + capProof,
        (u.bounds b.valueBalance).2.map fun up => capTail * size + up + capProof) ∧
    (Spec.Enclosed u b.valueBalance → Spec.Enclosed (bundleUsage u size capTail capProof) b) := by
  have h1 : (bundleUsage u size capTail capProof).usage b =
      capTail * size + u.usage b.valueBalance + capProof := by
    show 0 + (DynamicUsage.vec .none size capTail).usage b.actions.tail + u.usage b.valueBalance +
      (DynamicUsage.vec .none 1 capProof).usage b.authorization.proof = _
    rw [vec_none_usage, vec_none_usage, Nat.zero_add, Nat.mul_one]
  have h2 : (bundleUsage u size capTail capProof).bounds b =
      (capTail * size + (u.bounds b.valueBalance).1 + capProof,
        (u.bounds b.valueBalance).2.map fun up => capTail * size + up + capProof) := by
    have e0 : (DynamicUsage.nonEmpty (.none : DynamicUsage (Action (Signature .spendAuth)))
        size capTail).bounds b.headTail = (capTail * size, some (capTail * size)) := by
      show DynamicUsage.addBounds (0, some 0) ((DynamicUsage.vec .none size capTail).bounds _) = _
      rw [vec_none_bounds]
      simp [DynamicUsage.addBounds]
    have e2 : (proofUsage capProof).bounds b.authorization.proof = (capProof, some capProof) := by
      unfold proofUsage
      rw [vec_none_bounds, Nat.mul_one]
    unfold bundleUsage
    dsimp only
    rw [e0, e2]
    cases (u.bounds b.valueBalance).2 <;> rfl
  refine ⟨h1, fun ha hp => ?_, h2, fun hv => ?_⟩
  · rw [h1]
    have := Nat.mul_le_mul_right size ha
    omega
  · obtain ⟨g1, g2⟩ := hv
    unfold Spec.Enclosed
    rw [h1, h2]
    refine ⟨by dsimp only; omega, fun up hup => ?_⟩
    obtain ⟨x, hx, rfl⟩ := Option.map_eq_some_iff.1 hup
    have := g2 x hx
    omega

/-- **C93** (other types). A prepared key uses 8 bytes for each digit there is room for, and the bounds
are exact; a proof uses the room allocated for it; actions, nullifiers and domains use nothing. -/
theorem C93_others (cap : ℕ) (s : Wnaf.PreparedScalar) (proof : List UInt8) (rho : Fp) :
    (preparedUsage cap).usage s = cap * 8 ∧ (preparedUsage cap).bounds s = (cap * 8, some (cap * 8)) ∧
    (proofUsage cap).usage proof = cap ∧ (proofUsage cap).bounds proof = (cap, some cap) ∧
    domainUsage.usage rho = 0 ∧ domainUsage.bounds rho = (0, some 0) := by
  refine ⟨vec_none_usage _ _ _, vec_none_bounds _ _ _, ?_, ?_, rfl, rfl⟩
  · unfold proofUsage; rw [vec_none_usage, Nat.mul_one]
  · unfold proofUsage; rw [vec_none_bounds, Nat.mul_one]

/-- Any vector: if the bounds of the elements enclose their usage then so do those of the vector. -/
theorem C93_vec {X : Type} (u : DynamicUsage X) (size cap : ℕ) (l : List X)
    (h : ∀ x ∈ l, Spec.Enclosed u x) : Spec.Enclosed (DynamicUsage.vec u size cap) l := by
  have key : ∀ (l : List X) (acc : ℕ × Option ℕ) (n : ℕ), (∀ x ∈ l, Spec.Enclosed u x) →
      acc.1 ≤ n → (∀ up, acc.2 = some up → n ≤ up) →
      (l.foldl (fun acc x => DynamicUsage.addBounds acc (u.bounds x)) acc).1 ≤ n + (l.map u.usage).sum ∧
      ∀ up, (l.foldl (fun acc x => DynamicUsage.addBounds acc (u.bounds x)) acc).2 = some up →
        n + (l.map u.usage).sum ≤ up := by
    intro l
    induction l with
    | nil => intro acc n _ h1 h2; exact ⟨by simpa using h1, by simpa using h2⟩
    | cons x l ih =>
      intro acc n hl h1 h2
      obtain ⟨g1, g2⟩ := hl x List.mem_cons_self
      have := ih (DynamicUsage.addBounds acc (u.bounds x)) (n + u.usage x)
        (fun y hy => hl y (List.mem_cons_of_mem _ hy)) (Nat.add_le_add h1 g1) (by
          intro up hup
          simp only [DynamicUsage.addBounds, Option.bind_eq_some_iff, Option.map_eq_some_iff] at hup
          obtain ⟨a, ha, c, hc, rfl⟩ := hup
          exact Nat.add_le_add (h2 a ha) (g2 c hc))
      simpa only [List.foldl_cons, List.map_cons, List.sum_cons, Nat.add_assoc] using this
  obtain ⟨h1, h2⟩ := key l (0, some 0) 0 h le_rfl (by simp)
  rw [Nat.zero_add] at h1 h2
  refine ⟨Nat.add_le_add_left h1 _, fun up hup => ?_⟩
  obtain ⟨x, hx, rfl⟩ := Option.map_eq_some_iff.1 hup
  exact Nat.add_le_add_left (h2 x hx) _

/-- Two actions of 820 bytes each and a proof of 3 bytes in a vector with room for 4; the value balance
is an `i64`. -/
example (a : Action (Signature .spendAuth)) (sig : Signature .binding) :
    (bundleUsage (.none : DynamicUsage ℤ) 820 1 4).usage
      ⟨[a, a], by simp, .ENABLED, 5, 0, [1, 2, 3], sig⟩ = 824 := by
  rw [(C93_bundle _ _ _ _ _).1]; rfl

end Orchard
