import Verif.Crypto.Poseidon
import Verif.Crypto.Compute

/-!
# Evaluating Poseidon in the kernel

Nothing here models code.
-/

namespace Orchard.Compute

open Poseidon

/-- A row of the matrix. -/
def mdsRowK (a b c x y z : ℕ) : ℕ := (a * x + b * y + c * z) % p

/-- Fifth power of a sum. -/
def pow5K (x c : ℕ) : ℕ := (x + c) ^ 5 % p

/-- `mds`. -/
noncomputable def mdsK {α : Type} (x y z : ℕ) (k : ℕ → ℕ → ℕ → α) : α :=
  force (mdsRowK m00 m01 m02 x y z) fun x' => force (mdsRowK m10 m11 m12 x y z) fun y' =>
    force (mdsRowK m20 m21 m22 x y z) fun z' => k x' y' z'

/-- Full rounds. -/
noncomputable def fullK {α : Type} (k : ℕ → ℕ → ℕ → α) (l : List (ℕ × ℕ × ℕ)) : ℕ → ℕ → ℕ → α :=
  List.rec (motive := fun _ => ℕ → ℕ → ℕ → α) k
    (fun c _ ih x y z => force (pow5K x c.1) fun x => force (pow5K y c.2.1) fun y => force (pow5K z c.2.2) fun z =>
      mdsK x y z ih) l

/-- Partial rounds. -/
noncomputable def partK {α : Type} (k : ℕ → ℕ → ℕ → α) (l : List (ℕ × ℕ × ℕ)) : ℕ → ℕ → ℕ → α :=
  List.rec (motive := fun _ => ℕ → ℕ → ℕ → α) k
    (fun c _ ih x y z => force (pow5K x c.1) fun x => force (y + c.2.1) fun y => force (z + c.2.2) fun z =>
      mdsK x y z ih) l

/-- The state represented by three numbers. -/
def state (x y z : ℕ) : Fp × Fp × Fp := (x, y, z)

theorem pow5K_cast (x c : ℕ) : ((pow5K x c : ℕ) : Fp) = (x + c) ^ 5 := by
  unfold pow5K
  rw [ZMod.natCast_mod, Nat.cast_pow, Nat.cast_add]

theorem mdsRowK_cast (a b c x y z : ℕ) : ((mdsRowK a b c x y z : ℕ) : Fp) = a * x + b * y + c * z := by
  unfold mdsRowK
  rw [ZMod.natCast_mod, Nat.cast_add, Nat.cast_add, Nat.cast_mul, Nat.cast_mul, Nat.cast_mul]

theorem mdsK_eq {α : Type} (x y z : ℕ) (k : ℕ → ℕ → ℕ → α) :
    ∃ a b c, mdsK x y z k = k a b c ∧ state a b c = mds (state x y z) := by
  unfold mdsK
  simp only [force_eq]
  refine ⟨_, _, _, rfl, ?_⟩
  unfold state mds
  rw [mdsRowK_cast, mdsRowK_cast, mdsRowK_cast]

theorem fullK_eq {α : Type} (k : ℕ → ℕ → ℕ → α) (l : List (ℕ × ℕ × ℕ)) : ∀ x y z : ℕ,
    ∃ a b c, fullK k l x y z = k a b c ∧ state a b c = l.foldl fullRound (state x y z) := by
  induction l with
  | nil => intro x y z; exact ⟨x, y, z, rfl, rfl⟩
  | cons c l ih =>
    intro x y z
    have e : fullK k (c :: l) x y z = force (pow5K x c.1) fun x => force (pow5K y c.2.1) fun y =>
      force (pow5K z c.2.2) fun z => mdsK x y z (fullK k l) := rfl
    rw [e, force_eq, force_eq, force_eq]
    obtain ⟨a, b, d, h1, h2⟩ := mdsK_eq (pow5K x c.1) (pow5K y c.2.1) (pow5K z c.2.2) (fullK k l)
    obtain ⟨a', b', d', h3, h4⟩ := ih a b d
    refine ⟨a', b', d', h1.trans h3, ?_⟩
    rw [h4, h2, List.foldl_cons]
    unfold state fullRound
    rw [pow5K_cast, pow5K_cast, pow5K_cast]

theorem partK_eq {α : Type} (k : ℕ → ℕ → ℕ → α) (l : List (ℕ × ℕ × ℕ)) : ∀ x y z : ℕ,
    ∃ a b c, partK k l x y z = k a b c ∧ state a b c = l.foldl partialRound (state x y z) := by
  induction l with
  | nil => intro x y z; exact ⟨x, y, z, rfl, rfl⟩
  | cons c l ih =>
    intro x y z
    have e : partK k (c :: l) x y z = force (pow5K x c.1) fun x => force (y + c.2.1) fun y =>
      force (z + c.2.2) fun z => mdsK x y z (partK k l) := rfl
    rw [e, force_eq, force_eq, force_eq]
    obtain ⟨a, b, d, h1, h2⟩ := mdsK_eq (pow5K x c.1) (y + c.2.1) (z + c.2.2) (partK k l)
    obtain ⟨a', b', d', h3, h4⟩ := ih a b d
    refine ⟨a', b', d', h1.trans h3, ?_⟩
    rw [h4, h2, List.foldl_cons]
    unfold state partialRound
    rw [pow5K_cast, Nat.cast_add, Nat.cast_add]

/-- `hash`. -/
noncomputable def poseidonK (a b : ℕ) : ℕ :=
  fullK (partK (fullK (fun x _ _ => x) (roundConstants.drop 60)) ((roundConstants.drop 4).take 56))
    (roundConstants.take 4) a b 36893488147419103232

theorem poseidonK_cast (a b : ℕ) : ((poseidonK a b : ℕ) : Fp) = Poseidon.hash a b := by
  unfold poseidonK
  obtain ⟨x, y, z, h1, h2⟩ := fullK_eq (partK (fullK (fun x _ _ => x) (roundConstants.drop 60))
    ((roundConstants.drop 4).take 56)) (roundConstants.take 4) a b 36893488147419103232
  obtain ⟨x', y', z', h3, h4⟩ := partK_eq (fullK (fun x _ _ => x) (roundConstants.drop 60))
    ((roundConstants.drop 4).take 56) x y z
  obtain ⟨x'', y'', z'', h5, h6⟩ := fullK_eq (fun x _ _ => x) (roundConstants.drop 60) x' y' z'
  rw [h1, h3, h5]
  unfold Poseidon.hash permute
  dsimp only
  have hc : ((a : Fp), (b : Fp), (2 * 2 ^ 64 : Fp)) = state a b 36893488147419103232 := by
    unfold state
    rw [Nat.cast_ofNat]
    norm_num
  rw [hc, ← h2, ← h4, ← h6]
  rfl

end Orchard.Compute
