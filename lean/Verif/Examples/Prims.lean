import Verif.Crypto.Compute
import Verif.Crypto.Poseidon
import Verif.Lemmas.Keys
import Verif.Spec.Keys

/-!
# Concrete primitives for the non-vacuity examples

`P0` is one particular choice of the primitives, for which Sinsemilla is defined on every message
of at most 2000 bits in the three domains used by Orchard.  It only serves to show that the
hypotheses of the property theorems can be met together.
-/

namespace Orchard.Examples

/-- The Sinsemilla domain points. -/
def domainPoints : List Point := [Constants.qNoteCommit, Constants.qCommitIvk, Constants.qMerkleCrh]

theorem domainPoints_ne_zero : ∀ Q ∈ domainPoints, Q ≠ 0 := by
  intro Q hQ
  simp only [domainPoints, List.mem_cons, List.not_mem_nil, or_false] at hQ
  rcases hQ with rfl | rfl | rfl
  · exact Constants.qNoteCommit_ne_zero
  · exact Constants.qCommitIvk_ne_zero
  · exact Constants.qMerkleCrh_ne_zero

/-- With a constant table `S(m) = S`, the accumulator after `n` words. -/
def accAt (Q S : Point) (n : ℕ) : Point := (2 ^ n : Fq) • (Q + S) - S

/-- `S` avoids the exceptional cases for `Q` in step `n`. -/
def Avoids (Q S : Point) (n : ℕ) : Prop :=
  accAt Q S n ≠ 0 ∧ accAt Q S n ≠ S ∧ accAt Q S n ≠ -S ∧ (2 : Fq) • accAt Q S n ≠ -S

theorem step_of_avoids {P : Prims} {Q S : Point} (hS : S ≠ 0) (hP : ∀ m, P.sinsemillaS m = S) {n m : ℕ}
    (h : Avoids Q S n) : sinsemillaStep P (accAt Q S n) m = some (accAt Q S (n + 1)) := by
  obtain ⟨h0, h1, h2, h3⟩ := h
  unfold sinsemillaStep
  rw [hP]
  have e1 : incompleteAdd (accAt Q S n) S = some (accAt Q S n + S) := by
    unfold incompleteAdd
    rw [if_neg]
    rintro (h | h | h | h)
    · exact h0 h
    · exact hS h
    · exact h1 h
    · exact h2 h
  rw [e1, Option.bind_some]
  unfold incompleteAdd
  rw [if_neg]
  · congr 1
    unfold accAt
    rw [pow_succ]
    module
  · rintro (h | h | h | h)
    · exact h2 (eq_neg_of_add_eq_zero_left h)
    · exact h0 h
    · exact hS (by simpa using h)
    · apply h3
      have : (2 : Fq) • accAt Q S n = (accAt Q S n + S) + accAt Q S n - S := by module
      rw [this, h]; abel

theorem foldlM_of_avoids {P : Prims} {Q S : Point} (hS : S ≠ 0) (hP : ∀ m, P.sinsemillaS m = S)
    (N : ℕ) (h : ∀ n < N, Avoids Q S n) :
    ∀ (l : List ℕ) (n : ℕ), n + l.length ≤ N →
      l.foldlM (sinsemillaStep P) (accAt Q S n) = some (accAt Q S (n + l.length)) := by
  intro l
  induction l with
  | nil => intro n _; rfl
  | cons a l ih =>
    intro n hn
    rw [List.length_cons] at hn
    rw [List.foldlM_cons, step_of_avoids hS hP (h n (by omega)), Option.bind_eq_bind,
      Option.bind_some, ih (n + 1) (by omega), List.length_cons]
    congr 2; omega

/-- The Sinsemilla generator of the word 0 (`z.cash:SinsemillaS`), the constant Sinsemilla table entry of `P0`. -/
def S0 : Point := Point.ofXY (0xdb5218be6881f0f1431d4ea7d4afc7b29a05bafbede62b55a91eb912044ea5f : ℕ)
  (0x2f0f40c2f152a01c9caf66298493d5d0944a041c2e65ba0117c24f76bf8e6483 : ℕ) (by decide +kernel)

theorem S0_ne_zero : S0 ≠ 0 := Point.ofXY_ne_zero _ _ _

/-- The coordinates of `S0`. -/
def s0 : Compute.Pt := some (0xdb5218be6881f0f1431d4ea7d4afc7b29a05bafbede62b55a91eb912044ea5f,
  0x2f0f40c2f152a01c9caf66298493d5d0944a041c2e65ba0117c24f76bf8e6483)

theorem rep_S0 : Compute.Rep s0 S0 := Compute.rep_ofXY.2 ⟨by decide +kernel, rfl⟩

/-- `n` steps from the accumulator `a`: no accumulator is the identity or has the abscissa of `S0`. -/
noncomputable def avoidsK : ℕ → Compute.Pt → Bool
  | 0, a => a.isSome
  | n + 1, a => match a with
    | none => false
    | some (x, y) => !Compute.eq x 0xdb5218be6881f0f1431d4ea7d4afc7b29a05bafbede62b55a91eb912044ea5f &&
      avoidsK n (Compute.addPt 0 (Compute.addPt 0 (some (x, y)) s0) (some (x, y)))

theorem accAt_succ (Q S : Point) (n : ℕ) : accAt Q S (n + 1) = accAt Q S n + S + accAt Q S n := by
  unfold accAt
  rw [pow_succ]
  module

theorem avoidsK_sound {Q : Point} : ∀ (n m : ℕ) (a : Compute.Pt), Compute.Rep a (accAt Q S0 m) → avoidsK n a = true →
    accAt Q S0 (m + n) ≠ 0 ∧ ∀ j < n, Avoids Q S0 (m + j)
  | 0, m, a, ha, h => by
    refine ⟨?_, fun j hj => absurd hj (by omega)⟩
    rcases a with _ | ⟨x, y⟩
    · cases h
    · obtain ⟨h1, h2⟩ := Compute.rep_ofXY.1 ha
      rw [Nat.add_zero, h2]
      exact Point.ofXY_ne_zero _ _ _
  | n + 1, m, a, ha, h => by
    rcases a with _ | ⟨x, y⟩
    · cases h
    rw [avoidsK, Bool.and_eq_true, Bool.not_eq_true'] at h
    have hx := (Compute.eq_false_iff _ _).1 h.1
    have hs : Compute.Rep (Compute.addPt 0 (Compute.addPt 0 (some (x, y)) s0) (some (x, y))) (accAt Q S0 (m + 1)) := by
      rw [accAt_succ]
      exact Compute.rep_add (Compute.rep_add ha rep_S0) ha
    obtain ⟨h1, h2⟩ := avoidsK_sound n (m + 1) _ hs h.2
    have e : ∀ j, m + 1 + j = m + (j + 1) := fun j => by omega
    refine ⟨e n ▸ h1, fun j hj => ?_⟩
    rcases j with _ | j
    · have hne : accAt Q S0 (m + 1) ≠ 0 := by
        rcases n with _ | n
        · exact h1
        · exact (h2 0 (by omega)).1
      obtain ⟨e1, e2⟩ := Compute.rep_ofXY.1 ha
      rw [Nat.add_zero]
      refine ⟨?_, ?_, ?_, fun h => hne ?_⟩
      · rw [e2]; exact Point.ofXY_ne_zero _ _ _
      · rw [e2, S0, Ne, Point.ofXY_inj]
        exact fun h => hx h.1
      · rw [e2, S0, Point.neg_ofXY, Ne, Point.ofXY_inj]
        exact fun h => hx h.1
      · rw [accAt_succ, show accAt Q S0 m + S0 + accAt Q S0 m = (2 : Fq) • accAt Q S0 m + S0 by module, h]
        abel
    · exact e j ▸ h2 j (by omega)

theorem rep_intro {x y : ℕ} {x' y' : Fp} {e : y' ^ 2 = x' ^ 3 + 5} (hx : (x : Fp) = x') (hy : (y : Fp) = y') :
    Compute.Rep (some (x, y)) (Point.ofXY x' y' e) := by
  subst hx hy
  exact Compute.rep_ofXY.2 ⟨e, rfl⟩

set_option maxRecDepth 100000 in
theorem S0_avoids : ∀ Q ∈ domainPoints, ∀ n < 202, Avoids Q S0 n := by
  have key : ∀ (Q : Point) (a : Compute.Pt), Compute.Rep a Q → avoidsK 202 a = true → ∀ n < 202, Avoids Q S0 n := by
    intro Q a ha h n hn
    have h0 : accAt Q S0 0 = Q := by unfold accAt; rw [pow_zero, one_smul]; abel
    have := (avoidsK_sound 202 0 a (h0.symm ▸ ha) h).2 n hn
    rwa [Nat.zero_add] at this
  intro Q hQ
  simp only [domainPoints, List.mem_cons, List.not_mem_nil, or_false] at hQ
  rcases hQ with rfl | rfl | rfl
  · exact key _ (some (10629404576683096409262958701336170057000067777256141967953463442979689100381,
      22898949290933268079297281211505753011910178734473470279111609228438645877859)) (rep_intro Nat.cast_ofNat Nat.cast_ofNat) (by decide +kernel)
  · exact key _ (some (2593820817260930114322133467408868473290945477826616247349533151445648376562,
      12214744946019415453501880094709511126888074367290315326445800415816181472958)) (rep_intro Nat.cast_ofNat Nat.cast_ofNat) (by decide +kernel)
  · exact key _ (some (9991206725476878888751475603038274618448000607209514551456795194094072219296,
      24209798415301550423396126020228723009317736024280831393239261884225294625378)) (rep_intro Nat.cast_ofNat Nat.cast_ofNat) (by decide +kernel)

/-- Example primitives.  `PRF^expand` gives `1` for `ask` (`0x06`), `esk` (`0x04`), `2` for `nk`
(`0x07`), and `0` otherwise; `DiversifyHash` is the generator; Poseidon is the real one, and every Sinsemilla
generator is the real one of the word 0. -/
noncomputable def P0 : Prims where
  blake2b512 _ m := Bytes.ofNat 64
    (if m[32]? = some 0x06 ∨ m[32]? = some 0x04 then 1 else if m[32]? = some 0x07 then 2 else 0)
  blake2b256 _ m := Bytes.ofNat 32 (leNat m)
  hashToCurve _ _ := genG
  poseidon := Poseidon.hash
  sinsemillaS _ := S0
  ff1Round k i l := k.toNat + i * bitsNat l
  chacha20 k i := UInt8.ofNat (k.toNat + i)
  poly1305 k c := Bytes.ofNat 16 (k.toNat + leNat c)

theorem length_chunksAux_le (fuel : ℕ) : ∀ l : List Bool, 10 * (chunksAux fuel l).length ≤ l.length + 9 := by
  induction fuel with
  | zero => intro l; simp [chunksAux]
  | succ fuel ih =>
    intro l
    cases l with
    | nil => simp [chunksAux]
    | cons a l =>
      have := ih ((a :: l).drop 10)
      simp only [chunksAux, List.length_cons, List.length_drop] at *
      by_cases h : l.length + 1 ≤ 10
      · have h0 : (chunksAux fuel ((a :: l).drop 10)).length = 0 := by
          have : (a :: l).drop 10 = [] := List.drop_of_length_le (by simpa using h)
          rw [this]; cases fuel <;> simp [chunksAux]
        omega
      · omega

/-- Under `P0` Sinsemilla is defined, with a non-identity result. -/
theorem hash_P0 {Q : Point} (hQ : Q ∈ domainPoints) {msg : List Bool} (hm : msg.length ≤ 2000) :
    ∃ h, sinsemillaHashToPoint P0 Q msg = some h ∧ h ≠ 0 := by
  have hlen := length_chunksAux_le msg.length msg
  have hl : (chunks msg).length < 202 := by unfold chunks; omega
  have h0 : Q = accAt Q S0 0 := by unfold accAt; rw [pow_zero, one_smul]; abel
  refine ⟨accAt Q S0 (chunks msg).length, ?_, (S0_avoids Q hQ _ hl).1⟩
  unfold sinsemillaHashToPoint
  conv_lhs => rw [h0]
  have := foldlM_of_avoids (P := P0) (Q := Q) S0_ne_zero (fun _ => rfl) 202 (S0_avoids Q hQ)
    (chunks msg) 0 (by omega)
  rw [this, Nat.zero_add]

theorem prfExpand_P0 (dst : UInt8) (sk : Bytes 32) (t : List UInt8) :
    prfExpand P0 dst sk t = Bytes.ofNat 64 (if dst = 0x06 ∨ dst = 0x04 then 1 else if dst = 0x07 then 2 else 0) := by
  unfold prfExpand
  have : (sk.toList ++ dst :: t)[32]? = some dst := by
    rw [List.getElem?_append_right (by simp)]; simp
  simp only [P0, this, Option.some.injEq]

theorem toScalar_ofNat {n : ℕ} (h : n < 256 ^ 64) : toScalar (Bytes.ofNat 64 n) = (n : Fq) := by
  unfold toScalar Fq.fromUniform; rw [Bytes.toNat_ofNat h]

theorem toBase_ofNat {n : ℕ} (h : n < 256 ^ 64) : toBase (Bytes.ofNat 64 n) = (n : Fp) := by
  unfold toBase Fp.fromUniform; rw [Bytes.toNat_ofNat h]

theorem askScalar_P0 (sk : Bytes 32) : Spec.askScalar P0 sk = 1 := by
  unfold Spec.askScalar
  rw [prfExpand_P0, toScalar_ofNat (by norm_num)]
  simp

theorem commitIvk_P0 (ak nk : Fp) : ∃ ivk, commitIvk P0 ak nk 0 = some ivk ∧ ivk ≠ 0 := by
  obtain ⟨h, h1, h2⟩ := hash_P0 (Q := Constants.qCommitIvk)
    (msg := Fp.toLeBits 255 ak ++ Fp.toLeBits 255 nk) (by simp [domainPoints])
    (by simp [Fp.toLeBits])
  refine ⟨extractP h, ?_, fun h0 => h2 (extractP_eq_zero.1 h0)⟩
  unfold commitIvk sinsemillaShortCommit sinsemillaCommit
  rw [h1]; simp

/-- Under `P0` every spending key has a valid full viewing key. -/
theorem fvk_P0 (sk : SpendingKey) : ∃ fvk, FullViewingKey.ofSk P0 sk = .ret fvk ∧
    fvk.nk = 2 ∧ fvk.rivk = 0 ∧ Spec.ValidFvk P0 fvk.ak.point fvk.nk fvk.rivk := by
  have h : askInner P0 sk ≠ 0 := by
    have := askScalar_P0 sk.bytes
    unfold askInner
    unfold Spec.askScalar at this
    rw [this]; exact one_ne_zero
  obtain ⟨ask, h1, h2, h3, h4⟩ := askOfSk_spec h
  have hr : rivkOfSk P0 sk = 0 := by
    unfold rivkOfSk
    rw [prfExpand_P0, toScalar_ofNat (by decide +kernel)]; decide +kernel
  have hn : nkOfSk P0 sk = 2 := by
    unfold nkOfSk
    rw [prfExpand_P0, toBase_ofNat (by decide +kernel)]; decide +kernel
  have hri : Spec.rivkInternal P0 ask.vk.point 2 0 = 0 := by
    unfold Spec.rivkInternal
    rw [prfExpand_P0, toScalar_ofNat (by decide +kernel)]; decide +kernel
  refine ⟨⟨ask.vk, nkOfSk P0 sk, rivkOfSk P0 sk⟩, ?_, hn, hr, ?_⟩
  · unfold FullViewingKey.ofSk; rw [h1]; rfl
  · rw [hr, hn]
    refine ⟨smul_spendAuthG_ne_zero h3, ?_, commitIvk_P0 _ _, ?_⟩
    · rcases Point.cases_xy ask.vk.point with e | ⟨x, y, hxy, e⟩
      · rw [e]; rfl
      · rw [e, signBit_ofXY] at h4
        rw [e]; exact h4
    · rw [hri]; exact commitIvk_P0 _ _

end Orchard.Examples
