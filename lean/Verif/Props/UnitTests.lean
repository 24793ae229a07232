import Verif.Lemmas.UnitTests
import Verif.Props.Testing
import Verif.Props.Complete
import Verif.Crypto.EvalKeys

/-!
# Property C104: the crate's unit tests pass, for all inputs they make sense for
-/

namespace Orchard

open Tests Zip32 Testing

/-- **C104** (`spec.rs`). The round trips between integers and bit strings pass for every integer and for
every bit string of at most 64 bits; with more bits they panic. -/
theorem C104_bits :
    (∀ int, lebs2ipRoundTrip int = .ret ()) ∧
    (∀ bits, bits.length ≤ 64 → i2lebspRoundTrip bits = .ret ()) ∧
    ∀ bits, 64 < bits.length → i2lebspRoundTrip bits = .panic := by
  refine ⟨fun int => ?_, fun bits h => ?_, fun bits h => ?_⟩
  · unfold lebs2ipRoundTrip
    rw [lebs2ipOf_passes, Outcome.ret_bind, lebs2ipOf_passes, Outcome.ret_bind, lebs2ipOf_passes]
  · unfold i2lebspRoundTrip
    rw [i2lebspOf_passes _ h, Outcome.ret_bind, i2lebspOf_passes _ (by simp), Outcome.ret_bind,
      i2lebspOf_passes _ (by simp), Outcome.ret_bind, i2lebspOf_passes _ (by simp)]
  · unfold i2lebspRoundTrip i2lebspOf
    rw [(C60_lebs2ip bits).2 h]
    rfl

/-- **C104** (`constants/sinsemilla.rs`). The same for `K = 10` bits: integers below 1024, and strings of 10
bits. -/
theorem C104_k_bits :
    (∀ int : UInt64, int.toNat < 1024 → lebs2ipKRoundTrip int = .ret ()) ∧
    ∀ bits, bits.length = 10 → i2lebspKRoundTrip bits = .ret () := by
  refine ⟨fun int h => ?_, fun bits h => ?_⟩
  · unfold lebs2ipKRoundTrip
    rw [lebs2ipKOf_passes _ h, Outcome.ret_bind, lebs2ipKOf_passes _ (by decide), Outcome.ret_bind,
      lebs2ipKOf_passes _ (by decide)]
  · unfold i2lebspKRoundTrip
    rw [i2lebspKOf_passes _ h, Outcome.ret_bind, i2lebspKOf_passes _ (by simp [Constants.K]),
      Outcome.ret_bind, i2lebspKOf_passes _ (by simp [Constants.K])]

/-- **C104** (constants). The tests of `t_q`, `t_p` and of the inverse of `2^K` pass. -/
theorem C104_constants : tQTest = .ret () ∧ tPTest = .ret () ∧ invTwoPowKTest = .ret () := by
  refine ⟨?_, ?_, ?_⟩
  · unfold tQTest
    rw [show ((Constants.T_Q : ℕ) : Fq) + (2 ^ 127) ^ 2 = 0 by decide +kernel, assertEqO_self]
  · unfold tPTest
    rw [show ((Constants.T_P : ℕ) : Fp) + (2 ^ 127) ^ 2 = 0 by decide +kernel, assertEqO_self]
  · obtain ⟨i, h1, h2⟩ := C59_constants.2.2.1
    unfold invTwoPowKTest
    rw [h1, Option.unwrapO_some, Outcome.ret_bind]
    have : ((1 <<< Constants.K : ℕ) : Fp) * i = 1 := by
      rw [← h2, mul_comm]
      congr 1
    rw [this, assertEqO_self]

/-- **C104** (coordinates). The test of a tabulated point passes exactly if the table decodes to that point. -/
theorem C104_coordinates (A : Point) (t : Bytes 32 × Bytes 32) :
    coordinatesTest A t = .ret () ↔ pointFromTable t = some A :=
  ⟨coordinatesTest_decodes, coordinatesTest_passes⟩

/-- **C104** (hash to curve). With hash-to-curve as specified, all tabulated generators are what the tests
compute, and the substitute for an identity diversified base is not the identity. -/
theorem C104_generators (P : Prims) (hP : P.hashToCurve = HashToCurve.hashToCurve) :
    diversifyHashSubstitution P = .ret () ∧ qTests P = .ret () ∧ generatorTests P = .ret () := by
  obtain ⟨g1, g2, g3, g4, g5, g6, g7, g8, g9⟩ := C73_generators
  obtain ⟨d1, d2, d3, d4, d5, d6, d7, d8, d9⟩ := C59_generators_decode
  refine ⟨?_, ?_, ?_⟩
  · unfold diversifyHashSubstitution
    have h : HashToCurve.hashToCurve (ascii "z.cash:Orchard-gd") [] ≠ 0 := Generators.gd_ne_zero
    rw [hP, decide_eq_false h]
    rfl
  · unfold qTests domainQ
    rw [hP, g7, g8, g9, coordinatesTest_passes d7, Outcome.ret_bind, coordinatesTest_passes d8,
      Outcome.ret_bind, coordinatesTest_passes d9]
  · unfold generatorTests
    rw [hP, g1, g2, g3, g4, g5, g6, coordinatesTest_passes d1, Outcome.ret_bind,
      coordinatesTest_passes d2, Outcome.ret_bind, coordinatesTest_passes d3, Outcome.ret_bind,
      coordinatesTest_passes d4, Outcome.ret_bind, coordinatesTest_passes d5, Outcome.ret_bind,
      coordinatesTest_passes d6]

/-- **C104** (fixed-base tables, any base). For tables of `n` windows with 8 entries each and `u64`s in the
first, the test passes exactly if they fit the base. -/
theorem C104_window_tables (b : FixedBase) (n : ℕ) (hz : b.z.length = n) (hu : b.u.length = n)
    (hr : ∀ w < n, (b.u.getD w []).length = 8) (hz64 : ∀ w < n, b.z.getD w 0 < 2 ^ 64) :
    zsAndUsTest b n = .ret () ↔ Spec.TablesFit b.generator n b.z b.u :=
  ⟨zsAndUs_fits hz hu hr hz64, zsAndUs_passes⟩

/-- **C104** (fixed-base tables). The tests of the `z` and `u` tables pass for all six bases. -/
theorem C104_tables : zTests = .ret () := by
  obtain ⟨h1, h2, h3⟩ := C74_tables
  unfold zTests
  rw [show numWindows = 85 from rfl, forM_passes fun b _ => zsAndUs_passes (h1 b), Outcome.ret_bind, zsAndUs_passes h2,
    Outcome.ret_bind]
  exact zsAndUs_passes h3

/-- **C104** (interpolation). For any base the test of the interpolation passes exactly if no point of a window is
the identity, and it passes for all six bases. -/
theorem C104_lagrange : (∀ B n, lagrangeCoeffsTest B n = .ret () ↔
      ∀ w < n, ∀ k < 8, Spec.windowScalar n w k • B ≠ 0) ∧ lagrangeTests = .ret () := by
  refine ⟨lagrangeCoeffsTest_iff, ?_⟩
  have key : ∀ {B : Point} {n : ℕ} {z : List ℕ} {u : List (List ℕ)}, Spec.TablesFit B n z u →
      lagrangeCoeffsTest B n = .ret () := by
    intro B n z u h
    refine (lagrangeCoeffsTest_iff B n).2 fun w hw k hk => ?_
    obtain ⟨-, -, x, y, hc, e, -⟩ := (h.2.2 w hw).2 k hk
    rw [e]
    exact Point.ofXY_ne_zero _ _ _
  obtain ⟨h1, h2, h3⟩ := C74_tables
  unfold lagrangeTests
  rw [show numWindows = 85 from rfl, forM_passes fun b _ => key (h1 b), Outcome.ret_bind, key h2,
    Outcome.ret_bind]
  exact key h3

/-- **C104** (parsers). The tests that parsers reject invalid encodings pass. -/
theorem C104_parsers : spendValidatingKeyFromBytes = .ret () ∧ parsersRejectInvalid = .ret () := by
  have h0 : ∀ {α : Type} {o : Option α}, o = none → assertO o.isNone = .ret () := by
    rintro α o rfl; rfl
  refine ⟨?_, ?_⟩
  · unfold spendValidatingKeyFromBytes
    apply h0
    cases h : SpendValidatingKey.fromBytes (Bytes.replicate 32 0) with
    | none => rfl
    | some ak =>
      obtain ⟨h1, h2, -⟩ := svk_fromBytes_iff.1 h
      refine absurd (Point.toBytes_injective (h1.symm.trans ?_)) h2
      rw [Point.toBytes_zero]
      decide +kernel
  · unfold parsersRejectInvalid
    have e1 : eskFromBytes (Bytes.replicate 32 0xff) = none := by
      cases h : eskFromBytes (Bytes.replicate 32 0xff) with
      | none => rfl
      | some s =>
        have h1 := ((C48_ephemeral_secret_key _ s).1 h).1
        have h2 := ZMod.val_lt s
        rw [← h1] at h2
        exact absurd h2 (by decide +kernel)
    have e2 : epkFromBytes (Bytes.replicate 32 0xff) = none :=
      C49_non_identity_points.2.2.2.2.2.1 _ (by decide +kernel)
    rw [h0 e1, Outcome.ret_bind, h0 e2]

/-- **C104** (ZIP 32). For seeds of 32 to 252 bytes and indices below `2^31`, the derivation tests pass
exactly if all spending keys on the path are valid. -/
theorem C104_zip32 (P : Prims) (seed : List UInt8) (h32 : 32 ≤ seed.length) (h252 : seed.length ≤ 252)
    (i j : UInt32) (hi : i.toNat < 2 ^ 31) (hj : j.toNat < 2 ^ 31) :
    (deriveChildTest P seed i = .ret () ↔ Spec.AllValid P seed [2 ^ 31 + i.toNat]) ∧
    (pathTest P seed i j = .ret () ↔ Spec.AllValid P seed [2 ^ 31 + i.toNat, 2 ^ 31 + j.toNat]) := by
  obtain ⟨c, hc, hc'⟩ := mkHardened_ret hi
  obtain ⟨d, hd, hd'⟩ := mkHardened_ret hj
  rw [deriveChildTest_iff P seed hc, pathTest_iff P seed hc hd, (C50_derivation P seed h32 h252 _).1,
    (C50_derivation P seed h32 h252 _).1]
  simp [hc', hd']

/-- **C104** (Commit^ivk). For any inputs, the circuit test passes exactly if the commitment is defined. -/
theorem C104_commit_ivk (P : Prims) (ak nk : Fp) (rivk : Fq) :
    commitIvkTest P ak nk rivk = .ret () ↔ ∃ ivk, commitIvk P ak nk rivk = some ivk :=
  commitIvkTest_iff P ak nk rivk

/-- **C104** (NoteCommit). For all points given by `x` and the parity of `y`, and any other inputs, the
circuit test passes exactly if the commitment is defined and not the identity. If no point has one of the
coordinates, it panics. -/
theorem C104_note_commit (P : Prims) (gx gl kx kl : Fp) (v : NoteValue) (rho psi : Fp) (rcm : Fq) :
    (∀ gy ky (hg : gy ^ 2 = gx ^ 3 + 5) (hk : ky ^ 2 = kx ^ 3 + 5), gl = ((gy.val % 2 : ℕ) : Fp) →
      kl = ((ky.val % 2 : ℕ) : Fp) →
      (noteCommitTest P gx gl kx kl v rho psi rcm = .ret () ↔
        ∃ cm, Spec.noteCommit P (Point.ofXY gx gy hg) (Point.ofXY kx ky hk) v.inner.toNat rho psi rcm =
          some cm ∧ cm ≠ 0)) ∧
    ((¬ ∃ y : Fp, y ^ 2 = gx ^ 3 + 5) ∨ (¬ ∃ y : Fp, y ^ 2 = kx ^ 3 + 5) →
      noteCommitTest P gx gl kx kl v rho psi rcm = .panic) := by
  refine ⟨?_, ?_⟩
  · rintro gy ky hg hk rfl rfl
    exact noteCommitTest_iff P hg hk v rho psi rcm
  · intro h
    unfold noteCommitTest
    rcases h with h | h
    · rw [pointWithX_panic h]; rfl
    · cases pointWithX gx gl with
      | panic => rfl
      | ret gd => rw [Outcome.ret_bind, pointWithX_panic h]; rfl

namespace Examples

/-- The 11 bits `10000000000` and 65 bits. -/
example : i2lebspRoundTrip (true :: List.replicate 10 false) = .ret () ∧
    i2lebspRoundTrip (List.replicate 65 true) = .panic :=
  ⟨C104_bits.2.1 _ (by simp), C104_bits.2.2 _ (by simp)⟩

/-- The fully concrete primitives meet the hypothesis of `C104_generators`. -/
example : generatorTests Prims.zcash = .ret () :=
  (C104_generators _ Compute.zcash_hashToCurve).2.2

/-- The test of the table of coordinates fails for another point. -/
example : coordinatesTest Constants.nullifierK Constants.spendAuthGBytes ≠ .ret () := by
  rw [Ne, C104_coordinates, C59_generators_decode.1, Option.some.injEq]
  have h := C73_distinct
  simp only [List.pairwise_cons] at h
  exact (h.1 _ (by simp)).1

/-- For the identity as the base the interpolation test fails. -/
example : lagrangeCoeffsTest 0 1 ≠ .ret () := by
  rw [Ne, C104_lagrange.1]
  intro h
  exact h 0 (by norm_num) 0 (by norm_num) (zsmul_zero _)

/-- Under `P0`, with the seed and indices of the tests. -/
example : deriveChildTest P0 (List.replicate 32 0) 0 = .ret () ∧
    pathTest P0 (List.replicate 32 0) 5 7 = .ret () := by
  have h := C104_zip32 P0 (List.replicate 32 0) (by simp) (by simp)
  exact ⟨(h 0 0 (by decide) (by decide)).1.2 fun _ _ => validSk_P0 _,
    (h 5 7 (by decide) (by decide)).2.2 fun _ _ => validSk_P0 _⟩

example : commitIvkTest P0 3 7 0 = .ret () :=
  (C104_commit_ivk P0 3 7 0).2 ((commitIvk_P0 3 7).imp fun _ h => h.1)

/-- Under `P0`, with the points `(-1, 2)` and `(-1, -2)`: 2 is even and `-2` is odd. -/
example : noteCommitTest P0 (-1) 0 (-1) 1 ⟨5⟩ 1 2 0 = .ret () := by
  have h1 : (2 : Fp) ^ 2 = (-1) ^ 3 + 5 := by norm_num
  have h2 : (-2 : Fp) ^ 2 = (-1) ^ 3 + 5 := by norm_num
  refine ((C104_note_commit P0 (-1) 0 (-1) 1 ⟨5⟩ 1 2 0).1 2 (-2) h1 h2 (by decide +kernel)
    (by decide +kernel)).2 ?_
  obtain ⟨h, e, hne⟩ := hash_P0 (Q := Constants.qNoteCommit)
    (msg := Spec.noteBits (Point.ofXY (-1) 2 h1) (Point.ofXY (-1) (-2) h2) 5 1 2) (by simp [domainPoints])
    (by simp [Spec.length_noteBits])
  refine ⟨h, ?_, hne⟩
  unfold Spec.noteCommit
  rw [show (⟨5⟩ : NoteValue).inner.toNat = 5 from rfl, e]
  simp

end Examples

end Orchard
