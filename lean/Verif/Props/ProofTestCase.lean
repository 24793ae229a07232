import Verif.Model.ProofTestCase
import Verif.Props.Tests
import Verif.Props.Encodings

/-!
# Property C103: the file format of the proof test case
-/

namespace Orchard

open RedPallas Testing Tests

/-- The layout of the file: anchor, net value commitment, nullifier, randomised key and note commitment
with 32 bytes each, two bytes that are 0 or 1, and the proof. -/
def Spec.IsTestCase (b : List UInt8) (x : Instance) (proof : List UInt8) : Prop :=
  ∃ (an cv nf rk cm : Bytes 32) (s o : UInt8),
    b = an.toList ++ cv.toList ++ nf.toList ++ rk.toList ++ cm.toList ++ [s, o] ++ proof ∧
    leNat an.toList = x.anchor.val ∧ Spec.Compressed cv x.cvNet.inner ∧ leNat nf.toList = x.nfOld.val ∧
    Spec.Compressed rk x.rk.point ∧ leNat cm.toList = x.cmx.val ∧
    (s = 1 ∧ x.enableSpend = true ∨ s = 0 ∧ x.enableSpend = false) ∧
    (o = 1 ∧ x.enableOutput = true ∨ o = 0 ∧ x.enableOutput = false)

theorem readExact_append {n : ℕ} (b : Bytes n) (r : List UInt8) :
    readExact n (b.toList ++ r) = .ret (b, r) := by
  unfold readExact
  have h1 : (b.toList ++ r).take n = b.toList := by
    rw [List.take_append_of_le_length (by simp), List.take_of_length_le (by simp)]
  have h2 : (b.toList ++ r).drop n = r := by
    rw [List.drop_append_of_le_length (by simp), List.drop_of_length_le (by simp), List.nil_append]
  have h3 : Bytes.ofList? n b.toList = some b := by
    unfold Bytes.ofList?
    rw [dif_pos (by simp)]
    rfl
  rw [h1, h2, h3]; rfl

theorem readExact_ret {n : ℕ} {r : List UInt8} {x : Bytes n × List UInt8} (h : readExact n r = .ret x) :
    r = x.1.toList ++ x.2 := by
  unfold readExact at h
  unfold Bytes.ofList? at h
  split at h
  · rename_i hl
    cases h
    exact (List.take_append_drop n r).symm
  · exact absurd h (by simp)

theorem readBool_cons (c : Bool) (r : List UInt8) :
    readBool ((if c then 1 else 0) :: r) = .ret (c, r) := by
  have h := readExact_append (n := 1) ⟨[if c then 1 else 0], rfl⟩ r
  unfold readBool
  have h' : readExact 1 ((if c then 1 else 0) :: r) =
    .ret (⟨[if c then 1 else 0], rfl⟩, r) := h
  rw [h', Outcome.ret_bind]
  cases c <;> rfl

theorem readBool_ret {r : List UInt8} {x : Bool × List UInt8} (h : readBool r = .ret x) :
    r = (if x.1 then 1 else 0) :: x.2 := by
  unfold readBool at h
  rw [Outcome.bind_eq_ret] at h
  obtain ⟨b, hb, h⟩ := h
  have hr := readExact_ret hb
  split at h
  · rename_i h0
    cases h
    rw [hr, h0]; rfl
  · split at h
    · rename_i h0
      cases h
      rw [hr, h0]; rfl
    · exact absurd h (by simp)

theorem unwrapO_ret {α : Type} {x : Option α} {a : α} (h : Option.unwrapO x = .ret a) : x = some a := by
  cases x with
  | none => exact absurd h (by simp)
  | some b => cases h; rfl

theorem readTestCase_write (x : Instance) (proof : List UInt8) :
    readTestCase (writeTestCase x proof) = .ret (x, proof) := by
  unfold readTestCase writeTestCase
  simp only [List.append_assoc, List.cons_append, List.nil_append]
  rw [readExact_append, Outcome.ret_bind, C48_base_field_types.1.2.2.2.1, Option.unwrapO_some,
    Outcome.ret_bind, readExact_append, Outcome.ret_bind, (C49_points .spendAuth).1.2.2.1 _ trivial,
    Option.unwrapO_some, Outcome.ret_bind, readExact_append, Outcome.ret_bind,
    C48_base_field_types.2.2.1.2.2.2.1, Option.unwrapO_some, Outcome.ret_bind, readExact_append,
    Outcome.ret_bind, (C49_points .spendAuth).2.2.2.1 _ trivial, Option.unwrapO_some, Outcome.ret_bind,
    readExact_append, Outcome.ret_bind, C48_base_field_types.2.2.2.1.2.2.2.1, Option.unwrapO_some,
    Outcome.ret_bind, readBool_cons, Outcome.ret_bind, readBool_cons, Outcome.ret_bind]
  rfl

theorem readTestCase_ret {b : List UInt8} {y : Instance × List UInt8} (h : readTestCase b = .ret y) :
    b = writeTestCase y.1 y.2 := by
  unfold readTestCase at h
  simp only [Outcome.bind_eq_ret] at h
  obtain ⟨b1, h1, an, e1, b2, h2, cv, e2, b3, h3, nf, e3, b4, h4, rk, e4, b5, h5, cm, e5, s, hs, o, ho, h⟩ :=
    h
  cases h
  have e1 := C48_base_field_types.1.2.2.2.2 _ _ (unwrapO_ret e1)
  have e2 := (C49_points .spendAuth).1.2.2.2.1 _ _ (unwrapO_ret e2)
  have e3 := C48_base_field_types.2.2.1.2.2.2.2 _ _ (unwrapO_ret e3)
  have e4 := (C49_points .spendAuth).2.2.2.2.1 _ _ (unwrapO_ret e4)
  have e5 := C48_base_field_types.2.2.2.1.2.2.2.2 _ _ (unwrapO_ret e5)
  unfold writeTestCase
  simp only [List.append_assoc, List.cons_append, List.nil_append]
  rw [e1, e2, e3, e4, e5, ← readBool_ret ho, ← readBool_ret hs, ← readExact_ret h5, ← readExact_ret h4,
    ← readExact_ret h3, ← readExact_ret h2, ← readExact_ret h1]

theorem isTestCase_write (x : Instance) (proof : List UInt8) :
    Spec.IsTestCase (writeTestCase x proof) x proof := by
  refine ⟨_, _, _, _, _, if x.enableSpend then 1 else 0, if x.enableOutput then 1 else 0, rfl,
    C48_base_field_types.1.2.2.1 _, (C49_points .spendAuth).1.2.1 _,
    C48_base_field_types.2.2.1.2.2.1 _, (C49_points .spendAuth).2.2.1 _,
    C48_base_field_types.2.2.2.1.2.2.1 _, ?_, ?_⟩
  · cases x.enableSpend <;> simp
  · cases x.enableOutput <;> simp

theorem isTestCase_eq {b : List UInt8} {x : Instance} {proof : List UInt8}
    (h : Spec.IsTestCase b x proof) : b = writeTestCase x proof := by
  obtain ⟨an, cv, nf, rk, cm, s, o, rfl, h1, h2, h3, h4, h5, h6, h7⟩ := h
  have e1 := C48_base_field_types.1.2.2.2.2 _ _ ((C48_base_field_types.1.1 an x.anchor).2 h1)
  have e2 := (C49_points .spendAuth).1.2.2.2.1 _ _ (((C49_points .spendAuth).1.1 cv x.cvNet).2 ⟨h2, trivial⟩)
  have e3 := C48_base_field_types.2.2.1.2.2.2.2 _ _ ((C48_base_field_types.2.2.1.1 nf x.nfOld).2 h3)
  have e4 := (C49_points .spendAuth).2.2.2.2.1 _ _ (((C49_points .spendAuth).2.1 rk x.rk).2 ⟨h4, trivial⟩)
  have e5 := C48_base_field_types.2.2.2.1.2.2.2.2 _ _ ((C48_base_field_types.2.2.2.1.1 cm x.cmx).2 h5)
  unfold writeTestCase
  rw [e1, e2, e3, e4, e5]
  rcases h6 with ⟨rfl, h6⟩ | ⟨rfl, h6⟩ <;> rcases h7 with ⟨rfl, h7⟩ | ⟨rfl, h7⟩ <;> rw [h6, h7] <;> rfl

/-- **C103.** The writer of test cases writes the layout, for every instance and proof. -/
theorem C103_write (x : Instance) (proof b : List UInt8) :
    writeTestCase x proof = b ↔ Spec.IsTestCase b x proof :=
  ⟨fun h => h ▸ isTestCase_write x proof, fun h => (isTestCase_eq h).symm⟩

/-- **C103.** The reader of test cases accepts exactly the files with the layout, returns what is in them,
and panics on all others. -/
theorem C103_read (b : List UInt8) :
    (∀ x proof, readTestCase b = .ret (x, proof) ↔ Spec.IsTestCase b x proof) ∧
    (readTestCase b = .panic ↔ ¬ ∃ x proof, Spec.IsTestCase b x proof) := by
  have h : ∀ x proof, readTestCase b = .ret (x, proof) ↔ Spec.IsTestCase b x proof := by
    intro x proof
    rw [← C103_write]
    constructor
    · intro h; exact (readTestCase_ret h).symm
    · rintro rfl; exact readTestCase_write x proof
  refine ⟨h, ?_⟩
  constructor
  · rintro hp ⟨x, proof, hx⟩
    rw [(h x proof).2 hx] at hp
    exact absurd hp (by simp)
  · intro hn
    cases hr : readTestCase b with
    | panic => rfl
    | ret y => exact absurd ⟨y.1, y.2, (h _ _).1 hr⟩ hn

/-- **C103.** Nothing is lost in a file: reading what was written returns it, and different cases are
different files.  The part before the proof has 162 bytes. -/
theorem C103_round_trip (x : Instance) (proof : List UInt8) :
    readTestCase (writeTestCase x proof) = .ret (x, proof) ∧
    (writeTestCase x proof).length = 162 + proof.length ∧
    ∀ x' proof', writeTestCase x' proof' = writeTestCase x proof → x' = x ∧ proof' = proof := by
  refine ⟨readTestCase_write x proof, ?_, ?_⟩
  · unfold writeTestCase
    simp only [List.length_append, Bytes.length_toList, List.length_cons, List.length_nil]
  · intro x' proof' h
    have := readTestCase_write x' proof'
    rw [h, readTestCase_write] at this
    cases this
    exact ⟨rfl, rfl⟩

section

variable {P : Prims} {Rnd : Type}
  {prover : Rnd → List Circuit → List (List Fp) → Except ProofError (List UInt8)}
  {verifier : List (List Fp) → List UInt8 → Bool}

/-- **C103.** A new test case passes: with a complete proof system whose proofs for one action have 4992
bytes, and random values that end every rejection loop and give non-zero keys, making a test case
succeeds and the test accepts the file.  The exception is that of C102. -/
theorem C103_regenerate (hP : P.hashToCurve keyDiversificationPersonalization [] ≠ 0)
    (hps : Spec.CompleteProofSystem P prover verifier)
    (hlen : ∀ rnd cs is proof, prover rnd cs is = .ok proof → proof.length = Pinned.proofSize cs.length)
    {rng : CircuitDraws} (hg : Spec.GoodCircuitDraws P rng) (rnd : Rnd) :
    (∃ file, createTestCase P prover verifier rng rnd = .ok file ∧
      checkTestCase verifier file = .ret ()) ∨
    ∃ sk fvk n cm, Note.dummy P rng.skOld none rng.rhoPoint rng.seedsOld = .ret (some (sk, fvk, n)) ∧
      Spec.commitmentOf P n = some cm ∧
      ∃ x ∈ pathInputs P rng.path.position.toNat 0 rng.path.authPath (extractP cm),
        sinsemillaHashToPoint P Constants.qMerkleCrh (merkleBits x.1 x.2.1 x.2.2) = none ∧
        ∃ L ∈ botCandidates (chunks (merkleBits x.1 x.2.1 x.2.2)),
          L.IsRelation P Constants.qMerkleCrh 0 := by
  obtain ⟨sk, n, cm, r, c, x, h1, h2, h3, h4, h5, h6, s1, s2, s3, hsk, hown, ⟨sk', hsk', hown'⟩, hwit,
    hrk, hcv, hnf, hrk', hrho, hcmx, v1, v2⟩ := instance_spec hg
  rcases row_complete hP (r := r) (c := c) (x := x) (by rw [s1]; exact hsk.2)
    (by rw [s1, s2, s3]; exact hown) (owned_pkd_ne_zero hP hsk'.2 hown') hwit hrk (by rw [s3]; exact hcv)
    (by rw [s3, s1]; exact ⟨cm, h2, hnf⟩) (by rw [s1]; exact hrk') hrho hcmx (by rw [s3]; exact Or.inl v1)
    (Or.inl v2) with ⟨k, inst, k1, k2, k3⟩ | he
  · left
    obtain ⟨proof, p1, p2⟩ := hps rnd [c] [inst] (.cons ⟨k, k1, k3⟩ .nil)
    have hi : [x].mapM Instance.toHalo2 = .ret [inst] := by
      rw [List.mapM_cons, k2, Outcome.ret_bind, List.mapM_nil]; rfl
    have hl := hlen _ _ _ _ p1
    rw [List.length_singleton, C105_test.1] at hl
    refine ⟨writeTestCase x proof, ?_, ?_⟩
    · unfold createTestCase check proofCreate proofVerify
      rw [h6, Run.ok_bind]
      simp only
      rw [hi, Outcome.ret_bind, p1, Outcome.pure_eq, Run.ofOutcome_ret, Run.ok_bind, unwrapResult,
        Run.ofOutcome_ret, Run.ok_bind, Outcome.ret_bind, p2, Outcome.pure_eq, Run.ofOutcome_ret,
        Run.ok_bind, assertO_true, Run.ofOutcome_ret, Run.ok_bind]
      rfl
    · unfold checkTestCase proofVerify
      rw [readTestCase_write, Outcome.ret_bind]
      simp only
      rw [decide_eq_true hl, assertO_true, Outcome.ret_bind, hi, Outcome.ret_bind,
        p2, Outcome.pure_eq, Outcome.ret_bind, assertO_true]
  · rw [h3, h4, h5] at he
    exact Or.inr ⟨sk, _, n, cm, h1, h2, he⟩

end

theorem leBytes_add (a b x : ℕ) : leBytes (a + b) x = leBytes a x ++ leBytes b (x / 256 ^ a) := by
  induction a generalizing x with
  | zero => simp [leBytes]
  | succ a ih =>
    rw [Nat.succ_add]
    simp only [leBytes, List.cons_append]
    rw [ih, Nat.div_div_eq_div_mul, pow_succ, mul_comm]

/-- The net value commitment in `circuit_proof_test_case.bin`. -/
def fileCv : Point :=
  Point.ofXY
    13060772885613603422576257816545244340622948973148662428756124377689846151428
    27115111714024460722186118292003721860309403994598368042883826425197795799747
    (by decide +kernel)

/-- The randomised key in `circuit_proof_test_case.bin`. -/
def fileRk : Point :=
  Point.ofXY
    27446211987786668256246499572735007584752372554864811103239565159239834064869
    6690433258655703372589936285605424101263231223474555749908522968598417417108
    (by decide +kernel)

theorem fileRk_ne_zero : fileRk ≠ 0 := Point.ofXY_ne_zero _ _ _

/-- The instance in `circuit_proof_test_case.bin`. -/
def fileInstance : Instance where
  anchor := 25577514746509787021906124827726039076343463232674921353973539679256922024272
  cvNet := ⟨fileCv⟩
  nfOld := 23233510003776333933828235277844297261160056505842210787244733910176423682309
  rk := ⟨fileRk⟩
  cmx := 12265921024464700777343619348485364736916936415888566105371699514944880005798
  enableSpend := true
  enableOutput := true

theorem toHalo2_some {x : Instance} (h : x.rk.point ≠ 0) : ∃ inputs, x.toHalo2 = .ret inputs := by
  unfold Instance.toHalo2 VerificationKey.toBytes
  rw [Point.fromBytes_toBytes]
  rcases Point.cases_xy x.rk.point with h0 | ⟨x', y', h', h0⟩
  · exact absurd h0 h
  · rw [h0]; exact ⟨_, rfl⟩

theorem file_header : leBytes 162 Tables.proofTestCaseNat = writeTestCase fileInstance [] := by
  decide +kernel

theorem writeTestCase_append (x : Instance) (proof : List UInt8) :
    writeTestCase x proof = writeTestCase x [] ++ proof := by
  unfold writeTestCase
  rw [List.append_nil]

theorem file_eq : Tables.proofTestCase =
    writeTestCase fileInstance (leBytes 4992 (Tables.proofTestCaseNat / 256 ^ 162)) := by
  have h : (5154 : ℕ) = 162 + 4992 := by norm_num
  rw [writeTestCase_append, ← file_header]
  unfold Tables.proofTestCase
  rw [h]
  exact leBytes_add _ _ _

theorem file_test {verifier : List (List Fp) → List UInt8 → Bool} {b proof : List UInt8} {x : Instance}
    (hb : b = writeTestCase x proof) (hl : proof.length = 4992) (hrk : x.rk.point ≠ 0) :
    ∃ inputs, x.toHalo2 = .ret inputs ∧
      (checkTestCase verifier b = .ret () ↔ verifier [inputs] proof = true) := by
  obtain ⟨inputs, hi⟩ := toHalo2_some hrk
  refine ⟨inputs, hi, ?_⟩
  have hm : [x].mapM Instance.toHalo2 = .ret [inputs] := by
    rw [List.mapM_cons, hi, Outcome.ret_bind, List.mapM_nil]; rfl
  unfold checkTestCase proofVerify
  rw [hb, readTestCase_write, Outcome.ret_bind]
  simp only [hl, decide_true, assertO_true, Outcome.ret_bind]
  rw [hm, Outcome.ret_bind, Outcome.pure_eq, Outcome.ret_bind]
  cases verifier [inputs] proof <;> simp

/-- **C103.** The file of the crate has the layout, with a proof of 4992 bytes; so the test passes exactly
if the verifier accepts that proof for the public inputs of that instance. -/
theorem C103_file (verifier : List (List Fp) → List UInt8 → Bool) :
    ∃ (x : Instance) (proof : List UInt8) (inputs : List Fp),
      Spec.IsTestCase Tables.proofTestCase x proof ∧ proof.length = 4992 ∧ x.toHalo2 = .ret inputs ∧
      x.rk.point ≠ 0 ∧ x.enableSpend = true ∧ x.enableOutput = true ∧
      (checkTestCase verifier Tables.proofTestCase = .ret () ↔ verifier [inputs] proof = true) := by
  have hl := length_leBytes 4992 (Tables.proofTestCaseNat / 256 ^ 162)
  have hf := file_eq
  generalize leBytes 4992 (Tables.proofTestCaseNat / 256 ^ 162) = proof at hl hf
  obtain ⟨inputs, hi, h⟩ := file_test (verifier := verifier) hf hl fileRk_ne_zero
  exact ⟨fileInstance, proof, inputs, hf ▸ isTestCase_write _ _, hl, hi, fileRk_ne_zero, rfl, rfl, h⟩

/-- A file one byte short of the header is rejected, and so is a header with a flag byte 2. -/
example : (∀ b : List UInt8, b.length = 161 → readTestCase b = .panic) ∧
    ∀ a c n r m : Bytes 32, ∀ proof, readTestCase
      (a.toList ++ c.toList ++ n.toList ++ r.toList ++ m.toList ++ [2, 0] ++ proof) = .panic := by
  constructor
  · intro b hb
    rw [(C103_read _).2]
    rintro ⟨x, proof, h⟩
    have h1 := congrArg List.length (isTestCase_eq h)
    rw [(C103_round_trip x proof).2.1, hb] at h1
    omega
  · intro a c n r m proof
    rw [(C103_read _).2]
    rintro ⟨x, proof', a', c', n', r', m', s, o, h, -, -, -, -, -, h6, -⟩
    simp only [List.append_assoc] at h
    have h := (List.append_inj h (by simp)).2
    have h := (List.append_inj h (by simp)).2
    have h := (List.append_inj h (by simp)).2
    have h := (List.append_inj h (by simp)).2
    have h := (List.append_inj h (by simp)).2
    simp only [List.cons_append, List.nil_append, List.cons.injEq] at h
    rcases h6 with ⟨rfl, -⟩ | ⟨rfl, -⟩ <;> exact absurd h.1 (by decide)

namespace Examples

/-- Under `P0` and with a proof system that is complete, a new test case passes. -/
example : ∃ file, createTestCase P0 sizedProver (fun _ _ => true) circuitDraws0 () = .ok file ∧
    checkTestCase (fun _ _ => true) file = .ret () := by
  rcases C103_regenerate (P := P0) (prover := sizedProver)
    (verifier := fun _ _ => true) genG_ne_zero (fun _ _ _ _ => ⟨_, rfl, rfl⟩)
    sizedProver_length goodCircuitDraws0 () with h | ⟨sk, fvk, n, cm, -, -, x, -, hn, -⟩
  · exact h
  · exact absurd hn no_exception_P0

end Examples

end Orchard
