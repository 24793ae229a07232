import Verif.Model.Tests
import Verif.Model.Tables.ProofTestCase

/-!
# Model of the proof test case (`circuit.rs:1090-1174`)

Writing to a file is modelled by the bytes written, and reading from the file by a function of its bytes;
input and output errors are left out.
-/

namespace Orchard.Tests

open RedPallas Testing

/-- `circuit.rs:1096-1113` `write_test_case`. -/
def writeTestCase (x : Instance) (proof : List UInt8) : List UInt8 :=
  (anchorToBytes x.anchor).toList ++ x.cvNet.toBytes.toList ++ (nullifierToBytes x.nfOld).toList ++
    x.rk.toBytes.toList ++ (cmxToBytes x.cmx).toList ++
    [if x.enableSpend then 1 else 0, if x.enableOutput then 1 else 0] ++ proof

/-- `read_exact` of `n` bytes from a slice, and `unwrap` (`circuit.rs:1118`, 1123): the bytes and the rest. -/
def readExact (n : ℕ) (r : List UInt8) : Outcome (Bytes n × List UInt8) := do
  let b ← Option.unwrapO (Bytes.ofList? n (r.take n))
  pure (b, r.drop n)

/-- `circuit.rs:1121-1129` `read_bool`. -/
def readBool (r : List UInt8) : Outcome (Bool × List UInt8) := do
  let b ← readExact 1 r
  if b.1.toList = [0] then pure (false, b.2)
  else if b.1.toList = [1] then pure (true, b.2)
  else .panic

/-- `circuit.rs:1115-1147` `read_test_case`. -/
noncomputable def readTestCase (r : List UInt8) : Outcome (Instance × List UInt8) := do
  let b ← readExact 32 r
  let anchor ← Option.unwrapO (anchorFromBytes b.1)
  let b ← readExact 32 b.2
  let cvNet ← Option.unwrapO (ValueCommitment.fromBytes b.1)
  let b ← readExact 32 b.2
  let nfOld ← Option.unwrapO (nullifierFromBytes b.1)
  let b ← readExact 32 b.2
  let rk ← Option.unwrapO (VerificationKey.fromBytes b.1)
  let b ← readExact 32 b.2
  let cmx ← Option.unwrapO (cmxFromBytes b.1)
  let s ← readBool b.2
  let o ← readBool s.2
  pure ({ anchor := anchor, cvNet := cvNet, nfOld := nfOld, rk := rk, cmx := cmx,
          enableSpend := s.1, enableOutput := o.1 }, o.2)

/-- `circuit.rs:1149-1164`: making a new test case. -/
noncomputable def createTestCase {Rnd : Type} (P : Prims)
    (prover : Rnd → List Circuit → List (List Fp) → Except ProofError (List UInt8))
    (verifier : List (List Fp) → List UInt8 → Bool) (rng : CircuitDraws) (rnd : Rnd) :
    Run Empty (List UInt8) := do
  let x ← generateCircuitInstance P rng
  let r ← Run.ofOutcome (proofCreate (prover rnd) [x.1] [x.2])
  let proof ← Run.ofOutcome (unwrapResult r)
  let ok ← Run.ofOutcome (proofVerify verifier proof [x.2])
  check ok
  pure (writeTestCase x.2 proof)

/-- `circuit.rs:1166-1174`: checking a test case. -/
noncomputable def checkTestCase (verifier : List (List Fp) → List UInt8 → Bool) (r : List UInt8) :
    Outcome Unit := do
  let x ← readTestCase r
  assertO (decide (x.2.length = 4992))
  let ok ← proofVerify verifier x.2 [x.1]
  assertO ok

end Orchard.Tests
