import Verif.Model.Testing
import Verif.Model.Synthesize
import Verif.Model.ProofSize

/-!
# Model of the crate's randomised tests

`value.rs:435-467`, `keys.rs:997-1024`, `builder.rs:1124-1155`, `tests/builder.rs` and
`circuit.rs:978-1088`.

A test is a program with an outcome: it passes if it returns, and it fails if it panics, which failed
assertions, `unwrap` and `expect` do.  `Run.more` means that the given random values are used up before
a rejection loop has ended, so it is neither.  Random values are arguments.
-/

namespace Orchard.Tests

open RedPallas Testing

/-- An assertion in a test with rejection loops. For instance `builder.rs:1142`. -/
def check (b : Bool) : Run Empty Unit := Run.ofOutcome (assertO b)

/-! ### `value.rs` -/

/-- `value.rs:438-442`: the strategy of the test. -/
def arbValues : Gen (List (ValueSum × ValueCommitTrapdoor)) := do
  let n ← Gen.range 1 10
  let max ← Gen.run (maxDiv n)
  let bound ← arbNoteValueBounded max
  Gen.vec (do
    let v ← arbValueSumBounded bound
    let rcv ← arbTrapdoor
    pure (v, rcv)) n

/-- `value.rs:444-463`: the body of `bsk_consistent_with_bvk`.  `into_bsk` and `into_bvk`
(`value.rs:262-265`, `326-329`) keep the scalar and the point. -/
noncomputable def bskConsistentWithBvk (values : List (ValueSum × ValueCommitTrapdoor)) :
    Outcome Unit := do
  let valueBalance ← sumUnwrap (values.map Prod.fst)
  let bsk : SigningKey .binding := ⟨(ValueCommitTrapdoor.sum (values.map Prod.snd)).inner⟩
  let cvs ← values.mapM fun x => Option.unwrapO (ValueCommitment.derive x.1 x.2)
  let cv ← Option.unwrapO (ValueCommitment.derive valueBalance ValueCommitTrapdoor.zero)
  let bvk : VerificationKey .binding := ⟨((ValueCommitment.sum cvs).sub cv).inner⟩
  assertO (decide (bsk.vk = bvk))

/-- `value.rs:435-467`: the strategy and the test. -/
noncomputable def bskTest : Gen Unit := do
  let values ← arbValues
  Gen.run (bskConsistentWithBvk values)

/-! ### `keys.rs` -/

/-- `keys.rs:1004-1011`: the body of `key_agreement`. -/
noncomputable def keyAgreement (P : Prims) (sk : SpendingKey) (esk : Fq) (j : Bytes 11) :
    Outcome Unit := do
  let fvk ← FullViewingKey.ofSk P sk
  let ivk ← IncomingViewingKey.ofFvk P fvk
  let addr := ivk.addressAt P j
  let epk := eskDerivePublic esk (addr.gd P)
  assertO (decide (eskAgree esk addr.pkd = epkAgree epk ivk))

/-- `keys.rs:997-1013`: the strategies and the test. -/
noncomputable def keyAgreementTest (P : Prims) : Gen Unit := do
  let sk ← arbSpendingKey P
  let esk ← arbEsk
  let j ← arbDiversifierIndex
  Gen.run (keyAgreement P sk esk j)

/-- `keys.rs:1021-1022`: the body of `diversifier_index`. -/
def diversifierIndex (P : Prims) (dk : Bytes 32) (j : Bytes 11) : Outcome Unit :=
  let d := dkGet P dk j
  assertO (decide (j = dkIndex P dk d))

/-- `keys.rs:1015-1024`: the strategies and the test. -/
def diversifierIndexTest (P : Prims) : Gen Unit := do
  let dk ← arbDiversifierKey
  let j ← arbDiversifierIndex
  Gen.run (diversifierIndex P dk j)

/-! ### `builder.rs` -/

/-- The random values of one bundle: those for building, the randomness of the prover, and those for
signing. For instance `builder.rs:1144-1153`. -/
structure BundleDraws (Rnd : Type) where
  build : BuildDraws
  prove : Rnd
  sign : SignRng

/-- `builder.rs:1125-1155` `shielding_bundle`, with any amount in place of 5000.  `skDraws` are the
draws for the spending key. -/
noncomputable def shieldingBundle {Rnd : Type} (P : Prims)
    (prover : Rnd → List Circuit → List (List Fp) → Except ProofError (List UInt8))
    (amount : NoteValue) (skDraws : List (Bytes 32)) (rng : BundleDraws Rnd) : Run Empty Unit := do
  let r ← Run.ofOutcome (SpendingKey.random P skDraws)
  let sk ← Run.ofDraws r
  let fvk ← Run.ofOutcome (FullViewingKey.ofSk P sk.1)
  let recipient ← Run.ofOutcome (fvk.addressAt P (Bytes.ofNat 11 0) .external)
  let anchor ← Run.ofOutcome (emptyRoot P (UInt8.ofNat Constants.MERKLE_DEPTH))
  let builder := Builder.new BundleType.DEFAULT anchor
  let added := builder.addOutput none recipient amount none
  Run.ofOutcome (unwrapResult added.1)
  let balance ← Run.ofOutcome (added.2.valueBalance some)
  let balance ← Run.ofOutcome (unwrapResult balance)
  check (decide (balance.val = -(amount.inner.toNat : ℤ)))
  let built ← unwrapRun (added.2.build P some rng.build)
  let u ← Run.ofOutcome (Option.unwrapO built)
  let proven ← unwrapRun (u.1.createProof (prover rng.prove))
  let prepared := proven.prepare P rng.sign (Bytes.replicate 32 0)
  let r ← Run.ofOutcome prepared.1.finalize
  let bundle ← Run.ofOutcome (unwrapResult r)
  check (decide (bundle.valueBalance.val = -(amount.inner.toNat : ℤ)))

/-! ### `tests/builder.rs` -/

/-- `tests/builder.rs:17-28` `verify_bundle`. -/
noncomputable def verifyBundle (P : Prims) (verifier : List (List Fp) → List UInt8 → Bool)
    (b : AuthorizedBundle I64) : Outcome Unit := do
  let ok ← b.verifyProof verifier
  assertO ok
  let sighash := b.commitment P id
  let bvk ← b.bindingValidatingKey id
  assertO (b.actions.all fun a => a.rk.verify P sighash.toList a.authorization)
  assertO (bvk.verify P sighash.toList b.authorization.bindingSignature)

/-- `tests/builder.rs:71-73` and 113-117: signing what was built with the bundle's own commitment as
the message. -/
noncomputable def authorise {Rnd : Type} (P : Prims)
    (prover : Rnd → List Circuit → List (List Fp) → Except ProofError (List UInt8))
    (rng : BundleDraws Rnd) (u : UnauthorizedBundle I64) (keys : List SpendAuthorizingKey) :
    Run Empty (AuthorizedBundle I64) := do
  let sighash := u.commitment P id
  let proven ← unwrapRun (u.createProof (prover rng.prove))
  let r ← Run.ofOutcome (proven.applySignatures P rng.sign sighash keys)
  Run.ofOutcome (unwrapResult r)

/-- `tests/builder.rs:41-74`: the shielding bundle. -/
noncomputable def shieldingPart {Rnd : Type} (P : Prims)
    (prover : Rnd → List Circuit → List (List Fp) → Except ProofError (List UInt8))
    (amount : NoteValue) (fvk : FullViewingKey) (recipient : Address) (rng : BundleDraws Rnd) :
    Run Empty (AuthorizedBundle I64) := do
  let anchor ← Run.ofOutcome (emptyRoot P 32)
  let builder := Builder.new (.transactional Flags.SPENDS_DISABLED false) anchor
  let added := builder.addOutput none recipient amount none
  Run.ofOutcome (unwrapResult added.1)
  let built ← unwrapRun (added.2.build P some rng.build)
  let u ← Run.ofOutcome (Option.unwrapO built)
  let i ← Run.ofOutcome (Option.unwrapO (u.2.outputActionIndex 0))
  let ivk ← Run.ofOutcome (fvk.toIvk P .external)
  let r ← Run.ofOutcome (u.1.decryptOutputWithKey P i ivk)
  check (decide ((r.map fun x => x.1.value) = some amount))
  authorise P prover rng u.1 []

/-- `tests/builder.rs:80-118`: the bundle that spends what the first one created.  The tree of crate
`bridgetree` with its single leaf is replaced by the specification of a tree in
`Verif/Model/Testing.lean`. -/
noncomputable def spendingPart {Rnd : Type} (P : Prims)
    (prover : Rnd → List Circuit → List (List Fp) → Except ProofError (List UInt8))
    (amount : NoteValue) (sk : SpendingKey) (fvk : FullViewingKey) (recipient : Address)
    (b : AuthorizedBundle I64) (rng : BundleDraws Rnd) : Run Empty (AuthorizedBundle I64) := do
  let ivk ← Run.ofOutcome (fvk.toIvk P .external)
  let found ← Run.ofOutcome (Bundle.findMapO (fun a => tryNoteDecryption P ivk.ivk a) b.actions)
  let x ← Run.ofOutcome (Option.unwrapO found)
  let note := x.1
  let cmx ← Run.ofOutcome (note.cmx P)
  let anchor ← Run.ofOutcome (frontierRoot P [cmx])
  let path ← Run.ofOutcome (frontierWitness P [cmx])
  let root ← Run.ofOutcome (path.root P cmx)
  check (decide (anchor = root))
  let builder := Builder.new BundleType.DEFAULT anchor
  let spent ← Run.ofOutcome (builder.addSpend P fvk note path)
  Run.ofOutcome (unwrapResult spent.1)
  let added := spent.2.addOutput none recipient amount none
  Run.ofOutcome (unwrapResult added.1)
  let built ← unwrapRun (added.2.build P some rng.build)
  let u ← Run.ofOutcome (Option.unwrapO built)
  let ask ← Run.ofOutcome (SpendAuthorizingKey.ofSk P sk)
  authorise P prover rng u.1 [ask]

/-- `tests/builder.rs:30-122` `bundle_chain`, with any spending key in place of 32 zeros and any amount
in place of 5000. -/
noncomputable def bundleChainWith {Rnd : Type} (P : Prims)
    (prover : Rnd → List Circuit → List (List Fp) → Except ProofError (List UInt8))
    (verifier : List (List Fp) → List UInt8 → Bool) (key : Bytes 32) (amount : NoteValue)
    (rng1 rng2 : BundleDraws Rnd) : Run Empty Unit := do
  let r ← Run.ofOutcome (SpendingKey.fromBytes P key)
  let sk ← Run.ofOutcome (Option.unwrapO r)
  let fvk ← Run.ofOutcome (FullViewingKey.ofSk P sk)
  let recipient ← Run.ofOutcome (fvk.addressAt P (Bytes.ofNat 11 0) .external)
  let b1 ← shieldingPart P prover amount fvk recipient rng1
  Run.ofOutcome (verifyBundle P verifier b1)
  let b2 ← spendingPart P prover amount sk fvk recipient b1 rng2
  Run.ofOutcome (verifyBundle P verifier b2)

/-- `tests/builder.rs:30-122` `bundle_chain`. -/
noncomputable def bundleChain {Rnd : Type} (P : Prims)
    (prover : Rnd → List Circuit → List (List Fp) → Except ProofError (List UInt8))
    (verifier : List (List Fp) → List UInt8 → Bool) (rng1 rng2 : BundleDraws Rnd) : Run Empty Unit :=
  bundleChainWith P prover verifier (Bytes.replicate 32 0) ⟨5000⟩ rng1 rng2

/-! ### `circuit.rs` -/

/-- The random values of `circuit.rs:978-1000`, in the order in which they are used. -/
structure CircuitDraws where
  skOld : List (Bytes 32)
  rhoPoint : Point
  seedsOld : List (Bytes 32)
  alpha : Fq
  skNew : List (Bytes 32)
  seedsNew : List (Bytes 32)
  rcv : Fq
  path : MerklePath

/-- `circuit.rs:978-1032` `generate_circuit_instance`. -/
noncomputable def generateCircuitInstance (P : Prims) (rng : CircuitDraws) :
    Run Empty (Circuit × Instance) := do
  let r ← Run.ofOutcome (Note.dummy P rng.skOld none rng.rhoPoint rng.seedsOld)
  let old ← Run.ofDraws r
  let fvk := old.2.1
  let spentNote := old.2.2
  let scope ← Run.ofOutcome (fvk.scopeForAddress P spentNote.recipient)
  let scope ← Run.ofOutcome (Option.unwrapO scope)
  let rivk ← Run.ofOutcome (fvk.rivkFor P scope)
  let nfOld ← Run.ofOutcome (spentNote.nullifier P fvk)
  let rk := VerificationKey.randomize fvk.ak rng.alpha
  let r ← Run.ofOutcome (Note.dummy P rng.skNew (some nfOld) rng.rhoPoint rng.seedsNew)
  let new ← Run.ofDraws r
  let outputNote := new.2.2
  let cmx ← Run.ofOutcome (outputNote.cmx P)
  let value ← Run.ofOutcome (Option.unwrapO (NoteValue.sub spentNote.value outputNote.value))
  let cvNet ← Run.ofOutcome (Option.unwrapO (ValueCommitment.derive value ⟨rng.rcv⟩))
  let cmxOld ← Run.ofOutcome (spentNote.cmx P)
  let anchor ← Run.ofOutcome (rng.path.root P cmxOld)
  let cmOld ← Run.ofOutcome (spentNote.commitment P)
  pure (
    { path := rng.path.authPath, pos := rng.path.position,
      gdOld := spentNote.recipient.gd P, pkdOld := spentNote.recipient.pkd,
      vOld := spentNote.value, rhoOld := spentNote.rho,
      psiOld := RandomSeed.psi P spentNote.rseed spentNote.rho,
      rcmOld := RandomSeed.rcm P spentNote.rseed spentNote.rho, cmOld := cmOld,
      alpha := rng.alpha, ak := fvk.ak, nk := fvk.nk, rivk := rivk,
      gdNew := outputNote.recipient.gd P, pkdNew := outputNote.recipient.pkd,
      vNew := outputNote.value, psiNew := RandomSeed.psi P outputNote.rseed outputNote.rho,
      rcmNew := RandomSeed.rcm P outputNote.rseed outputNote.rho, rcv := ⟨rng.rcv⟩ },
    { anchor := anchor, cvNet := cvNet, nfOld := nfOld, rk := rk, cmx := cmx,
      enableSpend := true, enableOutput := true })

open Classical in
/-- `circuit.rs:1068-1081`: `MockProver::run(..).unwrap().verify() == Ok(())`.  The mock prover checks
all constraints on the assigned cells; as in C55, that is `Synthesize`. -/
noncomputable def mockProverAccepts (P : Prims) (c : Circuit) (x : List Fp) : Bool :=
  decide (∃ k, ActionCircuit.assign P c = some k ∧ ActionCircuit.Synthesize P true k x)

/-- `circuit.rs:1035-1088` `round_trip`, without the comparison of the verifying key with its
description (1046-1053, see C81). -/
noncomputable def roundTrip {Rnd : Type} (P : Prims)
    (prover : Rnd → List Circuit → List (List Fp) → Except ProofError (List UInt8))
    (verifier : List (List Fp) → List UInt8 → Bool) (rng : CircuitDraws) (rnd : Rnd) :
    Run Empty Unit := do
  let x ← generateCircuitInstance P rng
  check (decide (Pinned.proofSize 1 = 4992))
  check (decide (Pinned.proofSize 2 = 7264))
  let inst ← Run.ofOutcome x.2.toHalo2
  check (mockProverAccepts P x.1 inst)
  let r ← Run.ofOutcome (proofCreate (prover rnd) [x.1] [x.2])
  let proof ← Run.ofOutcome (unwrapResult r)
  let ok ← Run.ofOutcome (proofVerify verifier proof [x.2])
  check ok
  check (decide (proof.length = Pinned.proofSize 1))

end Orchard.Tests
