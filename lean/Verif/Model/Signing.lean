import Verif.Model.Builder

/-!
# Model of proving and signing a bundle (`/repo/src/builder.rs:682-935`) and of `Proof::create`
(`/repo/src/circuit.rs:896-919`)

A random number generator handed to the signing functions is the stream of the 80-byte blocks that the
signature scheme draws from it, one for each signature; the functions return what is left of it.
-/

namespace Orchard

open RedPallas

/-- The generator used for signing: the blocks it gives, in order. Handed to `builder.rs:811-874`. -/
structure SignRng where
  block : ℕ → Bytes 80

/-- The next block, and the generator after it. Used by `builder.rs:811-874`. -/
def SignRng.next (r : SignRng) : Bytes 80 × SignRng := (r.block 0, ⟨fun n => r.block (n + 1)⟩)

/-- `builder.rs:778-781` `PartiallyAuthorized`. -/
structure PartiallyAuthorized where
  bindingSignature : Signature .binding
  sighash : Bytes 32
  deriving DecidableEq

/-- `builder.rs:790-796` `MaybeSigned`. -/
inductive MaybeSigned where
  | signingMetadata (parts : SigningParts)
  | signature (sig : Signature .spendAuth)

/-- `builder.rs:799-804` `MaybeSigned::finalize`. -/
def MaybeSigned.finalize : MaybeSigned → Except BuildError (Signature .spendAuth)
  | .signature sig => .ok sig
  | _ => .error .missingSignatures

/-- `Bundle<InProgress<P, PartiallyAuthorized>, V>`. The type of `builder.rs:855-934`. -/
abbrev SigningBundle (Pf V : Type) : Type :=
  Bundle (InProgress Pf PartiallyAuthorized) MaybeSigned V

/-! ### Proving -/

/-- `circuit.rs:896-919` `Proof::create`.  `prover` is `plonk::create_proof` for the given proving key
and random number generator, as a function of the circuits and the public inputs; `E` is
`plonk::Error`. -/
noncomputable def proofCreate {E : Type}
    (prover : List Circuit → List (List Fp) → Except E (List UInt8))
    (circuits : List Circuit) (instances : List Instance) : Outcome (Except E (List UInt8)) := do
  let xs ← instances.mapM Instance.toHalo2
  pure (prover circuits xs)

/-- How the closure of `create_proof` can end other than with a value. For `builder.rs:733-739`. -/
inductive Stop where
  | panic
  | err (e : BuildError)

namespace Bundle

/-- `builder.rs:706-715` `InProgress::create_proof`, and the closure 733-739 that uses it. -/
noncomputable def proveStep {S : Type}
    (prover : List Circuit → List (List Fp) → Except ProofError (List UInt8))
    (instances : List Instance) (auth : InProgress Unproven S) :
    Except Stop (InProgress (List UInt8) S) :=
  match proofCreate prover auth.proof.circuits instances with
  | .panic => .error .panic
  | .ret (.error e) => .error (.err (.proof e))
  | .ret (.ok proof) => .ok ⟨proof, auth.sigs⟩

/-- The result of a mapping whose closure can stop. For `builder.rs:733-739`. -/
def stopped {α : Type} : Outcome (Except Stop α) → Run BuildError α
  | .panic => .panic
  | .ret (.error .panic) => .panic
  | .ret (.error (.err e)) => .err e
  | .ret (.ok a) => .ok a

/-- `builder.rs:720-741` `create_proof`: the public inputs are collected first, then the authorisation
is mapped; the actions' authorisations are kept. -/
noncomputable def createProof {S A V : Type}
    (prover : List Circuit → List (List Fp) → Except ProofError (List UInt8))
    (b : Bundle (InProgress Unproven S) A V) :
    Run BuildError (Bundle (InProgress (List UInt8) S) A V) :=
  let instances := b.actions.map fun a => a.toInstance b.flags b.anchor
  stopped (b.tryMapAuthorization () (fun r _ a => (.ok a, r))
    (fun r auth => (proveStep prover instances auth, r))).1

/-! ### Signing -/

/-- `builder.rs:818-824`: the closure of `prepare` for one action. -/
def prepareSlot (P : Prims) (sighash : Bytes 32) (rng : SignRng) (m : SigningMetadata) :
    MaybeSigned × SignRng :=
  match m.dummyAsk with
  | some ask =>
    let x := rng.next
    (.signature ((ask.randomize m.parts.alpha).sign P x.1 sighash.toList), x.2)
  | none => (.signingMetadata m.parts, rng)

/-- `builder.rs:811-834` `prepare`. -/
def prepare {Pf V : Type} (P : Prims) (b : Bundle (InProgress Pf Unauthorized) SigningMetadata V)
    (rng : SignRng) (sighash : Bytes 32) : SigningBundle Pf V × SignRng :=
  b.mapAuthorization rng (fun rng _ m => prepareSlot P sighash rng m)
    (fun rng auth =>
      let x := rng.next
      (⟨auth.proof, ⟨auth.sigs.bsk.sign P x.1 sighash.toList, sighash⟩⟩, x.2))

/-- `builder.rs:864-871`: the closure of `sign` for one action. -/
def signSlot (P : Prims) (ask : SpendAuthorizingKey) (expectedAk : SpendValidatingKey)
    (sighash : Bytes 32) (rng : SignRng) : MaybeSigned → MaybeSigned × SignRng
  | .signingMetadata parts =>
    if parts.ak = expectedAk then
      let x := rng.next
      (.signature ((ask.randomize parts.alpha).sign P x.1 sighash.toList), x.2)
    else (.signingMetadata parts, rng)
  | s => (s, rng)

/-- `builder.rs:860-874` `sign`. -/
def sign {Pf V : Type} (P : Prims) (b : SigningBundle Pf V) (rng : SignRng)
    (ask : SpendAuthorizingKey) : SigningBundle Pf V × SignRng :=
  let expectedAk : SpendValidatingKey := ask.vk
  b.mapAuthorization rng
    (fun rng part maybe => signSlot P ask expectedAk part.sigs.sighash rng maybe)
    (fun rng part => (part, rng))

/-- `builder.rs:896-908`: the closure of `append_signature` for one action. -/
noncomputable def appendSlot (P : Prims) (signature : Signature .spendAuth) (sighash : Bytes 32)
    (validFor : ℕ) : MaybeSigned → MaybeSigned × ℕ
  | .signingMetadata parts =>
    let rk := VerificationKey.randomize parts.ak parts.alpha
    if rk.verify P sighash.toList signature then (.signature signature, validFor + 1)
    else (.signingMetadata parts, validFor)
  | s => (s, validFor)

/-- `builder.rs:889-916` `append_signature`. -/
noncomputable def appendSignature {Pf V : Type} (P : Prims) (b : SigningBundle Pf V)
    (signature : Signature .spendAuth) : Except BuildError (SigningBundle Pf V) :=
  let r := b.mapAuthorization (0 : ℕ)
    (fun validFor part maybe => appendSlot P signature part.sigs.sighash validFor maybe)
    (fun validFor part => (part, validFor))
  match r.2 with
  | 0 => .error .invalidExternalSignature
  | 1 => .ok r.1
  | _ => .error .duplicateSignature

/-- `builder.rs:882-887` `append_signatures`. -/
noncomputable def appendSignatures {Pf V : Type} (P : Prims) (b : SigningBundle Pf V)
    (signatures : List (Signature .spendAuth)) : Except BuildError (SigningBundle Pf V) :=
  signatures.foldlM (fun b s => b.appendSignature P s) b

/-- `builder.rs:923-934` `finalize`; `Authorized::from_parts` is `bundle.rs:425-430`.  The `Outcome` is
for the `unwrap` in `try_map_authorization`. -/
def finalize {V : Type} (b : SigningBundle (List UInt8) V) :
    Outcome (Except BuildError (AuthorizedBundle V)) :=
  (b.tryMapAuthorization () (fun r _ maybe => (maybe.finalize, r))
    (fun r part => (.ok ⟨part.proof, part.sigs.bindingSignature⟩, r))).1

/-- `builder.rs:841-853` `apply_signatures`. -/
def applySignatures {V : Type} (P : Prims)
    (b : Bundle (InProgress (List UInt8) Unauthorized) SigningMetadata V) (rng : SignRng)
    (sighash : Bytes 32) (signingKeys : List SpendAuthorizingKey) :
    Outcome (Except BuildError (AuthorizedBundle V)) :=
  (signingKeys.foldl (fun (s : SigningBundle (List UInt8) V × SignRng) ask => s.1.sign P s.2 ask)
    (b.prepare P rng sighash)).1.finalize

/-! ### Histories -/

/-- One call on a partially authorised bundle: `sign` (with some generator) or `append_signatures`.
For `builder.rs:860-887`. -/
inductive SigningCall where
  | sign (rng : SignRng) (ask : SpendAuthorizingKey)
  | append (signatures : List (Signature .spendAuth))

/-- Performs one call.  All calls consume the bundle, so a failed call ends a history.
For `builder.rs:860-887`. -/
noncomputable def signingCall {Pf V : Type} (P : Prims) (b : SigningBundle Pf V) :
    SigningCall → Except BuildError (SigningBundle Pf V)
  | .sign rng ask => .ok (b.sign P rng ask).1
  | .append signatures => b.appendSignatures P signatures

/-- Performs calls one after the other. For `builder.rs:860-887`. -/
noncomputable def signingCalls {Pf V : Type} (P : Prims) (b : SigningBundle Pf V)
    (calls : List SigningCall) : Except BuildError (SigningBundle Pf V) :=
  calls.foldlM (fun b c => b.signingCall P c) b

end Bundle

end Orchard
