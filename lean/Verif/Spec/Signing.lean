import Verif.Model.Signing
import Verif.Spec.Bundle

/-!
# Specification of signing
-/

namespace Orchard.Spec

open RedPallas

/-- The signature slots of a bundle, in action order. -/
def slots {T A V : Type} (b : Bundle T A V) : List A := b.actions.map Action.authorization

/-- What a bundle from the builder provides for signing: each action's `rk` is the recorded `ak`
randomised with the recorded `alpha`; a recorded dummy key is the key of the recorded `ak`; and the
binding signing key is that of the bundle's binding validating key. -/
structure Signable {Pf V : Type} (into : V → I64)
    (b : Bundle (InProgress Pf Unauthorized) SigningMetadata V) : Prop where
  rk : ∀ a ∈ b.actions, a.rk.point =
    a.authorization.parts.ak.point + a.authorization.parts.alpha • Constants.spendAuthG
  dummy : ∀ a ∈ b.actions, ∀ ask : SpendAuthorizingKey, a.authorization.dummyAsk = some ask →
    a.authorization.parts.ak.point = ask.s • Constants.spendAuthG
  bsk : b.authorization.sigs.bsk.s • Constants.valueCommitR = bindingKey into b

/-- All signatures attached so far verify for the sighash. -/
def SignaturesValid {Pf V : Type} (P : Prims) (into : V → I64) (sighash : Bytes 32)
    (b : SigningBundle Pf V) : Prop :=
  (∀ a ∈ b.actions, ∀ sig, a.authorization = .signature sig →
    a.rk.verify P sighash.toList sig = true) ∧
  (⟨bindingKey into b⟩ : VerificationKey .binding).verify P sighash.toList
    b.authorization.sigs.bindingSignature = true

/-- The slot is not signed yet and belongs to the key. -/
def OpenFor (ask : SpendAuthorizingKey) (m : MaybeSigned) : Prop :=
  ∃ parts, m = .signingMetadata parts ∧ parts.ak.point = ask.s • Constants.spendAuthG

instance (ask : SpendAuthorizingKey) (m : MaybeSigned) : Decidable (OpenFor ask m) :=
  match m with
  | .signature _ => isFalse (by rintro ⟨_, h, -⟩; cases h)
  | .signingMetadata parts =>
    if h : parts.ak.point = ask.s • Constants.spendAuthG then isTrue ⟨parts, rfl, h⟩
    else isFalse (by rintro ⟨_, h', h''⟩; cases h'; exact h h'')

/-- The slot carries a signature. -/
def IsSigned (m : MaybeSigned) : Prop := ∃ sig, m = .signature sig

/-- The signature is valid for the `i`-th slot, which is not signed yet. -/
def ValidFor (P : Prims) (sighash : Bytes 32) (l : List MaybeSigned) (sig : Signature .spendAuth)
    (i : ℕ) : Prop :=
  ∃ parts, l[i]? = some (.signingMetadata parts) ∧
    (⟨parts.ak.point + parts.alpha • Constants.spendAuthG⟩ : VerificationKey .spendAuth).verify P
      sighash.toList sig = true

/-- Attaching external signatures in order: each must be valid for exactly one slot still open. -/
inductive Appends (P : Prims) (sighash : Bytes 32) :
    List MaybeSigned → List (Signature .spendAuth) → Except BuildError (List MaybeSigned) → Prop
  | done (l : List MaybeSigned) : Appends P sighash l [] (.ok l)
  | attach {l sig sigs r} (i : ℕ) : ValidFor P sighash l sig i →
      (∀ j, ValidFor P sighash l sig j → j = i) →
      Appends P sighash (l.set i (.signature sig)) sigs r → Appends P sighash l (sig :: sigs) r
  | invalid {l sig sigs} : (∀ i, ¬ ValidFor P sighash l sig i) →
      Appends P sighash l (sig :: sigs) (.error .invalidExternalSignature)
  | duplicate {l sig sigs} (i j : ℕ) : i ≠ j → ValidFor P sighash l sig i →
      ValidFor P sighash l sig j → Appends P sighash l (sig :: sigs) (.error .duplicateSignature)

/-- The phases of a bundle's life after it is built. -/
inductive Phase (V : Type) where
  | built (b : UnauthorizedBundle V)
  | proven (b : Bundle (InProgress (List UInt8) Unauthorized) SigningMetadata V)
  | preparedUnproven (b : SigningBundle Unproven V)
  | prepared (b : SigningBundle (List UInt8) V)
  | authorized (b : AuthorizedBundle V)

/-- A successful call of one of the public functions that take a bundle from phase to phase; `sighash`
is the hash handed to `prepare` or `apply_signatures`.  Generators, keys, external signatures and the
prover's randomness are arbitrary. -/
inductive PhaseStep {V Rnd : Type} (P : Prims)
    (prover : Rnd → List Circuit → List (List Fp) → Except ProofError (List UInt8))
    (sighash : Bytes 32) : Phase V → Phase V → Prop
  | prove {b b'} (rnd : Rnd) : b.createProof (prover rnd) = .ok b' →
      PhaseStep P prover sighash (.built b) (.proven b')
  | proveLater {b b'} (rnd : Rnd) : b.createProof (prover rnd) = .ok b' →
      PhaseStep P prover sighash (.preparedUnproven b) (.prepared b')
  | prepareUnproven {b} (rng : SignRng) :
      PhaseStep P prover sighash (.built b) (.preparedUnproven (b.prepare P rng sighash).1)
  | prepare {b} (rng : SignRng) :
      PhaseStep P prover sighash (.proven b) (.prepared (b.prepare P rng sighash).1)
  | callUnproven {b b'} (c : Bundle.SigningCall) : b.signingCall P c = .ok b' →
      PhaseStep P prover sighash (.preparedUnproven b) (.preparedUnproven b')
  | call {b b'} (c : Bundle.SigningCall) : b.signingCall P c = .ok b' →
      PhaseStep P prover sighash (.prepared b) (.prepared b')
  | finalize {b b'} : b.finalize = .ret (.ok b') →
      PhaseStep P prover sighash (.prepared b) (.authorized b')
  | apply {b b'} (rng : SignRng) (keys : List SpendAuthorizingKey) :
      b.applySignatures P rng sighash keys = .ret (.ok b') →
      PhaseStep P prover sighash (.proven b) (.authorized b')

/-- The proof was made by the prover for the circuits and the public inputs of the bundle. -/
def ProvenFor {V Rnd : Type}
    (prover : Rnd → List Circuit → List (List Fp) → Except ProofError (List UInt8))
    (b : UnauthorizedBundle V) (proof : List UInt8) : Prop :=
  ∃ rnd xs, b.toInstances.mapM Instance.toHalo2 = .ret xs ∧
    prover rnd b.authorization.proof.circuits xs = .ok proof

end Orchard.Spec
