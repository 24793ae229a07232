import Verif.Model.Signing

/-!
# Model of the public `testing` modules (feature `test-dependencies`)

`value.rs:360-424`, `note.rs:316-350`, `note/nullifier.rs:71-92`, `keys.rs:911-964`,
`address.rs:67-87`, `primitives/redpallas.rs:183-225`, `action.rs:120-207`, `bundle.rs:502-657`,
`note_encryption.rs:343-395` and `builder.rs:970-1107`.

A `proptest` strategy is the set of the outcomes it can have, values and panics.  Values that a
`prop_filter` rejects are no outcomes.  Which of the outcomes is taken, and how a failing case is
shrunk, is not modelled.
-/

namespace Orchard

open RedPallas

/-! ### Strategies -/

/-- The outcomes a strategy can have. For instance `value.rs:370-378`. -/
structure Gen (α : Type) where
  can : Outcome α → Prop

/-- `o ∈ s`: the strategy can have this outcome. For instance `value.rs:370-378`. -/
instance {α : Type} : Membership (Outcome α) (Gen α) := ⟨fun s o => s.can o⟩

namespace Gen

/-- `Just(a)`. For instance `bundle.rs:542`. -/
def just {α : Type} (a : α) : Gen α := ⟨fun o => o = .ret a⟩

/-- `prop_flat_map`, and sequencing in `prop_compose!`; a panic ends the generation.
For instance `bundle.rs:545-556`. -/
def flatMap {α β : Type} (s : Gen α) (f : α → Gen β) : Gen β :=
  ⟨fun o => (.panic ∈ s ∧ o = .panic) ∨ ∃ a, .ret a ∈ s ∧ o ∈ f a⟩

/-- Strategies with `Just` and `prop_flat_map`. For instance `bundle.rs:545-556`. -/
instance : Monad Gen where
  pure := just
  bind := flatMap

/-- Code run while generating. For instance `action.rs:151`. -/
def run {α : Type} (x : Outcome α) : Gen α := ⟨fun o => o = x⟩

/-- All values of a type: `ANY`, `any::<T>()`, and arrays and vectors of a fixed length of these.
For instance `note.rs:330`. -/
def anything (α : Type) : Gen α := ⟨fun o => ∃ a, o = .ret a⟩

/-- A half-open range of `u64` or `usize`; drawing from an empty range panics.
For instance `value.rs:403`. -/
def range (lo hi : ℕ) : Gen ℕ :=
  ⟨fun o => if lo < hi then ∃ v, lo ≤ v ∧ v < hi ∧ o = .ret v else o = .panic⟩

/-- An inclusive range of `i128`. For instance `value.rs:382`. -/
def rangeInclusive (lo hi : ℤ) : Gen ℤ :=
  ⟨fun o => if lo ≤ hi then ∃ v, lo ≤ v ∧ v ≤ hi ∧ o = .ret v else o = .panic⟩

/-- `prop_filter`. For instance `keys.rs:923-926`. -/
def filter {α : Type} (p : α → Bool) (s : Gen α) : Gen α :=
  ⟨fun o => o ∈ s ∧ ∀ a, o = .ret a → p a = true⟩

/-- `vec(s, n)`. For instance `bundle.rs:609`. -/
def vec {α : Type} (s : Gen α) : ℕ → Gen (List α)
  | 0 => pure []
  | n + 1 => do
    let a ← s
    let l ← vec s n
    pure (a :: l)

end Gen

/-! ### `value.rs` -/

namespace Testing

/-- 32 bytes at the start of a 64-byte buffer of zeros (`value.rs:374-375`, `bundle.rs:594-595`). -/
def padded (bytes : Bytes 32) : Bytes 64 := bytes.append (Bytes.replicate 32 0)

/-- `value.rs:370-378` `arb_scalar`. -/
def arbScalar : Gen Fq := do
  let bytes ← Gen.anything (Bytes 32)
  pure (Fq.fromUniform (padded bytes))

/-- `value.rs:380-385` `arb_value_sum`. -/
def arbValueSum : Gen ValueSum := do
  let value ← Gen.rangeInclusive (-MAX_NOTE_VALUE) MAX_NOTE_VALUE
  pure ⟨value⟩

/-- `value.rs:387-392` `arb_value_sum_bounded`. -/
def arbValueSumBounded (bound : NoteValue) : Gen ValueSum := do
  let value ← Gen.rangeInclusive (-(bound.inner.toNat : ℤ)) (bound.inner.toNat : ℤ)
  pure ⟨value⟩

/-- `value.rs:394-399` `arb_trapdoor`. -/
def arbTrapdoor : Gen ValueCommitTrapdoor := do
  let rcv ← arbScalar
  pure ⟨rcv⟩

/-- `MAX_NOTE_VALUE` as a `u64` (`value.rs:63`). -/
def maxNoteValue : ℕ := 2 ^ 64 - 1

/-- `value.rs:401-406` `arb_note_value`. -/
def arbNoteValue : Gen NoteValue := do
  let value ← Gen.range 0 maxNoteValue
  pure ⟨UInt64.ofNat value⟩

/-- `value.rs:408-414` `arb_note_value_bounded`. -/
def arbNoteValueBounded (max : ℕ) : Gen NoteValue := do
  let value ← Gen.range 0 max
  pure ⟨UInt64.ofNat value⟩

/-- `value.rs:416-422` `arb_positive_note_value`. -/
def arbPositiveNoteValue (max : ℕ) : Gen NoteValue := do
  let value ← Gen.range 1 max
  pure ⟨UInt64.ofNat value⟩

/-! ### `keys.rs`, `address.rs`, `note.rs`, `redpallas.rs` -/

/-- `keys.rs:919-931` `arb_spending_key`. -/
noncomputable def arbSpendingKey (P : Prims) : Gen SpendingKey := do
  let key ← Gen.filter Option.isSome (do
    let b ← Gen.anything (Bytes 32)
    Gen.run (SpendingKey.fromBytes P b))
  Gen.run (Option.unwrapO key)

/-- `keys.rs:933-945` `arb_esk`. -/
def arbEsk : Gen Fq := do
  let esk ← Gen.filter Option.isSome (do
    let b ← Gen.anything (Bytes 32)
    pure (eskFromBytes b))
  Gen.run (Option.unwrapO esk)

/-- `keys.rs:947-954` `arb_diversifier_key`. -/
def arbDiversifierKey : Gen (Bytes 32) := Gen.anything (Bytes 32)

/-- `keys.rs:956-963` `arb_diversifier_index`. -/
def arbDiversifierIndex : Gen (Bytes 11) := Gen.anything (Bytes 11)

/-- `address.rs:80-86` `arb_address`. -/
noncomputable def arbAddress (P : Prims) : Gen Address := do
  let sk ← arbSpendingKey P
  let j ← arbDiversifierIndex
  Gen.run do
    let fvk ← FullViewingKey.ofSk P sk
    fvk.addressAt P j .external

/-- `note/nullifier.rs:83-91` `arb_nullifier`; `G` is `pallas::Point::generator()`. -/
def arbNullifier (G : Point) : Gen Fp := do
  let bytes ← Gen.anything (Bytes 64)
  pure (extractP (Fq.fromUniform bytes • G))

/-- `note.rs:328-333` `arb_rseed`. -/
def arbRseed : Gen (Bytes 32) := Gen.anything (Bytes 32)

/-- `note.rs:335-349` `arb_note`. -/
noncomputable def arbNote (P : Prims) (G : Point) (value : NoteValue) : Gen Note := do
  let recipient ← arbAddress P
  let rho ← arbNullifier G
  let rseed ← arbRseed
  pure ⟨recipient, value, rho, rseed⟩

/-- `primitives/redpallas.rs:190-199`, `201-210` `arb_spendauth_signing_key`,
`arb_binding_signing_key`. -/
def arbSigningKey (T : SigType) : Gen (SigningKey T) := do
  let sk ← Gen.filter Option.isSome (do
    let b ← Gen.anything (Bytes 32)
    pure (SigningKey.fromBytes (T := T) b))
  Gen.run (Option.unwrapO sk)

/-- `primitives/redpallas.rs:212-217`, `219-224` `arb_spendauth_verification_key`,
`arb_binding_verification_key`. -/
def arbVerificationKey (T : SigType) : Gen (VerificationKey T) := do
  let sk ← arbSigningKey T
  pure sk.vk

/-! ### `action.rs` -/

/-- The ciphertexts of zeros of `action.rs:157-161`, `189-193`. -/
def zeroCiphertext : TransmittedNoteCiphertext :=
  ⟨Bytes.replicate 32 0, Bytes.replicate 580 0, Bytes.replicate 80 0⟩

/-- `action.rs:151-155`, `182-186`: the commitments of an action. -/
noncomputable def fakeCommitments (P : Prims) (note : Note) (spendValue outputValue : NoteValue) :
    Outcome (Fp × ValueCommitment) := do
  let cmx ← note.cmx P
  let value ← Option.unwrapO (NoteValue.sub spendValue outputValue)
  let cvNet ← Option.unwrapO (ValueCommitment.derive value ValueCommitTrapdoor.zero)
  pure (cmx, cvNet)

/-- `action.rs:144-171` `arb_unauthorized_action`. -/
noncomputable def arbUnauthorizedAction (P : Prims) (G : Point) (spendValue outputValue : NoteValue) :
    Gen (Action Unit) := do
  let nf ← arbNullifier G
  let rk ← arbVerificationKey .spendAuth
  let note ← arbNote P G outputValue
  let c ← Gen.run (fakeCommitments P note spendValue outputValue)
  pure ⟨nf, rk, c.1, zeroCiphertext, c.2, ()⟩

/-- `action.rs:173-206` `arb_action`; `std` gives the 80 bytes that signing draws from
`StdRng::from_seed(seed)`. -/
noncomputable def arbAction (P : Prims) (G : Point) (std : Bytes 32 → Bytes 80)
    (spendValue outputValue : NoteValue) : Gen (Action (Signature .spendAuth)) := do
  let nf ← arbNullifier G
  let sk ← arbSigningKey .spendAuth
  let note ← arbNote P G outputValue
  let rngSeed ← Gen.anything (Bytes 32)
  let fakeSighash ← Gen.anything (Bytes 32)
  let c ← Gen.run (fakeCommitments P note spendValue outputValue)
  pure ⟨nf, sk.vk, c.1, zeroCiphertext, c.2, sk.sign P (std rngSeed) fakeSighash.toList⟩

/-! ### `bundle.rs` -/

/-- `MAX_NOTE_VALUE / n_actions as u64`: division by zero panics. At `bundle.rs:540`, `547`. -/
def maxDiv (n : ℕ) : Outcome ℕ := if n = 0 then .panic else .ret (maxNoteValue / n)

/-- `bundle.rs:539-543`, `546-550` (and 564-568, 571-575): the strategy for one of the values. -/
def valueGen (n : ℕ) (enabled : Bool) : Outcome (Gen NoteValue) :=
  if enabled then do pure (arbNoteValueBounded (← maxDiv n)) else pure (Gen.just NoteValue.zero)

/-- `bundle.rs:535-557` `arb_unauthorized_action_n` and 560-582 `arb_action_n`, which differ in the
strategy for the action.  Making the strategy can panic, and so can drawing from it. -/
def arbActionN {A : Type} (action : NoteValue → NoteValue → Gen (Action A)) (n : ℕ) (flags : Flags) :
    Outcome (Gen (ValueSum × Action A)) := do
  let spendValueGen ← valueGen n flags.spendsEnabled
  pure (do
    let spendValue ← spendValueGen
    let outputValueGen ← Gen.run (valueGen n flags.outputsEnabled)
    let outputValue ← outputValueGen
    let a ← action spendValue outputValue
    Gen.run do
      let v ← Option.unwrapO (NoteValue.sub spendValue outputValue)
      pure (v, a))

/-- `bundle.rs:584-589` `arb_flags`. -/
def arbFlags : Gen Flags := do
  let spendsEnabled ← Gen.anything Bool
  let outputsEnabled ← Gen.anything Bool
  pure ⟨spendsEnabled, outputsEnabled⟩

/-- `bundle.rs:591-598` `arb_base`. -/
def arbBase : Gen Fp := do
  let bytes ← Gen.anything (Bytes 32)
  pure (Fp.fromUniform (padded bytes))

/-- `balances.into_iter().sum::<Result<ValueSum, _>>().unwrap()` (`bundle.rs:618`, `648`). -/
def sumUnwrap (balances : List ValueSum) : Outcome ValueSum :=
  match ValueSum.sum balances with
  | .ok v => .ret v
  | .error _ => .panic

/-- `NonEmpty::from_vec(actions).unwrap()` and `Bundle::from_parts` (`bundle.rs:615-621`,
`645-654`). -/
def bundleOf {T A : Type} (acts : List (ValueSum × Action A)) (flags : Flags) (anchor : Fp)
    (authorization : T) : Outcome (Bundle T A ValueSum) :=
  if h : acts.map Prod.snd ≠ [] then do
    let balance ← sumUnwrap (acts.map Prod.fst)
    pure ⟨acts.map Prod.snd, h, flags, balance, anchor, authorization⟩
  else .panic

/-- `bundle.rs:600-623` `arb_unauthorized_bundle`. -/
noncomputable def arbUnauthorizedBundle (P : Prims) (G : Point) (n : ℕ) :
    Gen (Bundle Unit Unit ValueSum) := do
  let flags ← arbFlags
  let actionGen ← Gen.run (arbActionN (arbUnauthorizedAction P G) n flags)
  let acts ← Gen.vec actionGen n
  let anchor ← arbBase
  Gen.run (bundleOf acts flags anchor ())

/-- `bundle.rs:625-656` `arb_bundle`. -/
noncomputable def arbBundle (P : Prims) (G : Point) (std : Bytes 32 → Bytes 80) (n : ℕ) :
    Gen (AuthorizedBundle ValueSum) := do
  let flags ← arbFlags
  let actionGen ← Gen.run (arbActionN (arbAction P G std) n flags)
  let acts ← Gen.vec actionGen n
  let anchor ← arbBase
  let sk ← arbSigningKey .binding
  let rngSeed ← Gen.anything (Bytes 32)
  let fakeProof ← Gen.anything (Bytes 1973)
  let fakeSighash ← Gen.anything (Bytes 32)
  Gen.run (bundleOf acts flags anchor
    ⟨fakeProof.toList, sk.sign P (std rngSeed) fakeSighash.toList⟩)

/-! ### `note_encryption.rs` -/

/-- `note_encryption.rs:360-395` `fake_compact_action`; `draws` are the 32-byte blocks that the
generator gives, and `none` means that they are used up.  The outgoing viewing key is handed to the
encryptor, but no outgoing ciphertext is made. -/
noncomputable def fakeCompactAction (P : Prims) (draws : List (Bytes 32)) (nfOld : Fp)
    (recipient : Address) (value : NoteValue) (_ovk : Option (Bytes 32)) :
    Outcome (Option (CompactAction × Note)) :=
  match RandomSeed.random P nfOld draws with
  | none => pure none
  | some (rseed, _) => do
    let note ← Option.unwrapO (Note.fromParts P recipient value nfOld rseed)
    let memo : Bytes 512 := Bytes.replicate 512 0
    let esk ← note.esk P
    let epk := kaDerivePublic P note esk
    let cmx ← note.cmx P
    let key := kdfOrchard P (eskAgree esk note.recipient.pkd) epk.toBytes
    let enc : Bytes 580 := aeadEncrypt P key (notePlaintextBytes note memo)
    pure (some (⟨nfOld, cmx, epk.toBytes, enc.slice 0 52 (by norm_num)⟩, note))

/-! ### `builder.rs` -/

/-- `builder.rs:1003-1009` `ArbitraryBundleInputs<StdRng>`; the generator is given by its seed. -/
structure ArbitraryBundleInputs where
  rngSeed : Bytes 32
  sk : SpendingKey
  anchor : Fp
  notes : List (Note × MerklePath)
  outputAmounts : List (Address × NoteValue)

/-- Node `i` at height `h` of the tree that starts with the given leaves and is empty after them.
What crate `incrementalmerkletree` computes for `Frontier` at `builder.rs:1069-1087`. -/
noncomputable def frontierNode (P : Prims) (leaves : List Fp) : ℕ → ℕ → Outcome Fp
  | 0, i => pure (leaves.getD i emptyLeaf)
  | h + 1, i => do
    let l ← frontierNode P leaves h (2 * i)
    let r ← frontierNode P leaves h (2 * i + 1)
    merkleCombine P (UInt8.ofNat h) l r

/-- `frontier.root()` (`builder.rs:1087`). -/
noncomputable def frontierRoot (P : Prims) (leaves : List Fp) : Outcome Fp :=
  frontierNode P leaves Constants.MERKLE_DEPTH 0

/-- `frontier.witness(..)` with the roots of empty trees to the right, for the leaf appended last,
and the conversion of the path (`builder.rs:1076-1080`, `tree.rs:105-113`). -/
noncomputable def frontierWitness (P : Prims) (leaves : List Fp) : Outcome MerklePath := do
  let pos := leaves.length - 1
  let path ← (List.range Constants.MERKLE_DEPTH).mapM fun l =>
    frontierNode P leaves l (if pos / 2 ^ l % 2 = 0 then pos / 2 ^ l + 1 else pos / 2 ^ l - 1)
  if h : path.length = Constants.MERKLE_DEPTH then pure ⟨UInt32.ofNat pos, path, h⟩ else .panic

/-- `builder.rs:1072-1082`: appends the notes to the tree one after the other and takes the path of
each right after it was appended. -/
noncomputable def appendNotes (P : Prims) :
    List Fp → List (Note × MerklePath) → List Note → Outcome (List Fp × List (Note × MerklePath))
  | leaves, acc, [] => pure (leaves, acc)
  | leaves, acc, note :: notes => do
    let leaf ← note.cmx P
    let leaves := leaves ++ [leaf]
    let path ← frontierWitness P leaves
    appendNotes P leaves (acc ++ [(note, path)]) notes

/-- `builder.rs:1045-1092` `arb_bundle_inputs`. -/
noncomputable def arbBundleInputs (P : Prims) (G : Point) (sk : SpendingKey) :
    Gen ArbitraryBundleInputs := do
  let nNotes ← Gen.range 1 30
  let nOutputs ← Gen.range 1 30
  let notes ← Gen.vec (do
    let value ← arbPositiveNoteValue (← Gen.run (maxDiv nNotes))
    arbNote P G value) nNotes
  let outputAmounts ← Gen.vec (do
    let a ← arbAddress P
    let v ← arbPositiveNoteValue (← Gen.run (maxDiv nOutputs))
    pure (a, v)) nOutputs
  let rngSeed ← Gen.anything (Bytes 32)
  Gen.run do
    let x ← appendNotes P [] [] notes
    let anchor ← frontierRoot P x.1
    pure ⟨rngSeed, sk, anchor, x.2, outputAmounts⟩

/-- `unwrap` of a `Result` of a function with rejection loops. For instance `builder.rs:1033`. -/
def unwrapRun {E α : Type} : Run E α → Run Empty α
  | .ok a => .ok a
  | .err _ => .panic
  | .panic => .panic
  | .more => .more

/-- `unwrap` of a `Result`. For instance `builder.rs:1018`. -/
def unwrapResult {E α : Type} : Except E α → Outcome α
  | .ok a => .ret a
  | .error _ => .panic

/-- `builder.rs:1017-1019`: adds the spends. -/
noncomputable def addSpends (P : Prims) (fvk : FullViewingKey) :
    Builder → List (Note × MerklePath) → Outcome Builder
  | b, [] => pure b
  | b, x :: l => do
    let r ← b.addSpend P fvk x.1 x.2
    unwrapResult r.1
    addSpends P fvk r.2 l

/-- `builder.rs:1021-1028`: adds the outputs. -/
noncomputable def addOutputs (P : Prims) (fvk : FullViewingKey) :
    Builder → List (Address × NoteValue) → Outcome Builder
  | b, [] => pure b
  | b, x :: l => do
    let scope ← Option.unwrapO (← fvk.scopeForAddress P x.1)
    let ovk ← fvk.toOvk P scope
    let r := b.addOutput (some ovk) x.1 x.2 none
    unwrapResult r.1
    addOutputs P fvk r.2 l

/-- `builder.rs:1013-1042` `into_bundle`.  `prover` is the prover for the key built at 1030; `draws`
are the values drawn for building and `srng` those drawn for signing. -/
noncomputable def intoBundle {V : Type} (P : Prims) (tryFrom : I64 → Option V)
    (prover : List Circuit → List (List Fp) → Except ProofError (List UInt8))
    (draws : BuildDraws) (srng : SignRng) (x : ArbitraryBundleInputs) :
    Run Empty (AuthorizedBundle V) := do
  let fvk ← Run.ofOutcome (FullViewingKey.ofSk P x.sk)
  let builder := Builder.new BundleType.DEFAULT x.anchor
  let builder ← Run.ofOutcome (addSpends P fvk builder x.notes)
  let builder ← Run.ofOutcome (addOutputs P fvk builder x.outputAmounts)
  let built ← unwrapRun (builder.build P tryFrom draws)
  let u ← Run.ofOutcome (Option.unwrapO built)
  let proven ← unwrapRun (u.1.createProof prover)
  let prepared := proven.prepare P srng (Bytes.replicate 32 0)
  let ask ← Run.ofOutcome (SpendAuthorizingKey.ofSk P x.sk)
  let signed := prepared.1.sign P prepared.2 ask
  let r ← Run.ofOutcome signed.1.finalize
  Run.ofOutcome (unwrapResult r)

/-- The outcomes of a function with rejection loops: none while it is still drawing.
For `builder.rs:1098`, `1105`. -/
def ofRun {α : Type} (x : Run Empty α) : Gen α :=
  ⟨fun o => (∃ a, x = .ok a ∧ o = .ret a) ∨ (x = .panic ∧ o = .panic)⟩

/-- `builder.rs:1102-1106` `arb_bundle_with_key`.  `std` gives the values that are drawn from
`StdRng::from_seed(seed)`. -/
noncomputable def arbBundleWithKey {V : Type} (P : Prims) (G : Point) (tryFrom : I64 → Option V)
    (prover : Bytes 32 → List Circuit → List (List Fp) → Except ProofError (List UInt8))
    (std : Bytes 32 → BuildDraws × SignRng) (k : SpendingKey) : Gen (AuthorizedBundle V) := do
  let inputs ← arbBundleInputs P G k
  ofRun (intoBundle P tryFrom (prover inputs.rngSeed) (std inputs.rngSeed).1
    (std inputs.rngSeed).2 inputs)

/-- `builder.rs:1095-1099` `arb_bundle`. -/
noncomputable def arbBuilderBundle {V : Type} (P : Prims) (G : Point) (tryFrom : I64 → Option V)
    (prover : Bytes 32 → List Circuit → List (List Fp) → Except ProofError (List UInt8))
    (std : Bytes 32 → BuildDraws × SignRng) : Gen (AuthorizedBundle V) := do
  let sk ← arbSpendingKey P
  arbBundleWithKey P G tryFrom prover std sk

end Testing

end Orchard
