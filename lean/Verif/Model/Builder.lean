import Verif.Model.Bundle

/-!
# Model of `/repo/src/builder.rs` (bundle construction) and of the `Circuit` constructors of
`/repo/src/circuit.rs`

Random values are given as labelled draws (`BuildDraws`), one field for each place where the code
draws them; the theorems hold for all draws.  Loops that draw until a value is accepted take a list
of draws and give `Run.more` when it is used up.  `usize` is `ℕ` (the code only takes maxima of and
compares lengths of vectors in memory).
-/

namespace Orchard

open RedPallas

/-! ### Results -/

/-- Result of a fallible function with rejection loops: `Ok`, `Err`, a panic, or "still drawing
random values when the given draws are used up".
For `builder.rs:240-253`, `298-303`, `333-369`, `561-680`. -/
inductive Run (E α : Type) where
  | ok (a : α)
  | err (e : E)
  | panic
  | more

namespace Run

/-- Sequencing (`?`). For instance `builder.rs:643-645`. -/
def bind {E α β : Type} (x : Run E α) (f : α → Run E β) : Run E β :=
  match x with
  | ok a => f a
  | err e => err e
  | panic => panic
  | more => more

/-- `Run` is a monad with `bind`. For instance `builder.rs:643-645`. -/
instance {E : Type} : Monad (Run E) where
  pure := ok
  bind := bind

@[simp] theorem pure_eq {E α : Type} (a : α) : (pure a : Run E α) = ok a := rfl
@[simp] theorem ok_bind {E α β : Type} (a : α) (f : α → Run E β) : (ok a >>= f) = f a := rfl
@[simp] theorem err_bind {E α β : Type} (e : E) (f : α → Run E β) :
    ((err e : Run E α) >>= f) = err e := rfl
@[simp] theorem panic_bind {E α β : Type} (f : α → Run E β) :
    ((panic : Run E α) >>= f) = panic := rfl
@[simp] theorem more_bind {E α β : Type} (f : α → Run E β) :
    ((more : Run E α) >>= f) = more := rfl

/-- The monad laws hold for `Run` (`builder.rs:561-680`). -/
instance {E : Type} : LawfulMonad (Run E) := LawfulMonad.mk'
  (id_map := fun x => by cases x <;> rfl)
  (pure_bind := fun _ _ => rfl)
  (bind_assoc := fun x _ _ => by cases x <;> rfl)

/-- A computation that may panic. For instance `builder.rs:300`. -/
def ofOutcome {E α : Type} : Outcome α → Run E α
  | .ret a => ok a
  | .panic => panic

/-- A computation that draws; `none` when the draws are used up.
For instance `keys.rs:56-65`, `note.rs:189-202`. -/
def ofDraws {E α : Type} : Option α → Run E α
  | some a => ok a
  | none => more

end Run

/-! ### Bundle types and errors -/

/-- `builder.rs:28`. -/
def MIN_ACTIONS : ℕ := 2

/-- `builder.rs:31-45` `BundleType`. -/
inductive BundleType where
  | transactional (flags : Flags) (bundleRequired : Bool)
  | coinbase
  deriving DecidableEq

namespace BundleType

/-- `builder.rs:50-53`. -/
def DEFAULT : BundleType := .transactional Flags.ENABLED false
/-- `builder.rs:57-60`. -/
def DISABLED : BundleType := .transactional ⟨false, false⟩ false

/-- `builder.rs:67-99` `num_actions`; the `&'static str` of the error is dropped. -/
def numActions (ty : BundleType) (numSpends numOutputs : ℕ) : Option ℕ :=
  let numRequestedActions := max numSpends numOutputs
  match ty with
  | .transactional flags bundleRequired =>
    if !flags.spendsEnabled && decide (0 < numSpends) then none
    else if !flags.outputsEnabled && decide (0 < numOutputs) then none
    else some (if bundleRequired || decide (0 < numRequestedActions) then
      max numRequestedActions MIN_ACTIONS else 0)
  | .coinbase => if 0 < numSpends then none else some numOutputs

/-- `builder.rs:102-107` `flags`. -/
def flags : BundleType → Flags
  | .transactional flags _ => flags
  | .coinbase => Flags.SPENDS_DISABLED

end BundleType

/-- `halo2_proofs::plonk::Error`; its variants do not matter. Carried by `builder.rs:122`. -/
structure ProofError where
  code : ℕ
  deriving DecidableEq, Repr

/-- `builder.rs:111-133` `BuildError`. -/
inductive BuildError where
  | spendsDisabled
  | outputsDisabled
  | anchorMismatch
  | missingSignatures
  | proof (e : ProofError)
  | valueSum (e : OverflowError)
  | invalidExternalSignature
  | duplicateSignature
  | bundleTypeNotSatisfiable
  deriving DecidableEq, Repr

/-- `builder.rs:171-179` `SpendError`. -/
inductive SpendError where
  | spendsDisabled
  | anchorMismatch
  | fvkMismatch
  deriving DecidableEq, Repr

/-- `builder.rs:195-196` `OutputError`. -/
inductive OutputError where
  | disabled
  deriving DecidableEq, Repr

/-! ### Spends and outputs -/

/-- `builder.rs:207-214` `SpendInfo`. -/
structure SpendInfo where
  dummySk : Option SpendingKey
  fvk : FullViewingKey
  scope : Scope
  note : Note
  merklePath : MerklePath

/-- The random values of one `SpendInfo::dummy` call: those of `Note::dummy` and the random path of
`MerklePath::dummy` (`tree.rs:117-123`: a random `u32` position and 32 random field elements). -/
structure SpendDummyDraws where
  skDraws : List (Bytes 32)
  rhoPoint : Point
  seedDraws : List (Bytes 32)
  path : MerklePath

namespace SpendInfo

/-- `builder.rs:226-235` `new`. -/
noncomputable def new (P : Prims) (fvk : FullViewingKey) (note : Note) (merklePath : MerklePath) :
    Outcome (Option SpendInfo) := do
  match ← fvk.scopeForAddress P note.recipient with
  | none => pure none
  | some scope => pure (some
      { dummySk := none, fvk := fvk, scope := scope, note := note, merklePath := merklePath })

/-- `builder.rs:240-253` `dummy`. -/
noncomputable def dummy {E : Type} (P : Prims) (rng : SpendDummyDraws) : Run E SpendInfo := do
  let r ← Run.ofOutcome (Note.dummy P rng.skDraws none rng.rhoPoint rng.seedDraws)
  let x ← Run.ofDraws r
  pure { dummySk := some x.1, fvk := x.2.1, scope := .external, note := x.2.2,
         merklePath := rng.path }

/-- `builder.rs:255-264` `has_matching_anchor`. -/
noncomputable def hasMatchingAnchor (P : Prims) (s : SpendInfo) (anchor : Fp) : Outcome Bool := do
  if s.note.value = NoteValue.zero then pure true
  else
    let cmx ← s.note.cmx P
    let pathRoot ← s.merklePath.root P cmx
    pure (decide (pathRoot = anchor))

end SpendInfo

/-- `builder.rs:268-273` `OutputInfo`. -/
structure OutputInfo where
  ovk : Option (Bytes 32)
  recipient : Address
  value : NoteValue
  memo : Bytes 512

/-- The memo used when none is given, `builder.rs:287-291`: `0xf6` followed by zeros. -/
def defaultMemo : Bytes 512 := (Bytes.replicate 1 0xf6).append (Bytes.replicate 511 0)

namespace OutputInfo

/-- `builder.rs:277-293` `new`. -/
def new (ovk : Option (Bytes 32)) (recipient : Address) (value : NoteValue)
    (memo : Option (Bytes 512)) : OutputInfo :=
  { ovk := ovk, recipient := recipient, value := value, memo := memo.getD defaultMemo }

/-- `builder.rs:298-303` `dummy`; `address_at(0u32, ..)` uses the all-zero diversifier index. -/
noncomputable def dummy {E : Type} (P : Prims) (skDraws : List (Bytes 32)) : Run E OutputInfo := do
  let r ← Run.ofOutcome (SpendingKey.random P skDraws)
  let x ← Run.ofDraws r
  let fvk ← Run.ofOutcome (FullViewingKey.ofSk P x.1)
  let recipient ← Run.ofOutcome (fvk.addressAt P (Bytes.ofNat 11 0) .external)
  pure (OutputInfo.new none recipient NoteValue.zero none)

end OutputInfo

/-! ### Witnesses -/

/-- `circuit.rs:101-122` `Circuit` (every `Value` is known after construction). -/
structure Circuit where
  path : List Fp
  pos : UInt32
  gdOld : Point
  pkdOld : Point
  vOld : NoteValue
  rhoOld : Fp
  psiOld : Fp
  rcmOld : Fq
  cmOld : Point
  alpha : Fq
  ak : SpendValidatingKey
  nk : Fp
  rivk : Fq
  gdNew : Point
  pkdNew : Point
  vNew : NoteValue
  psiNew : Fp
  rcmNew : Fq
  rcv : ValueCommitTrapdoor

namespace Circuit

/-- `circuit.rs:150-186` `from_action_context_unchecked`. -/
noncomputable def fromActionContextUnchecked (P : Prims) (spend : SpendInfo) (outputNote : Note)
    (alpha : Fq) (rcv : ValueCommitTrapdoor) : Outcome Circuit := do
  let senderAddress := spend.note.recipient
  let rhoOld := spend.note.rho
  let psiOld := RandomSeed.psi P spend.note.rseed rhoOld
  let rcmOld := RandomSeed.rcm P spend.note.rseed rhoOld
  let rhoNew := outputNote.rho
  let psiNew := RandomSeed.psi P outputNote.rseed rhoNew
  let rcmNew := RandomSeed.rcm P outputNote.rseed rhoNew
  let cmOld ← spend.note.commitment P
  let rivk ← spend.fvk.rivkFor P spend.scope
  pure
    { path := spend.merklePath.authPath, pos := spend.merklePath.position,
      gdOld := senderAddress.gd P, pkdOld := senderAddress.pkd, vOld := spend.note.value,
      rhoOld := rhoOld, psiOld := psiOld, rcmOld := rcmOld, cmOld := cmOld,
      alpha := alpha, ak := spend.fvk.ak, nk := spend.fvk.nk, rivk := rivk,
      gdNew := outputNote.recipient.gd P, pkdNew := outputNote.recipient.pkd,
      vNew := outputNote.value, psiNew := psiNew, rcmNew := rcmNew, rcv := rcv }

/-- `circuit.rs:140-148` `from_action_context`. -/
noncomputable def fromActionContext (P : Prims) (spend : SpendInfo) (outputNote : Note)
    (alpha : Fq) (rcv : ValueCommitTrapdoor) : Outcome (Option Circuit) := do
  let nf ← spend.note.nullifier P spend.fvk
  if nf = outputNote.rho then
    pure (some (← fromActionContextUnchecked P spend outputNote alpha rcv))
  else pure none

end Circuit

/-! ### Actions -/

/-- `builder.rs:746-752` `SigningParts`. -/
structure SigningParts where
  ak : SpendValidatingKey
  alpha : Fq
  deriving DecidableEq

/-- `builder.rs:765-774` `SigningMetadata`. -/
structure SigningMetadata where
  dummyAsk : Option SpendAuthorizingKey
  parts : SigningParts
  deriving DecidableEq

/-- `builder.rs:308-312` `ActionInfo`. -/
structure ActionInfo where
  spend : SpendInfo
  output : OutputInfo
  rcv : ValueCommitTrapdoor

/-- The random values of one `ActionInfo::build` call, in the order of their use: `alpha`, the seeds
tried by `Note::new`, and the values `encrypt_outgoing_plaintext` draws when there is no ovk.
For `builder.rs:333-369`. -/
structure ActionDraws where
  alpha : Fq
  seedDraws : List (Bytes 32)
  rndOck : Bytes 32
  rndOp : Bytes 64

namespace ActionInfo

/-- `builder.rs:324-326` `value_sum`. -/
def valueSum (a : ActionInfo) : Outcome ValueSum :=
  Option.unwrapO (NoteValue.sub a.spend.note.value a.output.value)

/-- `Option::map` with a function that may panic. Used at `builder.rs:363`. -/
def mapO {α β : Type} (f : α → Outcome β) : Option α → Outcome (Option β)
  | none => pure none
  | some a => do pure (some (← f a))

/-- `builder.rs:333-369` `build`. -/
noncomputable def build {E : Type} (P : Prims) (a : ActionInfo) (rng : ActionDraws) :
    Run E (Action SigningMetadata × Circuit) := do
  let vNet ← Run.ofOutcome a.valueSum
  let cvNet ← Run.ofOutcome (Option.unwrapO (ValueCommitment.derive vNet a.rcv))
  let nfOld ← Run.ofOutcome (a.spend.note.nullifier P a.spend.fvk)
  let ak := a.spend.fvk.ak
  let alpha := rng.alpha
  let rk := VerificationKey.randomize ak alpha
  let r ← Run.ofDraws (Note.new P a.output.recipient a.output.value nfOld rng.seedDraws)
  let note := r.1
  let cmx ← Run.ofOutcome (note.cmx P)
  let encryptedNote ← Run.ofOutcome
    (encryptNote P a.output.ovk note a.output.memo cvNet cmx rng.rndOck rng.rndOp)
  let dummyAsk ← Run.ofOutcome (mapO (SpendAuthorizingKey.ofSk P) a.spend.dummySk)
  let circuit ← Run.ofOutcome (Circuit.fromActionContextUnchecked P a.spend note alpha a.rcv)
  pure (Action.fromParts nfOld rk cmx encryptedNote cvNet
    { dummyAsk := dummyAsk, parts := { ak := ak, alpha := alpha } }, circuit)

end ActionInfo

/-! ### Metadata -/

/-- `builder.rs:384-387` `BundleMetadata`. -/
structure BundleMetadata where
  spendIndices : List ℕ
  outputIndices : List ℕ
  deriving DecidableEq

namespace BundleMetadata

/-- `builder.rs:390-395` `new`. -/
def new (numRequestedSpends numRequestedOutputs : ℕ) : BundleMetadata :=
  { spendIndices := List.replicate numRequestedSpends 0,
    outputIndices := List.replicate numRequestedOutputs 0 }

/-- `builder.rs:398-400` `empty`. -/
def empty : BundleMetadata := new 0 0

/-- `builder.rs:410-412` `spend_action_index`. -/
def spendActionIndex (m : BundleMetadata) (n : ℕ) : Option ℕ := m.spendIndices[n]?

/-- `builder.rs:422-424` `output_action_index`. -/
def outputActionIndex (m : BundleMetadata) (n : ℕ) : Option ℕ := m.outputIndices[n]?

end BundleMetadata

/-- `vec[i] = x`: panics when out of range. Used at `builder.rs:621`, `626`. -/
def vecSet {α : Type} (l : List α) (i : ℕ) (x : α) : Outcome (List α) :=
  if i < l.length then pure (l.set i x) else .panic

/-! ### Bundle construction -/

/-- `rand::seq::SliceRandom::shuffle` (Fisher–Yates): for `i` from `len - 1` down to `1`, swaps
positions `i` and a random `j ≤ i`.  `g i` is the draw in step `i`. Called at `builder.rs:609-610`. -/
def shuffle {α : Type} (g : ℕ → ℕ) (l : List α) : List α :=
  ((List.range' 1 (l.length - 1)).reverse.foldl
    (fun (v : Array α) i => v.swapIfInBounds i (g i % (i + 1))) l.toArray).toList

/-- The random values drawn by `bundle`. For `builder.rs:561-680`. -/
structure BuildDraws where
  spendDummy : ℕ → SpendDummyDraws
  outputDummy : ℕ → List (Bytes 32)
  spendShuffle : ℕ → ℕ
  outputShuffle : ℕ → ℕ
  rcv : ℕ → Fq
  action : ℕ → ActionDraws

/-- `builder.rs:688-692` `InProgress<P, S>`. -/
structure InProgress (Pf S : Type) where
  proof : Pf
  sigs : S

/-- `builder.rs:701-704` `Unproven`. -/
structure Unproven where
  circuits : List Circuit

/-- `builder.rs:755-758` `Unauthorized`. -/
structure Unauthorized where
  bsk : SigningKey .binding

/-- `builder.rs:375` `UnauthorizedBundle<V>`. -/
abbrev UnauthorizedBundle (V : Type) : Type :=
  Bundle (InProgress Unproven Unauthorized) SigningMetadata V

/-- `builder.rs:575-579`: the loop over the requested spends; gives whether all have the anchor, and
stops at the first one that does not. -/
noncomputable def allMatchAnchor (P : Prims) (anchor : Fp) : List SpendInfo → Outcome Bool
  | [] => pure true
  | s :: l => do
    if ← s.hasMatchingAnchor P anchor then allMatchAnchor P anchor l else pure false

/-- `builder.rs:592-604`: `requested.chain(repeat_with(dummy)).enumerate().take(n)`. -/
def indexedPadded {E α : Type} (dummy : ℕ → Run E α) (requested : List α) (numActions : ℕ) :
    Run E (List (α × ℕ)) := do
  let dummies ← (List.range (numActions - requested.length)).mapM dummy
  pure ((requested ++ dummies).zipIdx.take numActions)

/-- `builder.rs:617-629`, the closure applied to one pair of spend and output. -/
def recordAction (numRequestedSpends numRequestedOutputs : ℕ) (rcv : ℕ → Fq)
    (acc : BundleMetadata × List ActionInfo) (x : ((SpendInfo × ℕ) × (OutputInfo × ℕ)) × ℕ) :
    Outcome (BundleMetadata × List ActionInfo) := do
  let actionIdx := x.2
  let spendIdx := x.1.1.2
  let outIdx := x.1.2.2
  let spendIndices ← if spendIdx < numRequestedSpends then
      vecSet acc.1.spendIndices spendIdx actionIdx else pure acc.1.spendIndices
  let outputIndices ← if outIdx < numRequestedOutputs then
      vecSet acc.1.outputIndices outIdx actionIdx else pure acc.1.outputIndices
  pure (⟨spendIndices, outputIndices⟩, acc.2 ++ [⟨x.1.1.1, x.1.2.1, ⟨rcv actionIdx⟩⟩])

/-- `builder.rs:612-632`: zips the shuffled spends and outputs and records their positions. -/
def recordActions (spends : List (SpendInfo × ℕ)) (outputs : List (OutputInfo × ℕ))
    (numRequestedSpends numRequestedOutputs : ℕ) (rcv : ℕ → Fq) :
    Outcome (BundleMetadata × List ActionInfo) :=
  (spends.zip outputs).zipIdx.foldlM (recordAction numRequestedSpends numRequestedOutputs rcv)
    (BundleMetadata.new numRequestedSpends numRequestedOutputs, [])

/-- The fold `fold(Some(ValueSum::zero()), |acc, v| acc? + v)` of `builder.rs:525-535` and
`builder.rs:636-641`. -/
def foldSum (l : List ValueSum) : Option ValueSum :=
  l.foldl (fun acc v => acc.bind fun a => a.add v) (some ValueSum.zero)

/-- `i64::try_from(value_balance)` followed by `V::try_from`, `builder.rs:536` and 643-645. -/
def convertBalance {V : Type} (tryFrom : I64 → Option V) (v : ValueSum) : Except OverflowError V :=
  match v.toI64 with
  | .error e => .error e
  | .ok i => match tryFrom i with
    | some x => .ok x
    | none => .error .overflow

/-- `builder.rs:636-645`: the value balance of the planned actions, as a `ValueSum` and as a `V`. -/
def planBalance {V : Type} (tryFrom : I64 → Option V) (l : List ActionInfo) :
    Run BuildError (ValueSum × V) := do
  let sums ← Run.ofOutcome (l.mapM ActionInfo.valueSum)
  match foldSum sums with
  | none => .err (.valueSum .overflow)
  | some s => match convertBalance tryFrom s with
    | .error e => .err (.valueSum e)
    | .ok v => pure (s, v)

/-- `builder.rs:561-679` `bundle`.  `tryFrom` is `V: TryFrom<i64>`. -/
noncomputable def bundle {V : Type} (P : Prims) (tryFrom : I64 → Option V) (rng : BuildDraws)
    (anchor : Fp) (bundleType : BundleType) (spends : List SpendInfo) (outputs : List OutputInfo) :
    Run BuildError (Option (UnauthorizedBundle V × BundleMetadata)) := do
  let flags := bundleType.flags
  let numRequestedSpends := spends.length
  if !flags.spendsEnabled && decide (0 < numRequestedSpends) then
    .err .spendsDisabled
  else
    let matching ← Run.ofOutcome (allMatchAnchor P anchor spends)
    if !matching then
      .err .anchorMismatch
    else
      let numRequestedOutputs := outputs.length
      if !flags.outputsEnabled && decide (0 < numRequestedOutputs) then
        .err .outputsDisabled
      else
        match bundleType.numActions numRequestedSpends numRequestedOutputs with
        | none => .err .bundleTypeNotSatisfiable
        | some numActions =>
          let indexedSpends ←
            indexedPadded (fun i => SpendInfo.dummy P (rng.spendDummy i)) spends numActions
          let indexedOutputs ←
            indexedPadded (fun i => OutputInfo.dummy P (rng.outputDummy i)) outputs numActions
          let indexedSpends := shuffle rng.spendShuffle indexedSpends
          let indexedOutputs := shuffle rng.outputShuffle indexedOutputs
          let x ← Run.ofOutcome
            (recordActions indexedSpends indexedOutputs numRequestedSpends numRequestedOutputs rng.rcv)
          let bundleMeta := x.1
          let preActions := x.2
          let vb ← planBalance tryFrom preActions
          let bsk : SigningKey .binding :=
            ⟨(ValueCommitTrapdoor.sum (preActions.map ActionInfo.rcv)).inner⟩
          let built ← preActions.zipIdx.mapM fun a => a.1.build P (rng.action a.2)
          let actions := built.map Prod.fst
          let circuits := built.map Prod.snd
          let balanceCommitment ← Run.ofOutcome
            (Option.unwrapO (ValueCommitment.derive vb.1 ValueCommitTrapdoor.zero))
          let bvk : VerificationKey .binding :=
            ⟨((ValueCommitment.sum (actions.map Action.cvNet)).sub balanceCommitment).inner⟩
          Run.ofOutcome (assertO (decide (bsk.vk = bvk)))
          if h : actions ≠ [] then
            pure (some
              ({ actions := actions, nonempty := h, flags := flags, valueBalance := vb.2,
                 anchor := anchor,
                 authorization := { proof := { circuits := circuits }, sigs := { bsk := bsk } } },
               bundleMeta))
          else pure none

/-! ### The builder -/

/-- `builder.rs:430-435` `Builder`. -/
structure Builder where
  spends : List SpendInfo
  outputs : List OutputInfo
  bundleType : BundleType
  anchor : Fp

namespace Builder

/-- `builder.rs:439-446` `new`. -/
def new (bundleType : BundleType) (anchor : Fp) : Builder := ⟨[], [], bundleType, anchor⟩

/-- `builder.rs:460-481` `add_spend`: the result and the builder afterwards. -/
noncomputable def addSpend (P : Prims) (b : Builder) (fvk : FullViewingKey) (note : Note)
    (merklePath : MerklePath) : Outcome (Except SpendError Unit × Builder) := do
  let flags := b.bundleType.flags
  if !flags.spendsEnabled then
    pure (.error .spendsDisabled, b)
  else
    match ← SpendInfo.new P fvk note merklePath with
    | none => pure (.error .fvkMismatch, b)
    | some spend =>
      if !(← spend.hasMatchingAnchor P b.anchor) then
        pure (.error .anchorMismatch, b)
      else
        pure (.ok (), { b with spends := b.spends ++ [spend] })

/-- `builder.rs:484-500` `add_output`: the result and the builder afterwards. -/
def addOutput (b : Builder) (ovk : Option (Bytes 32)) (recipient : Address) (value : NoteValue)
    (memo : Option (Bytes 512)) : Except OutputError Unit × Builder :=
  let flags := b.bundleType.flags
  if !flags.outputsEnabled then
    (.error .disabled, b)
  else
    (.ok (), { b with outputs := b.outputs ++ [OutputInfo.new ovk recipient value memo] })

/-- A call of `add_spend` or `add_output` with its arguments. For `builder.rs:460-499`. -/
inductive Call where
  | spend (fvk : FullViewingKey) (note : Note) (merklePath : MerklePath)
  | output (ovk : Option (Bytes 32)) (recipient : Address) (value : NoteValue)
      (memo : Option (Bytes 512))

/-- One call (`builder.rs:460-500`): whether it returned `Ok`, and the builder afterwards. -/
noncomputable def call (P : Prims) (b : Builder) : Call → Outcome (Bool × Builder)
  | .spend fvk note merklePath => do
    let r ← b.addSpend P fvk note merklePath
    pure (r.1.isOk, r.2)
  | .output ovk recipient value memo =>
    let r := b.addOutput ovk recipient value memo
    pure (r.1.isOk, r.2)

/-- A history of calls: for each whether it returned `Ok`, and the builder at the end.
For `builder.rs:460-499`. -/
noncomputable def calls (P : Prims) (b : Builder) : List Call → Outcome (List Bool × Builder)
  | [] => pure ([], b)
  | c :: cs => do
    let r ← b.call P c
    let r' ← r.2.calls P cs
    pure (r.1 :: r'.1, r'.2)

/-- `builder.rs:524-537` `value_balance`. -/
def valueBalance {V : Type} (tryFrom : I64 → Option V) (b : Builder) :
    Outcome (Except OverflowError V) := do
  let s ← b.spends.mapM fun s => Option.unwrapO (NoteValue.sub s.note.value NoteValue.zero)
  let o ← b.outputs.mapM fun o => Option.unwrapO (NoteValue.sub NoteValue.zero o.value)
  match foldSum (s ++ o) with
  | none => pure (.error .overflow)
  | some v => pure (convertBalance tryFrom v)

/-- `builder.rs:543-554` `build`. -/
noncomputable def build {V : Type} (P : Prims) (tryFrom : I64 → Option V) (rng : BuildDraws)
    (b : Builder) : Run BuildError (Option (UnauthorizedBundle V × BundleMetadata)) :=
  bundle P tryFrom rng b.anchor b.bundleType b.spends b.outputs

end Builder

end Orchard
