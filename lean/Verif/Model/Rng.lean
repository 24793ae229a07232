import Verif.Model.Builder

/-!
# Building with a random number generator

`/repo/src/builder.rs` and the functions it calls take one `impl RngCore` and draw everything from it.  In
`Verif/Model/Builder` the values drawn are labelled instead.  Here the functions are written once more as they are, with
the generator passed along; `Verif/Props/Rng` shows that both descriptions give the same bundles and which call of the
generator each label comes from.

The loops that draw until a value is accepted have no bound in the code; here they give `Run.more` after `fuel` rounds.
-/

namespace Orchard

open RedPallas

/-- `RngCore`: what the calls of a generator return.  `bytes k n` are the `n` bytes of the `k`-th call, if that call asks
for `n` bytes; `next_u32` and `next_u64` are calls for 4 and 8 bytes.  (A generator may answer differently depending on
what was asked before; for one run with its calls this is no restriction.)  Passed to `builder.rs:562`. -/
structure Generator where
  bytes : (k n : ℕ) → Bytes n

/-- A computation with a generator: from the number of calls made before it to the number made after it.  For
`builder.rs:561-680`. -/
abbrev Drawing (E α : Type) : Type := StateT ℕ (Run E) α

namespace Drawing

variable {E α : Type}

/-- A computation that draws nothing.  For instance `builder.rs:643-645`. -/
def lift (x : Run E α) : Drawing E α := fun k => do pure (← x, k)

/-- A computation that draws nothing and may panic.  For instance `builder.rs:334-337`. -/
def outcome (x : Outcome α) : Drawing E α := lift (Run.ofOutcome x)

/-- `loop { .. break .. }` with at most `fuel` rounds, for instance `keys.rs:57-64`. -/
def untilSome (body : Drawing E (Option α)) : ℕ → Drawing E α
  | 0 => fun _ => .more
  | fuel + 1 => do
    match ← body with
    | some a => pure a
    | none => untilSome body fuel

end Drawing

open Drawing

section
variable {E : Type} (P : Prims) (G : Generator) (fuel : ℕ)

/-- `RngCore::fill_bytes`, for instance at `keys.rs:59`. -/
def fillBytes (n : ℕ) : Drawing E (Bytes n) := fun k => .ok (G.bytes k n, k + 1)

/-- `RngCore::next_u32`, for instance at `tree.rs:119`. -/
def nextU32 : Drawing E UInt32 := do pure (UInt32.ofNat (← fillBytes G 4).toNat)

/-- `RngCore::next_u64`, used by `Field::random` at `builder.rs:340`. -/
def nextU64 : Drawing E ℕ := do pure (← fillBytes G 8).toNat

/-- The number behind `Field::random` of the Pasta fields (crate `pasta_curves`): eight `next_u64`, least significant
first.  Used at `builder.rs:340`, `tree.rs:121`, `value.rs:254`. -/
def randomU512 : Drawing E ℕ := do
  let limbs ← (List.range 8).mapM fun _ => nextU64 G
  pure (limbs.foldr (fun d acc => d + 2 ^ 64 * acc) 0)

/-- `pallas::Base::random` (`from_u512`), used at `tree.rs:121`. -/
def randomBase : Drawing E Fp := do pure ((← randomU512 G : ℕ) : Fp)

/-- `pallas::Scalar::random` (`from_u512`), used at `builder.rs:340` and `value.rs:254`. -/
def randomScalar : Drawing E Fq := do pure ((← randomU512 G : ℕ) : Fq)

/-- The point with a given abscissa and parity of the ordinate, inside `pallas::Point::random` (crate `pasta_curves`),
which `note/nullifier.rs:35` uses. -/
noncomputable def pointOfX (x : Fp) (ysign : ℕ) : Option Point :=
  (Point.fpSqrt (x ^ 3 + 5)).bind fun y =>
    let y' := if Point.sgn y = ysign then y else -y
    if h : y' ^ 2 = x ^ 3 + 5 then some (Point.ofXY x y' h) else none

/-- `pallas::Point::random` (crate `pasta_curves`), used at `note/nullifier.rs:35`. -/
noncomputable def randomPoint : Drawing E Point :=
  untilSome (do
    let x ← randomBase G
    let s ← nextU32 G
    pure (pointOfX x (s.toNat % 2))) fuel

/-- One round of `gen_range(0..range)` of crate `rand` for an unsigned type of `w` bits, with the number `v` drawn in it:
the high part of `v * range`, unless the low part is above the zone (`range << range.leading_zeros()) - 1`.  Used by
`shuffle` at `builder.rs:609-610`. -/
def genRangeStep (w range v : ℕ) : Option ℕ :=
  let zone := range * 2 ^ (w - 1 - Nat.log2 range) - 1
  if v * range % 2 ^ w ≤ zone then some (v * range / 2 ^ w) else none

/-- `gen_index` of crate `rand`, used by `shuffle` at `builder.rs:609-610`: a number below `ubound`, drawn as a `u32` if
`ubound` is one, and as a `usize` of 64 bits otherwise. -/
def genIndex (ubound : ℕ) : Drawing E ℕ :=
  if ubound < 2 ^ 32 then
    untilSome (do pure (genRangeStep 32 ubound (← nextU32 G).toNat)) fuel
  else untilSome (do pure (genRangeStep 64 ubound (← nextU64 G))) fuel

/-- `SliceRandom::shuffle` of crate `rand`, called at `builder.rs:609-610`. -/
def shuffleWith {α : Type} (l : List α) : Drawing E (List α) := do
  let v ← (List.range' 1 (l.length - 1)).reverse.foldlM (init := l.toArray) fun v i => do
    let j ← genIndex G fuel (i + 1)
    pure (v.swapIfInBounds i j)
  pure v.toList

/-- `keys.rs:56-65` `SpendingKey::random`. -/
noncomputable def SpendingKey.draw : Drawing E SpendingKey :=
  untilSome (do outcome (SpendingKey.fromBytes P (← fillBytes G 32))) fuel

/-- `note.rs:67-76` `RandomSeed::random`. -/
def RandomSeed.draw (rho : Fp) : Drawing E (Bytes 32) :=
  untilSome (do pure (RandomSeed.fromBytes P (← fillBytes G 32) rho)) fuel

/-- `note.rs:189-202` `Note::new`. -/
noncomputable def Note.draw (recipient : Address) (value : NoteValue) (rho : Fp) : Drawing E Note :=
  untilSome (do pure (Note.fromParts P recipient value rho (← RandomSeed.draw P G fuel rho))) fuel

/-- `note/nullifier.rs:34-36` `Nullifier::dummy`. -/
noncomputable def nullifierDraw : Drawing E Fp := do pure (nullifierDummy (← randomPoint G fuel))

/-- `note.rs:208-224` `Note::dummy` without a given rho. -/
noncomputable def Note.drawDummy : Drawing E (SpendingKey × FullViewingKey × Note) := do
  let sk ← SpendingKey.draw P G fuel
  let fvk ← outcome (FullViewingKey.ofSk P sk)
  let recipient ← outcome (fvk.addressAt P (Bytes.ofNat 11 0) .external)
  let rho ← nullifierDraw G fuel
  let note ← Note.draw P G fuel recipient NoteValue.zero rho
  pure (sk, fvk, note)

/-- `tree.rs:117-123` `MerklePath::dummy`.  (The elements are an array there; here its length is checked.) -/
noncomputable def MerklePath.draw : Drawing E MerklePath := do
  let position ← nextU32 G
  let authPath ← (List.range Constants.MERKLE_DEPTH).mapM fun _ => randomBase G
  if h : authPath.length = Constants.MERKLE_DEPTH then pure ⟨position, authPath, h⟩
  else lift .panic

/-- `builder.rs:240-253` `SpendInfo::dummy`. -/
noncomputable def SpendInfo.drawDummy : Drawing E SpendInfo := do
  let x ← Note.drawDummy P G fuel
  let merklePath ← MerklePath.draw G
  pure { dummySk := some x.1, fvk := x.2.1, scope := .external, note := x.2.2, merklePath := merklePath }

/-- `builder.rs:298-303` `OutputInfo::dummy`. -/
noncomputable def OutputInfo.drawDummy : Drawing E OutputInfo := do
  let sk ← SpendingKey.draw P G fuel
  let fvk ← outcome (FullViewingKey.ofSk P sk)
  let recipient ← outcome (fvk.addressAt P (Bytes.ofNat 11 0) .external)
  pure (OutputInfo.new none recipient NoteValue.zero none)

/-- What `encrypt_outgoing_plaintext` (crate `zcash_note_encryption`), called at `builder.rs:352`, draws: a key and a
plaintext if there is no outgoing viewing key, and nothing otherwise. -/
def ovkRandom (ovk : Option (Bytes 32)) : Drawing E (Bytes 32 × Bytes 64) :=
  match ovk with
  | some _ => pure (Bytes.ofNat 32 0, Bytes.ofNat 64 0)
  | none => do
    let ock ← fillBytes G 32
    let op ← fillBytes G 64
    pure (ock, op)

/-- `builder.rs:333-369` `ActionInfo::build`. -/
noncomputable def ActionInfo.draw (a : ActionInfo) : Drawing E (Action SigningMetadata × Circuit) := do
  let vNet ← outcome a.valueSum
  let cvNet ← outcome (Option.unwrapO (ValueCommitment.derive vNet a.rcv))
  let nfOld ← outcome (a.spend.note.nullifier P a.spend.fvk)
  let ak := a.spend.fvk.ak
  let alpha ← randomScalar G
  let rk := VerificationKey.randomize ak alpha
  let note ← Note.draw P G fuel a.output.recipient a.output.value nfOld
  let cmx ← outcome (note.cmx P)
  let rnd ← ovkRandom G a.output.ovk
  let encryptedNote ← outcome (encryptNote P a.output.ovk note a.output.memo cvNet cmx rnd.1 rnd.2)
  let dummyAsk ← outcome (ActionInfo.mapO (SpendAuthorizingKey.ofSk P) a.spend.dummySk)
  let circuit ← outcome (Circuit.fromActionContextUnchecked P a.spend note alpha a.rcv)
  pure (Action.fromParts nfOld rk cmx encryptedNote cvNet
    { dummyAsk := dummyAsk, parts := { ak := ak, alpha := alpha } }, circuit)

end

/-- `builder.rs:592-604`: `requested.chain(repeat_with(dummy)).enumerate().take(n)`. -/
def drawPadded {E α : Type} (dummy : Drawing E α) (requested : List α) (numActions : ℕ) :
    Drawing E (List (α × ℕ)) := do
  let dummies ← (List.range (numActions - requested.length)).mapM fun _ => dummy
  pure ((requested ++ dummies).zipIdx.take numActions)

/-- `builder.rs:613-632`: zips the shuffled spends and outputs, records their positions and draws the trapdoor of each
action (315-321).  (The trapdoor is drawn before the positions are recorded, not after; neither depends on the other.) -/
def drawActions {E : Type} (G : Generator) (spends : List (SpendInfo × ℕ)) (outputs : List (OutputInfo × ℕ))
    (numRequestedSpends numRequestedOutputs : ℕ) : Drawing E (BundleMetadata × List ActionInfo) :=
  (spends.zip outputs).zipIdx.foldlM (init := (BundleMetadata.new numRequestedSpends numRequestedOutputs, []))
    fun acc x => do
      let rcv ← randomScalar G
      outcome (recordAction numRequestedSpends numRequestedOutputs (fun _ => rcv) acc x)

/-- `builder.rs:561-679` `bundle`. -/
noncomputable def bundleWith {V : Type} (P : Prims) (tryFrom : I64 → Option V) (G : Generator) (fuel : ℕ)
    (anchor : Fp) (bundleType : BundleType) (spends : List SpendInfo) (outputs : List OutputInfo) :
    Drawing BuildError (Option (UnauthorizedBundle V × BundleMetadata)) := do
  let flags := bundleType.flags
  let numRequestedSpends := spends.length
  if !flags.spendsEnabled && decide (0 < numRequestedSpends) then
    lift (.err .spendsDisabled)
  else
    let matching ← outcome (allMatchAnchor P anchor spends)
    if !matching then
      lift (.err .anchorMismatch)
    else
      let numRequestedOutputs := outputs.length
      if !flags.outputsEnabled && decide (0 < numRequestedOutputs) then
        lift (.err .outputsDisabled)
      else
        match bundleType.numActions numRequestedSpends numRequestedOutputs with
        | none => lift (.err .bundleTypeNotSatisfiable)
        | some numActions =>
          let indexedSpends ← drawPadded (SpendInfo.drawDummy P G fuel) spends numActions
          let indexedOutputs ← drawPadded (OutputInfo.drawDummy P G fuel) outputs numActions
          let indexedSpends ← shuffleWith G fuel indexedSpends
          let indexedOutputs ← shuffleWith G fuel indexedOutputs
          let x ← drawActions G indexedSpends indexedOutputs numRequestedSpends numRequestedOutputs
          let bundleMeta := x.1
          let preActions := x.2
          let vb ← lift (planBalance tryFrom preActions)
          let bsk : SigningKey .binding :=
            ⟨(ValueCommitTrapdoor.sum (preActions.map ActionInfo.rcv)).inner⟩
          let built ← preActions.mapM fun a => a.draw P G fuel
          let actions := built.map Prod.fst
          let circuits := built.map Prod.snd
          let balanceCommitment ← outcome
            (Option.unwrapO (ValueCommitment.derive vb.1 ValueCommitTrapdoor.zero))
          let bvk : VerificationKey .binding :=
            ⟨((ValueCommitment.sum (actions.map Action.cvNet)).sub balanceCommitment).inner⟩
          outcome (assertO (decide (bsk.vk = bvk)))
          if h : actions ≠ [] then
            pure (some
              ({ actions := actions, nonempty := h, flags := flags, valueBalance := vb.2,
                 anchor := anchor,
                 authorization := { proof := { circuits := circuits }, sigs := { bsk := bsk } } },
               bundleMeta))
          else pure none

/-- `builder.rs:543-554` `Builder::build`. -/
noncomputable def Builder.buildWith {V : Type} (P : Prims) (tryFrom : I64 → Option V) (G : Generator) (fuel : ℕ)
    (b : Builder) : Drawing BuildError (Option (UnauthorizedBundle V × BundleMetadata)) :=
  bundleWith P tryFrom G fuel b.anchor b.bundleType b.spends b.outputs

end Orchard
