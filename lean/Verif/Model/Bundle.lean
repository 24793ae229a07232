import Verif.Model.NoteEncryption
import Verif.Model.Tree

/-!
# Model of `/repo/src/bundle.rs`, `/repo/src/bundle/commitments.rs` and `Instance` of
`/repo/src/circuit.rs`

`Bundle<T, V>` with `T: Authorization` has two type parameters here, `T` and `A = T::SpendAuth`.
`NonEmpty<Action<A>>` is a list with a proof that it is not empty.  A closure with a `&mut R` context
is a function that takes the state and returns the new one.  `V: Into<i64>` is a function
`into : V → I64`.  `Proof` (`circuit.rs:863`) is its list of bytes.
-/

namespace Orchard

open RedPallas

/-! ### Flags -/

/-- `bundle.rs:46-59` `Flags`. -/
structure Flags where
  spendsEnabled : Bool
  outputsEnabled : Bool
  deriving DecidableEq, Repr

namespace Flags

/-- `bundle.rs:61`. -/
def FLAG_SPENDS_ENABLED : UInt8 := 0b00000001
/-- `bundle.rs:62`. -/
def FLAG_OUTPUTS_ENABLED : UInt8 := 0b00000010
/-- `bundle.rs:63`. -/
def FLAGS_EXPECTED_UNSET : UInt8 := ~~~ (FLAG_SPENDS_ENABLED ||| FLAG_OUTPUTS_ENABLED)

/-- `bundle.rs:75-78`. -/
def ENABLED : Flags := ⟨true, true⟩
/-- `bundle.rs:81-84`. -/
def SPENDS_DISABLED : Flags := ⟨false, true⟩
/-- `bundle.rs:87-90`. -/
def OUTPUTS_DISABLED : Flags := ⟨true, false⟩

/-- `bundle.rs:114-123` `to_byte`. -/
def toByte (f : Flags) : UInt8 :=
  let value : UInt8 := 0
  let value := if f.spendsEnabled then value ||| FLAG_SPENDS_ENABLED else value
  let value := if f.outputsEnabled then value ||| FLAG_OUTPUTS_ENABLED else value
  value

/-- `bundle.rs:131-142` `from_byte`. -/
def fromByte (value : UInt8) : Option Flags :=
  if value &&& FLAGS_EXPECTED_UNSET = 0 then
    some ⟨value &&& FLAG_SPENDS_ENABLED != 0, value &&& FLAG_OUTPUTS_ENABLED != 0⟩
  else none

end Flags

/-! ### Instances -/

/-- `circuit.rs:797-805` `Instance`. -/
structure Instance where
  anchor : Fp
  cvNet : ValueCommitment
  nfOld : Fp
  rk : VerificationKey .spendAuth
  cmx : Fp
  enableSpend : Bool
  enableOutput : Bool
  deriving DecidableEq

/-- `bundle.rs:31-41` `Action::to_instance`. -/
def Action.toInstance {A : Type} (a : Action A) (flags : Flags) (anchor : Fp) : Instance :=
  { anchor := anchor, cvNet := a.cvNet, nfOld := a.nf, rk := a.rk, cmx := a.cmx,
    enableSpend := flags.spendsEnabled, enableOutput := flags.outputsEnabled }

/-- `pallas::Affine::coordinates`: `None` for the identity.
Called at `circuit.rs:846`, `value.rs:346`, `355`, `spec.rs:269`. -/
def Point.coordinates : Point → Option (Fp × Fp)
  | .zero => none
  | .some x y _ => some (x, y)

/-- `circuit.rs:835-857` `Instance::to_halo2_instance`; the offsets are those of `circuit.rs:70-78`. -/
noncomputable def Instance.toHalo2 (i : Instance) : Outcome (List Fp) := do
  let p ← Option.unwrapO (Point.fromBytes i.rk.toBytes)
  let c ← Option.unwrapO (Point.coordinates p)
  pure [i.anchor, i.cvNet.x, i.cvNet.y, i.nfOld, c.1, c.2, i.cmx,
    if i.enableSpend then 1 else 0, if i.enableOutput then 1 else 0]

/-! ### Bundles -/

/-- `bundle.rs:152-165` `Bundle<T, V>`. -/
structure Bundle (T A V : Type) where
  actions : List (Action A)
  nonempty : actions ≠ []
  flags : Flags
  valueBalance : V
  anchor : Fp
  authorization : T

/-- Maps a list from left to right with a state. For `bundle.rs:258-260`. -/
def mapState {R A B : Type} (f : R → A → B × R) : R → List A → List B × R
  | r, [] => ([], r)
  | r, a :: l =>
    let b := f r a
    let bs := mapState f b.2 l
    (b.1 :: bs.1, bs.2)

/-- Maps a list from left to right with a state, up to the first failure
(`iter.map(f).collect::<Result<Vec<_>, E>>()`). For `bundle.rs:276-280`. -/
def tryMapState {R A B E : Type} (f : R → A → Except E B × R) : R → List A → Except E (List B) × R
  | r, [] => (.ok [], r)
  | r, a :: l => match f r a with
    | (.error e, r') => (.error e, r')
    | (.ok b, r') => match tryMapState f r' l with
      | (.error e, r'') => (.error e, r'')
      | (.ok bs, r'') => (.ok (b :: bs), r'')

theorem length_mapState {R A B : Type} (f : R → A → B × R) (r : R) (l : List A) :
    (mapState f r l).1.length = l.length := by
  induction l generalizing r with
  | nil => rfl
  | cons a l ih => simp [mapState, ih]

namespace Bundle

variable {T A V U B V' R E : Type}

/-- `bundle.rs:236-247` `try_map_value_balance`. -/
def tryMapValueBalance (b : Bundle T A V) (f : V → Except E V') : Except E (Bundle T A V') := do
  let v ← f b.valueBalance
  pure ⟨b.actions, b.nonempty, b.flags, v, b.anchor, b.authorization⟩

/-- `bundle.rs:250-266` `map_authorization`. -/
def mapAuthorization (b : Bundle T A V) (context : R) (spendAuth : R → T → A → B × R)
    (step : R → T → U × R) : Bundle U B V × R :=
  let as := mapState (fun r (a : Action A) =>
    let x := spendAuth r b.authorization a.authorization
    (a.map (fun _ => x.1), x.2)) context b.actions
  let t := step as.2 b.authorization
  (⟨as.1, by
      have h := length_mapState (fun r (a : Action A) =>
        let x := spendAuth r b.authorization a.authorization
        (a.map (fun _ => x.1), x.2)) context b.actions
      intro h0
      have h1 : as.1.length = 0 := by rw [h0]; rfl
      rw [show as.1.length = b.actions.length from h] at h1
      exact b.nonempty (List.length_eq_zero_iff.1 h1),
    b.flags, b.valueBalance, b.anchor, t.1⟩, t.2)

/-- `bundle.rs:269-289` `try_map_authorization`.  `NonEmpty::from_vec(..).unwrap()` is a possible
panic. -/
def tryMapAuthorization (b : Bundle T A V) (context : R)
    (spendAuth : R → T → A → Except E B × R) (step : R → T → Except E U × R) :
    Outcome (Except E (Bundle U B V)) × R :=
  match tryMapState (fun r (a : Action A) =>
      let x := spendAuth r b.authorization a.authorization
      (a.tryMap (fun _ => x.1), x.2)) context b.actions with
  | (.error e, r) => (.ret (.error e), r)
  | (.ok as, r) =>
    if h : as ≠ [] then
      match step r b.authorization with
      | (.error e, r') => (.ret (.error e), r')
      | (.ok t, r') => (.ret (.ok ⟨as, h, b.flags, b.valueBalance, b.anchor, t⟩), r')
    else (.panic, r)

/-- `bundle.rs:291-296` `to_instances`. -/
def toInstances (b : Bundle T A V) : List Instance :=
  b.actions.map fun a => a.toInstance b.flags b.anchor

/-! ### Scanning -/

/-- `iter.find_map(f)` for a function that may panic. Used at `bundle.rs:315`, `351`. -/
def findMapO {K X : Type} (f : K → Outcome (Option X)) : List K → Outcome (Option X)
  | [] => pure none
  | k :: l => do
    match ← f k with
    | some x => pure (some x)
    | none => findMapO f l

/-- `iter.enumerate().filter_map(f).collect()` for a function that may panic; `i` is the index of the
first element. Used at `bundle.rs:310-320`, `346-361`. -/
def filterMapIdxO {K X : Type} (f : ℕ → K → Outcome (Option X)) (i : ℕ) : List K → Outcome (List X)
  | [] => pure []
  | k :: l => do
    match ← f i k with
    | some x => do
      let xs ← filterMapIdxO f (i + 1) l
      pure (x :: xs)
    | none => filterMapIdxO f (i + 1) l

/-- `bundle.rs:302-321` `decrypt_outputs_with_keys`. -/
noncomputable def decryptOutputsWithKeys (P : Prims) (b : Bundle T A V)
    (keys : List IncomingViewingKey) :
    Outcome (List (ℕ × IncomingViewingKey × Note × Address × Bytes 512)) :=
  filterMapIdxO (fun idx action =>
    findMapO (fun (ivk : IncomingViewingKey) => do
      let r ← tryNoteDecryption P ivk.ivk action
      pure (r.map fun nam => (idx, ivk, nam.1, nam.2.1, nam.2.2))) keys) 0 b.actions

/-- `bundle.rs:326-336` `decrypt_output_with_key`. -/
noncomputable def decryptOutputWithKey (P : Prims) (b : Bundle T A V) (actionIdx : ℕ)
    (key : IncomingViewingKey) : Outcome (Option (Note × Address × Bytes 512)) :=
  match b.actions[actionIdx]? with
  | none => pure none
  | some action => tryNoteDecryption P key.ivk action

/-- `bundle.rs:342-363` `recover_outputs_with_ovks`. -/
noncomputable def recoverOutputsWithOvks (P : Prims) (b : Bundle T A V) (keys : List (Bytes 32)) :
    Outcome (List (ℕ × Bytes 32 × Note × Address × Bytes 512)) :=
  filterMapIdxO (fun idx action =>
    findMapO (fun (key : Bytes 32) => do
      let r ← tryOutputRecoveryWithOvk P key action
      pure (r.map fun nam => (idx, key, nam.1, nam.2.1, nam.2.2))) keys) 0 b.actions

/-- `bundle.rs:368-383` `recover_output_with_ovk`. -/
noncomputable def recoverOutputWithOvk (P : Prims) (b : Bundle T A V) (actionIdx : ℕ)
    (key : Bytes 32) : Outcome (Option (Note × Address × Bytes 512)) :=
  match b.actions[actionIdx]? with
  | none => pure none
  | some action => tryOutputRecoveryWithOvk P key action

/-! ### Binding validating key -/

/-- `bundle.rs:397-409` `binding_validating_key`; `into_bvk` (`value.rs:326-329`) re-encodes the point
as a verification key. -/
noncomputable def bindingValidatingKey (into : V → I64) (b : Bundle T A V) :
    Outcome (VerificationKey .binding) := do
  let cv ← Option.unwrapO
    (ValueCommitment.derive (ValueSum.fromRaw (into b.valueBalance)) ValueCommitTrapdoor.zero)
  pure ⟨((ValueCommitment.sum (b.actions.map Action.cvNet)).sub cv).inner⟩

end Bundle

/-! ### Commitments -/

/-- `u64/i64::to_le_bytes`: two's complement, little-endian. Called at `bundle/commitments.rs:56`. -/
def I64.toLeBytes (v : I64) : Bytes 8 := Bytes.ofNat 8 (v.val % 2 ^ 64).toNat

/-- `bundle/commitments.rs:39-42`: the bytes one action adds to the compact hash. -/
def Action.compactBytes {A : Type} (a : Action A) : List UInt8 :=
  (nullifierToBytes a.nf).toList ++ (cmxToBytes a.cmx).toList ++ a.encryptedNote.epkBytes.toList ++
    (a.encryptedNote.encCiphertext.slice 0 52 (by norm_num)).toList

/-- `bundle/commitments.rs:44`: the bytes one action adds to the memo hash. -/
def Action.memoBytes {A : Type} (a : Action A) : List UInt8 :=
  (a.encryptedNote.encCiphertext.slice 52 512 (by norm_num)).toList

/-- `bundle/commitments.rs:46-49`: the bytes one action adds to the non-compact hash. -/
def Action.nonCompactBytes {A : Type} (a : Action A) : List UInt8 :=
  a.cvNet.toBytes.toList ++ a.rk.toBytes.toList ++
    (a.encryptedNote.encCiphertext.slice 564 16 (by norm_num)).toList ++
    a.encryptedNote.outCiphertext.toList

/-- `bundle/commitments.rs:30-59` `hash_bundle_txid_data`. -/
def hashBundleTxidData {T A V : Type} (P : Prims) (into : V → I64) (b : Bundle T A V) : Bytes 32 :=
  let ch := P.blake2b256 (ascii "ZTxIdOrcActCHash") (b.actions.flatMap Action.compactBytes)
  let mh := P.blake2b256 (ascii "ZTxIdOrcActMHash") (b.actions.flatMap Action.memoBytes)
  let nh := P.blake2b256 (ascii "ZTxIdOrcActNHash") (b.actions.flatMap Action.nonCompactBytes)
  P.blake2b256 (ascii "ZTxIdOrchardHash") (ch.toList ++ mh.toList ++ nh.toList ++
    [b.flags.toByte] ++ (into b.valueBalance).toLeBytes.toList ++ (anchorToBytes b.anchor).toList)

/-- `bundle/commitments.rs:65-67` `hash_bundle_txid_empty`. -/
def hashBundleTxidEmpty (P : Prims) : Bytes 32 := P.blake2b256 (ascii "ZTxIdOrchardHash") []

/-- `bundle.rs:414-417` `Authorized`; its `SpendAuth` is a signature. -/
structure Authorized where
  proof : List UInt8
  bindingSignature : Signature .binding
  deriving DecidableEq

/-- `Bundle<Authorized, V>`. The type of `bundle.rs:442-457`. -/
abbrev AuthorizedBundle (V : Type) : Type := Bundle Authorized (Signature .spendAuth) V

/-- `bundle/commitments.rs:74-84` `hash_bundle_auth_data`. -/
def hashBundleAuthData {V : Type} (P : Prims) (b : AuthorizedBundle V) : Bytes 32 :=
  P.blake2b256 (ascii "ZTxAuthOrchaHash") (b.authorization.proof ++
    b.actions.flatMap (fun a => Bytes.toList a.authorization) ++
    Bytes.toList b.authorization.bindingSignature)

/-- `bundle/commitments.rs:90-92` `hash_bundle_auth_empty`. -/
def hashBundleAuthEmpty (P : Prims) : Bytes 32 := P.blake2b256 (ascii "ZTxAuthOrchaHash") []

/-- `bundle.rs:389-391` `commitment`. -/
def Bundle.commitment {T A V : Type} (P : Prims) (into : V → I64) (b : Bundle T A V) : Bytes 32 :=
  hashBundleTxidData P into b

/-- `bundle.rs:447-449` `authorizing_commitment`. -/
def Bundle.authorizingCommitment {V : Type} (P : Prims) (b : AuthorizedBundle V) : Bytes 32 :=
  hashBundleAuthData P b

/-! ### Proof verification -/

/-- `circuit.rs:922-933` `Proof::verify`.  `verifier` is `plonk::verify_proof` for the given verifying
key, as a function of the public inputs and the proof bytes. -/
noncomputable def proofVerify (verifier : List (List Fp) → List UInt8 → Bool) (proof : List UInt8)
    (instances : List Instance) : Outcome Bool := do
  let xs ← instances.mapM Instance.toHalo2
  pure (verifier xs proof)

/-- `bundle.rs:452-456` `verify_proof`. -/
noncomputable def Bundle.verifyProof {V : Type} (verifier : List (List Fp) → List UInt8 → Bool)
    (b : AuthorizedBundle V) : Outcome Bool :=
  proofVerify verifier b.authorization.proof b.toInstances

end Orchard
