import Verif.Model.Bundle

/-!
# Model of `/repo/src/bundle/batch.rs`

`reddsa::batch` (re-exported by `redpallas.rs`) is modelled concretely: it draws one
random scalar per signature and checks one linear combination of the verification equations.
`plonk::BatchVerifier` is a list of queued proofs; its `finalize` is a parameter.
-/

namespace Orchard

open RedPallas

/-- `reddsa::batch::Item`: kind, key, signature and challenge.
Made by the functions at `primitives/redpallas.rs:129-146`. -/
structure BatchItem where
  ty : SigType
  vk : Point
  sig : Bytes 64
  c : Fq

/-- `VerificationKey::create_batch_item` (`redpallas.rs:129-135`, `redpallas.rs:140-146`), which computes the challenge from
the bytes of `R`, the key and the message. -/
def RedPallas.VerificationKey.createBatchItem {T : SigType} (P : Prims) (vk : VerificationKey T)
    (sig : Signature T) (msg : List UInt8) : BatchItem :=
  { ty := T, vk := vk.point, sig := sig,
    c := hStar P ((Bytes.slice sig 0 32 (by norm_num)).toList ++ vk.toBytes.toList ++ msg) }

/-- Decoded contents of an item: kind, key, challenge, `R`, `S`.
Part of the verification called at `bundle/batch.rs:84`. -/
structure BatchTerm where
  ty : SigType
  vk : Point
  c : Fq
  R : Point
  s : Fq

/-- Decoding in `reddsa::batch::Verifier::verify`: fails if `S` or `R` is not canonical.
Called through `bundle/batch.rs:84`. -/
noncomputable def BatchItem.decode (i : BatchItem) : Option BatchTerm :=
  match Fq.fromRepr (i.sig.slice 32 32 (by norm_num)), Point.fromBytes (i.sig.slice 0 32 (by norm_num)) with
  | some s, some R => some ⟨i.ty, i.vk, i.c, R, s⟩
  | _, _ => none

/-- State of the loop in `reddsa::batch::Verifier::verify`. Called through `bundle/batch.rs:84`. -/
structure BatchAcc where
  spendAuthCoeff : Fq
  bindingCoeff : Fq
  vks : List (Fq × Point)
  rs : List (Fq × Point)

/-- One iteration of the loop, with random scalar `z`. Called through `bundle/batch.rs:84`. -/
def BatchAcc.step (acc : BatchAcc) (z : Fq) (t : BatchTerm) : BatchAcc :=
  { spendAuthCoeff := if t.ty = .spendAuth then acc.spendAuthCoeff - z * t.s else acc.spendAuthCoeff
    bindingCoeff := if t.ty = .binding then acc.bindingCoeff - z * t.s else acc.bindingCoeff
    vks := acc.vks ++ [(z * t.c, t.vk)]
    rs := acc.rs ++ [(z, t.R)] }

/-- `vartime_multiscalar_mul`. Called through `bundle/batch.rs:84`. -/
noncomputable def multiscalar (l : List (Fq × Point)) : Point := (l.map fun x => x.1 • x.2).sum

/-- `reddsa::batch::Verifier::verify`; `z` lists the random scalars, one per queued item.
Called at `bundle/batch.rs:84`. -/
noncomputable def batchVerify (items : List BatchItem) (z : List Fq) : Bool :=
  match items.mapM BatchItem.decode with
  | none => false
  | some ts =>
    let acc := (z.zip ts).foldl (fun acc x => BatchAcc.step acc x.1 x.2) (⟨0, 0, [], []⟩ : BatchAcc)
    decide (multiscalar ([(acc.spendAuthCoeff, basepoint .spendAuth),
      (acc.bindingCoeff, basepoint .binding)] ++ acc.vks ++ acc.rs) = 0)

/-- `bundle/batch.rs:22-26` `BatchValidator`. -/
structure BatchValidator where
  proofs : List (List (List Fp) × List UInt8)
  signatures : List BatchItem

namespace BatchValidator

/-- `bundle/batch.rs:30-35` `new`. -/
def new : BatchValidator := ⟨[], []⟩

/-- `bundle/batch.rs:38-61` `add_bundle`, with `circuit.rs:941-953` `Proof::add_to_batch`. -/
noncomputable def addBundle {V : Type} (P : Prims) (into : V → I64) (v : BatchValidator)
    (b : AuthorizedBundle V) (sighash : Bytes 32) : Outcome BatchValidator := do
  let sigs := v.signatures ++
    b.actions.map fun a => a.rk.createBatchItem P a.authorization sighash.toList
  let bvk ← b.bindingValidatingKey into
  let sigs := sigs ++ [bvk.createBatchItem P b.authorization.bindingSignature sighash.toList]
  let xs ← b.toInstances.mapM Instance.toHalo2
  pure ⟨v.proofs ++ [(xs, b.authorization.proof)], sigs⟩

/-- `bundle/batch.rs:69-92` `validate`.  `finalize` is `plonk::BatchVerifier::finalize` for the given
verifying key; `z` are the random scalars. -/
noncomputable def validate (finalize : List (List (List Fp) × List UInt8) → Bool)
    (v : BatchValidator) (z : List Fq) : Bool :=
  if v.signatures.isEmpty then true
  else if batchVerify v.signatures z then finalize v.proofs
  else false

end BatchValidator

end Orchard
