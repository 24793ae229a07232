import Verif.Model.Bundle

/-!
# Specification of bundle-level notions

Effecting data and the digests of ZIP 244, written down independently of the code's loops.
-/

namespace Orchard.Spec

open RedPallas

/-- Effecting data of one action. -/
structure ActionEffects where
  nf : Fp
  cmx : Fp
  epk : Bytes 32
  enc : Bytes 580
  out : Bytes 80
  cv : Point
  rk : Point
  deriving DecidableEq

/-- Effecting data of a bundle; the balance as an integer. -/
structure BundleEffects where
  actions : List ActionEffects
  spendsEnabled : Bool
  outputsEnabled : Bool
  valueBalance : ℤ
  anchor : Fp
  deriving DecidableEq

/-- Effecting data of an action. -/
def actionEffects {A : Type} (a : Action A) : ActionEffects :=
  ⟨a.nf, a.cmx, a.encryptedNote.epkBytes, a.encryptedNote.encCiphertext, a.encryptedNote.outCiphertext,
    a.cvNet.inner, a.rk.point⟩

/-- Effecting data of a bundle. -/
def effects {T A V : Type} (into : V → I64) (b : Bundle T A V) : BundleEffects :=
  ⟨b.actions.map actionEffects, b.flags.spendsEnabled, b.flags.outputsEnabled, (into b.valueBalance).val,
    b.anchor⟩

/-- Concatenation of a field over all actions. -/
def overActions (e : BundleEffects) (f : ActionEffects → List UInt8) : List UInt8 :=
  (e.actions.map f).flatten

/-- ZIP 244, T.4a: preimage of `orchard_actions_compact_digest`. -/
def compactInput (e : BundleEffects) : List UInt8 := overActions e fun a =>
  (Fp.toRepr a.nf).toList ++ (Fp.toRepr a.cmx).toList ++ a.epk.toList ++ a.enc.toList.take 52

/-- ZIP 244, T.4b: preimage of `orchard_actions_memos_digest`. -/
def memosInput (e : BundleEffects) : List UInt8 := overActions e fun a =>
  (a.enc.toList.drop 52).take 512

/-- ZIP 244, T.4c: preimage of `orchard_actions_noncompact_digest`. -/
def nonCompactInput (e : BundleEffects) : List UInt8 := overActions e fun a =>
  a.cv.toBytes.toList ++ a.rk.toBytes.toList ++ a.enc.toList.drop 564 ++ a.out.toList

/-- The flag byte: bit 0 is `enableSpends`, bit 1 is `enableOutputs`. -/
def flagByte (spends outputs : Bool) : UInt8 :=
  (if spends then 1 else 0) + (if outputs then 2 else 0)

/-- ZIP 244, T.4: preimage of `orchard_digest`. -/
def txidInput (P : Prims) (e : BundleEffects) : List UInt8 :=
  (P.blake2b256 (ascii "ZTxIdOrcActCHash") (compactInput e)).toList ++
  (P.blake2b256 (ascii "ZTxIdOrcActMHash") (memosInput e)).toList ++
  (P.blake2b256 (ascii "ZTxIdOrcActNHash") (nonCompactInput e)).toList ++
  [flagByte e.spendsEnabled e.outputsEnabled] ++
  leBytes 8 (if 0 ≤ e.valueBalance then e.valueBalance.toNat else (2 ^ 64 + e.valueBalance).toNat) ++
  (Fp.toRepr e.anchor).toList

/-- Two different messages with the same hash under a personalisation. -/
def Collide (P : Prims) (pers : String) (m m' : List UInt8) : Prop :=
  m ≠ m' ∧ P.blake2b256 (ascii pers) m = P.blake2b256 (ascii pers) m'

/-- ZIP 244, A.3: preimage of `orchard_auth_digest`. -/
def authInput {V : Type} (b : AuthorizedBundle V) : List UInt8 :=
  b.authorization.proof ++ (b.actions.map fun a => Bytes.toList a.authorization).flatten ++
    Bytes.toList b.authorization.bindingSignature

/-- A left-to-right run of a stateful step over a list. -/
inductive Steps {R A B : Type} (f : R → A → B → R → Prop) : R → List A → List B → R → Prop
  | nil (r : R) : Steps f r [] [] r
  | cons {r r' r'' : R} {a : A} {b : B} {as : List A} {bs : List B} :
      f r a b r' → Steps f r' as bs r'' → Steps f r (a :: as) (b :: bs) r''

/-- The bundle with the authorisations replaced by the given ones, in order. -/
def Reauthorized {T A U B V : Type} (b : Bundle T A V) (auths : List B) (t : U) (b' : Bundle U B V) :
    Prop :=
  b'.actions.map actionEffects = b.actions.map actionEffects ∧
  b'.actions.map Action.authorization = auths ∧
  b'.flags = b.flags ∧ b'.valueBalance = b.valueBalance ∧ b'.anchor = b.anchor ∧ b'.authorization = t

/-- The point a binding signature of a bundle must verify under. -/
noncomputable def bindingKey {T A V : Type} (into : V → I64) (b : Bundle T A V) : Point :=
  (b.actions.map fun a => a.cvNet.inner).sum -
    (((into b.valueBalance).val : ℤ) : Fq) • Constants.valueCommitV

/-- An authorised bundle is valid for a sighash if all its spend authorisation
signatures, its binding signature and its proof verify. -/
def BundleValid {V : Type} (P : Prims) (verifier : List (List Fp) → List UInt8 → Bool)
    (into : V → I64) (b : AuthorizedBundle V) (sighash : Bytes 32) : Prop :=
  (∀ a ∈ b.actions, a.rk.verify P sighash.toList a.authorization = true) ∧
  (⟨bindingKey into b⟩ : VerificationKey .binding).verify P sighash.toList
    b.authorization.bindingSignature = true ∧
  b.verifyProof verifier = .ret true

end Orchard.Spec
