import Verif.Model.RedPallas

/-!
# Model of `/repo/src/keys.rs` and `/repo/src/address.rs`

Newtypes around a single value (`NullifierDerivingKey`, `CommitIvkRandomness`, `DiversifierKey`,
`Diversifier`, `KeyAgreementPrivateKey`, ...) are modelled by the wrapped value.
`b[31] >> 7` and `b[31] & 0x80` of a 32-byte string are modelled as bit 255 of its little-endian
integer, `b.toNat / 2^255`.
-/

namespace Orchard

open RedPallas

/-- `zip32::Scope`. Re-exported at `keys.rs:30`. -/
inductive Scope | external | internal
  deriving DecidableEq, Repr

/-- `keys.rs:41` `SpendingKey([u8; 32])`. -/
structure SpendingKey where
  bytes : Bytes 32
  deriving DecidableEq

/-- `keys.rs:119` `SpendAuthorizingKey(redpallas::SigningKey<SpendAuth>)`. -/
abbrev SpendAuthorizingKey := SigningKey .spendAuth

/-- `keys.rs:159` `SpendValidatingKey(redpallas::VerificationKey<SpendAuth>)`; `PartialEq`
(`keys.rs:173-177`) compares encodings, which is equality of points. -/
abbrev SpendValidatingKey := VerificationKey .spendAuth

/-- `keys.rs:307-311` `FullViewingKey`. -/
structure FullViewingKey where
  ak : SpendValidatingKey
  nk : Fp
  rivk : Fq
  deriving DecidableEq

/-- `address.rs:18-22` `Address`. -/
structure Address where
  d : Bytes 11
  pkd : Point
  deriving DecidableEq

/-- `keys.rs:616-619` `IncomingViewingKey`: `dk` and `ivk` (a `NonZeroPallasScalar`). -/
structure IncomingViewingKey where
  dk : Bytes 32
  ivk : Fq
  deriving DecidableEq

/-! ### Spend authority -/

/-- `keys.rs:123-125` `SpendAuthorizingKey::derive_inner`. -/
def askInner (P : Prims) (sk : SpendingKey) : Fq := toScalar (prfExpand P 0x06 sk.bytes [])

/-- `keys.rs:135-149` `From<&SpendingKey> for SpendAuthorizingKey`.
(The `try_into().unwrap()`s re-parse the canonical encoding of a scalar and cannot fail.) -/
def SpendAuthorizingKey.ofSk (P : Prims) (sk : SpendingKey) : Outcome SpendAuthorizingKey := do
  let ask := askInner P sk
  assertO (decide (ask ≠ 0))
  let ret : SpendAuthorizingKey := ⟨ask⟩
  if ret.vk.toBytes.toNat / 2 ^ 255 = 1 then pure ⟨-ask⟩ else pure ret

/-- `keys.rs:190-196` `SpendValidatingKey::to_bytes`, asserting that the sign bit is clear. -/
def SpendValidatingKey.toBytes (ak : SpendValidatingKey) : Outcome (Bytes 32) := do
  let b := VerificationKey.toBytes ak
  assertO (decide (b.toNat / 2 ^ 255 = 0))
  pure b

/-- `keys.rs:202-217` `SpendValidatingKey::from_bytes` on a 32-byte slice. -/
noncomputable def SpendValidatingKey.fromBytes (b : Bytes 32) : Option SpendValidatingKey :=
  if b ≠ Bytes.replicate 32 0 ∧ b.toNat / 2 ^ 255 = 0 then VerificationKey.fromBytes b else none

/-- `keys.rs:236-240` `From<&SpendingKey> for NullifierDerivingKey`. -/
def nkOfSk (P : Prims) (sk : SpendingKey) : Fp := toBase (prfExpand P 0x07 sk.bytes [])

/-- `keys.rs:271-275` `From<&SpendingKey> for CommitIvkRandomness`. -/
def rivkOfSk (P : Prims) (sk : SpendingKey) : Fq := toScalar (prfExpand P 0x08 sk.bytes [])

namespace FullViewingKey

/-- `keys.rs:313-321` `From<&SpendingKey> for FullViewingKey`. -/
def ofSk (P : Prims) (sk : SpendingKey) : Outcome FullViewingKey := do
  let ask ← SpendAuthorizingKey.ofSk P sk
  pure ⟨ask.vk, nkOfSk P sk, rivkOfSk P sk⟩

/-- `keys.rs:341-353` `rivk(scope)`. -/
def rivkFor (P : Prims) (fvk : FullViewingKey) : Scope → Outcome Fq
  | .external => pure fvk.rivk
  | .internal => do
    let ak ← SpendValidatingKey.toBytes fvk.ak
    pure (toScalar (prfExpand P 0x83 (Fq.toRepr fvk.rivk) (ak.toList ++ (Fp.toRepr fvk.nk).toList)))

/-- `keys.rs:358-366` `derive_dk_ovk`. -/
def deriveDkOvk (P : Prims) (fvk : FullViewingKey) : Bytes 32 × Bytes 32 :=
  let r := prfExpand P 0x82 (Fq.toRepr fvk.rivk)
    ((VerificationKey.toBytes fvk.ak).toList ++ (Fp.toRepr fvk.nk).toList)
  (r.slice 0 32 (by norm_num), r.slice 32 32 (by norm_num))

/-- `keys.rs:446-452` `derive_internal`. -/
def deriveInternal (P : Prims) (fvk : FullViewingKey) : Outcome FullViewingKey := do
  let rivk ← fvk.rivkFor P .internal
  pure ⟨fvk.ak, fvk.nk, rivk⟩

end FullViewingKey

/-! ### Incoming viewing keys -/

/-- `keys.rs:573-593` `KeyAgreementPrivateKey::derive_inner` (the `unwrap` re-parses the encoding
of a point and cannot fail). -/
noncomputable def ivkInner (P : Prims) (fvk : FullViewingKey) : Option Fp :=
  (commitIvk P (extractP fvk.ak.point) fvk.nk fvk.rivk).bind nonZeroFromBase

/-- `keys.rs:560-564` `KeyAgreementPrivateKey::from_fvk`. -/
noncomputable def ivkOfFvk (P : Prims) (fvk : FullViewingKey) : Outcome Fq := do
  let ivk ← Option.unwrapO (ivkInner P fvk)
  nonZeroScalarOfBase ivk

/-- `keys.rs:755-758` `DiversifiedTransmissionKey::derive`. -/
def derivePkd (P : Prims) (ivk : Fq) (d : Bytes 11) : Point :=
  kaOrchardPrepared ivk (diversifyHash P d)

/-- `keys.rs:761-763` `DiversifiedTransmissionKey::from_bytes`. -/
noncomputable def pkdFromBytes (b : Bytes 32) : Option Point := nonIdentityFromBytes b

/-- `keys.rs:766-768` `DiversifiedTransmissionKey::to_bytes`. -/
def pkdToBytes (pkd : Point) : Bytes 32 := pkd.toBytes

/-- `keys.rs:596-600` `KeyAgreementPrivateKey::address`. -/
def addressOfIvk (P : Prims) (ivk : Fq) (d : Bytes 11) : Address := ⟨d, derivePkd P ivk d⟩

/-- `address.rs:38-40` `g_d`. -/
def Address.gd (P : Prims) (a : Address) : Point := diversifyHash P a.d

namespace IncomingViewingKey

/-- `keys.rs:623-628` `from_fvk`. -/
noncomputable def ofFvk (P : Prims) (fvk : FullViewingKey) : Outcome IncomingViewingKey := do
  let ivk ← ivkOfFvk P fvk
  pure ⟨(fvk.deriveDkOvk P).1, ivk⟩

end IncomingViewingKey

/-! ### FF1 (crate `fpe`, NIST SP 800-38G with radix 2, 88 numerals, empty tweak) -/

namespace FF1

/-- `NUM_radix`: most significant numeral first. Of the cipher used at `keys.rs:482-498`. -/
def num (l : List Bool) : ℕ := bitsNat l.reverse

/-- `STR^m_radix`. Of the cipher used at `keys.rs:482-498`. -/
def str (m x : ℕ) : List Bool := (leBits m x).reverse

/-- One encryption round: `C = STR((NUM(A) + y) mod 2^m)`, `A ← B`, `B ← C`.
Of the cipher used at `keys.rs:482-498`. -/
def encRound (P : Prims) (key : Bytes 32) (s : List Bool × List Bool) (i : ℕ) :
    List Bool × List Bool :=
  (s.2, str 44 ((num s.1 + P.ff1Round key i s.2) % 2 ^ 44))

/-- One decryption round: `C = STR((NUM(B) - y) mod 2^m)`, `B ← A`, `A ← C`.
Of the cipher used at `keys.rs:482-498`. -/
def decRound (P : Prims) (key : Bytes 32) (s : List Bool × List Bool) (i : ℕ) :
    List Bool × List Bool :=
  (str 44 (((num s.2 : ℤ) - P.ff1Round key i s.1) % 2 ^ 44).toNat, s.1)

/-- `FF1::encrypt` of an 88-numeral string. Called at `keys.rs:482-488`. -/
def encrypt (P : Prims) (key : Bytes 32) (x : List Bool) : List Bool :=
  let s := (List.range 10).foldl (encRound P key) (x.take 44, x.drop 44)
  s.1 ++ s.2

/-- `FF1::decrypt` of an 88-numeral string. Called at `keys.rs:494-497`. -/
def decrypt (P : Prims) (key : Bytes 32) (x : List Bool) : List Bool :=
  let s := (List.range 10).reverse.foldl (decRound P key) (x.take 44, x.drop 44)
  s.1 ++ s.2

end FF1

/-- `BinaryNumeralString::from_bytes_le`. Called at `keys.rs:486`, `496`. -/
def numeralsOfBytes (b : Bytes 11) : List Bool := leBits 88 b.toNat

/-- `BinaryNumeralString::to_bytes_le`. Called at `keys.rs:489`, `498`. -/
def bytesOfNumerals (l : List Bool) : Bytes 11 := Bytes.ofNat 11 (bitsNat l)

/-- `keys.rs:481-490` `DiversifierKey::get`; a `DiversifierIndex` is its 11 bytes. -/
def dkGet (P : Prims) (dk : Bytes 32) (j : Bytes 11) : Bytes 11 :=
  bytesOfNumerals (FF1.encrypt P dk (numeralsOfBytes j))

/-- `keys.rs:493-499` `DiversifierKey::diversifier_index`. -/
def dkIndex (P : Prims) (dk : Bytes 32) (d : Bytes 11) : Bytes 11 :=
  bytesOfNumerals (FF1.decrypt P dk (numeralsOfBytes d))

namespace IncomingViewingKey

/-- `keys.rs:670-672` `address`. -/
def address (P : Prims) (ivk : IncomingViewingKey) (d : Bytes 11) : Address :=
  addressOfIvk P ivk.ivk d

/-- `keys.rs:665-667` `address_at`. -/
def addressAt (P : Prims) (ivk : IncomingViewingKey) (j : Bytes 11) : Address :=
  ivk.address P (dkGet P ivk.dk j)

/-- `keys.rs:655-662` `diversifier_index`. -/
def diversifierIndex (P : Prims) (ivk : IncomingViewingKey) (a : Address) : Option (Bytes 11) :=
  let j := dkIndex P ivk.dk a.d
  if ivk.addressAt P j = a then some j else none

/-- `keys.rs:635-640` `to_bytes`. -/
def toBytes (ivk : IncomingViewingKey) : Bytes 64 := ivk.dk.append (Fq.toRepr ivk.ivk)

/-- `keys.rs:643-650` `from_bytes`. -/
def fromBytes (b : Bytes 64) : Outcome (Option IncomingViewingKey) :=
  match nonZeroBaseFromBytes (b.slice 32 32 (by norm_num)) with
  | none => pure none
  | some ivk => do
    let s ← nonZeroScalarOfBase ivk
    pure (some ⟨b.slice 0 32 (by norm_num), s⟩)

end IncomingViewingKey

namespace FullViewingKey

/-- `keys.rs:455-460` `to_ivk`. -/
noncomputable def toIvk (P : Prims) (fvk : FullViewingKey) : Scope → Outcome IncomingViewingKey
  | .external => IncomingViewingKey.ofFvk P fvk
  | .internal => do IncomingViewingKey.ofFvk P (← fvk.deriveInternal P)

/-- `keys.rs:463-468` `to_ovk`. -/
def toOvk (P : Prims) (fvk : FullViewingKey) : Scope → Outcome (Bytes 32)
  | .external => pure (fvk.deriveDkOvk P).2
  | .internal => do
    let i ← fvk.deriveInternal P
    pure (i.deriveDkOvk P).2

/-- `keys.rs:369-371` `address_at`. -/
noncomputable def addressAt (P : Prims) (fvk : FullViewingKey) (j : Bytes 11) (scope : Scope) :
    Outcome Address := do
  let ivk ← fvk.toIvk P scope
  pure (ivk.addressAt P j)

/-- `keys.rs:374-381` `address`. -/
noncomputable def address (P : Prims) (fvk : FullViewingKey) (d : Bytes 11) (scope : Scope) :
    Outcome Address := do
  let ivk ← match scope with
    | .external => ivkOfFvk P fvk
    | .internal => do ivkOfFvk P (← fvk.deriveInternal P)
  pure (addressOfIvk P ivk d)

/-- `keys.rs:385-389` `scope_for_address`: first of `[External, Internal]` whose ivk recognises the
address.  (The internal ivk is only derived if the external one does not match.) -/
noncomputable def scopeForAddress (P : Prims) (fvk : FullViewingKey) (a : Address) :
    Outcome (Option Scope) := do
  let ext ← fvk.toIvk P .external
  if (ext.diversifierIndex P a).isSome then pure (some .external)
  else
    let int ← fvk.toIvk P .internal
    if (int.diversifierIndex P a).isSome then pure (some .internal) else pure none

/-- `keys.rs:416-422` `to_bytes`. -/
def toBytes (fvk : FullViewingKey) : Bytes 96 :=
  ((VerificationKey.toBytes fvk.ak).append (Fp.toRepr fvk.nk)).append (Fq.toRepr fvk.rivk)

/-- `keys.rs:427-440` `from_bytes` (`NullifierDerivingKey::from_bytes` 252-260 and
`CommitIvkRandomness::from_bytes` 287-295 are canonical field parsing). -/
noncomputable def fromBytes (P : Prims) (b : Bytes 96) : Outcome (Option FullViewingKey) :=
  match SpendValidatingKey.fromBytes (b.slice 0 32 (by norm_num)),
      Fp.fromRepr (b.slice 32 32 (by norm_num)), Fq.fromRepr (b.slice 64 32 (by norm_num)) with
  | some ak, some nk, some rivk =>
    let fvk : FullViewingKey := ⟨ak, nk, rivk⟩
    match ivkInner P fvk with
    | none => pure none
    | some _ => do
      let i ← fvk.deriveInternal P
      match ivkInner P i with
      | none => pure none
      | some _ => pure (some fvk)
  | _, _, _ => pure none

end FullViewingKey

/-- `keys.rs:70-85` `SpendingKey::from_bytes`. -/
noncomputable def SpendingKey.fromBytes (P : Prims) (b : Bytes 32) :
    Outcome (Option SpendingKey) := do
  let sk : SpendingKey := ⟨b⟩
  let ask := askInner P sk
  let fvk ← FullViewingKey.ofSk P sk
  let ext := ivkInner P fvk
  let i ← fvk.deriveInternal P
  let int := ivkInner P i
  pure (if ask = 0 ∨ ext.isNone ∨ int.isNone then none else some sk)

/-! ### Addresses -/

/-- `address.rs:49-54` `to_raw_address_bytes`. -/
def Address.toBytes (a : Address) : Bytes 43 := a.d.append a.pkd.toBytes

/-- `address.rs:59-64` `from_raw_address_bytes`. -/
noncomputable def Address.fromBytes (b : Bytes 43) : Option Address :=
  (nonIdentityFromBytes (b.slice 11 32 (by norm_num))).map fun pkd =>
    ⟨b.slice 0 11 (by norm_num), pkd⟩

/-! ### Ephemeral keys and key agreement -/

/-- `keys.rs:799-801` `EphemeralSecretKey::from_bytes`. -/
def eskFromBytes (b : Bytes 32) : Option Fq := nonZeroScalarFromBytes b

/-- `keys.rs:803-805` `EphemeralSecretKey::derive_public`. -/
def eskDerivePublic (esk : Fq) (gd : Point) : Point := kaOrchard esk gd

/-- `keys.rs:807-809` `EphemeralSecretKey::agree`. -/
def eskAgree (esk : Fq) (pkd : Point) : Point := kaOrchard esk pkd

/-- `keys.rs:826-828` `EphemeralPublicKey::from_bytes`. -/
noncomputable def epkFromBytes (b : Bytes 32) : Option Point := nonIdentityFromBytes b

/-- `keys.rs:834-836` `EphemeralPublicKey::agree`. -/
def epkAgree (epk : Point) (ivk : IncomingViewingKey) : Point := kaOrchard ivk.ivk epk

/-- `keys.rs:848-850` `PreparedEphemeralPublicKey::agree` (with a prepared ivk). -/
def epkAgreePrepared (epk : Point) (ivk : Fq) : Point := kaOrchardPrepared ivk epk

/-- `keys.rs:897-908` `kdf_orchard_inner` (and `kdf_orchard` 892-894). -/
def kdfOrchard (P : Prims) (secret : Point) (epkBytes : Bytes 32) : Bytes 32 :=
  P.blake2b256 (ascii "Zcash_OrchardKDF") (secret.toBytes.toList ++ epkBytes.toList)

/-- Re-insertion loop of `keys.rs:883-887`: entries are paired with the normalised secrets as long
as there are any left. -/
def reinsert : List (Option Point) → List Point → List (Option Point)
  | [], _ => []
  | none :: ss, as => none :: reinsert ss as
  | some _ :: ss, a :: as => some a :: reinsert ss as
  | some _ :: ss, [] => none :: reinsert ss []

/-- `keys.rs:869-887` `SharedSecret::batch_to_affine`.  Batch normalisation maps every point to its
affine form, i.e. is the identity on the modelled group. -/
def batchToAffine (ss : List (Option Point)) : List (Option Point) :=
  reinsert ss (ss.filterMap id)

/-- `note_encryption.rs:238-249` `OrchardDomain::batch_kdf`. -/
def batchKdf (P : Prims) (items : List (Option Point × Bytes 32)) : List (Option (Bytes 32)) :=
  let sharedSecrets := items.map Prod.fst
  let ephemeralKeys := items.map Prod.snd
  ((batchToAffine sharedSecrets).zip ephemeralKeys).map fun x =>
    x.1.map fun dhsecret => kdfOrchard P dhsecret x.2

end Orchard
