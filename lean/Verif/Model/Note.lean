import Verif.Model.Keys

/-!
# Model of `/repo/src/note.rs`, `/repo/src/note/commitment.rs`, `/repo/src/note/nullifier.rs`

`Rho`, `Nullifier` and `ExtractedNoteCommitment` are newtypes around `pallas::Base` and appear as
`Fp`; `NoteCommitment` is a `Point`; `RandomSeed` is its 32 bytes; `NoteCommitTrapdoor` is an `Fq`.
-/

namespace Orchard

/-! ### Seed randomness -/

namespace RandomSeed

/-- `note.rs:95-97` `psi` (`PrfExpand::PSI`, domain separator `0x09`). -/
def psi (P : Prims) (rseed : Bytes 32) (rho : Fp) : Fp :=
  toBase (prfExpand P 0x09 rseed (Fp.toRepr rho).toList)

/-- `note.rs:102-106` `esk_inner` (`PrfExpand::ORCHARD_ESK`, domain separator `0x04`). -/
def eskInner (P : Prims) (rseed : Bytes 32) (rho : Fp) : Option Fq :=
  nonZeroFromScalar (toScalar (prfExpand P 0x04 rseed (Fp.toRepr rho).toList))

/-- `note.rs:111-114` `esk`. -/
def esk (P : Prims) (rseed : Bytes 32) (rho : Fp) : Outcome Fq :=
  Option.unwrapO (eskInner P rseed rho)

/-- `note.rs:119-123` `rcm` (`PrfExpand::ORCHARD_RCM`, domain separator `0x05`). -/
def rcm (P : Prims) (rseed : Bytes 32) (rho : Fp) : Fq :=
  toScalar (prfExpand P 0x05 rseed (Fp.toRepr rho).toList)

/-- `note.rs:81-85` `from_bytes`. -/
def fromBytes (P : Prims) (rseed : Bytes 32) (rho : Fp) : Option (Bytes 32) :=
  if (eskInner P rseed rho).isSome then some rseed else none

/-- `note.rs:67-76` `random`: the first draw that is accepted, together with the remaining draws;
`none` if the given draws are used up (the loop is still running). -/
def random (P : Prims) (rho : Fp) : List (Bytes 32) → Option (Bytes 32 × List (Bytes 32))
  | [] => none
  | b :: draws => match fromBytes P b rho with
    | some s => some (s, draws)
    | none => random P rho draws

end RandomSeed

/-- `note.rs:40-42` `Rho::from_bytes`. -/
def rhoFromBytes (b : Bytes 32) : Option Fp := Fp.fromRepr b

/-- `note.rs:45-47` `Rho::to_bytes`. -/
def rhoToBytes (rho : Fp) : Bytes 32 := Fp.toRepr rho

/-- `note/commitment.rs:74-76` `ExtractedNoteCommitment::from_bytes`. -/
def cmxFromBytes (b : Bytes 32) : Option Fp := Fp.fromRepr b

/-- `note/commitment.rs:79-81` `ExtractedNoteCommitment::to_bytes`. -/
def cmxToBytes (cmx : Fp) : Bytes 32 := Fp.toRepr cmx

/-- `note/nullifier.rs:39-41` `Nullifier::from_bytes`. -/
def nullifierFromBytes (b : Bytes 32) : Option Fp := Fp.fromRepr b

/-- `note/nullifier.rs:44-46` `Nullifier::to_bytes`. -/
def nullifierToBytes (nf : Fp) : Bytes 32 := Fp.toRepr nf

/-! ### Note commitments -/

/-- `note/commitment.rs:49-56`: the committed bit string.
`BitArray::new(bytes)` in `Lsb0` order is the little-endian bit string of the bytes. -/
def noteCommitMessage (gd pkd : Bytes 32) (v : NoteValue) (rho psi : Fp) : List Bool :=
  leBits 256 gd.toNat ++ leBits 256 pkd.toNat ++ v.toLeBits ++ Fp.toLeBits 255 rho ++
    Fp.toLeBits 255 psi

/-- `note/commitment.rs:40-60` `NoteCommitment::derive`. -/
noncomputable def noteCommitDerive (P : Prims) (gd pkd : Bytes 32) (v : NoteValue) (rho psi : Fp)
    (rcm : Fq) : Option Point :=
  sinsemillaCommit P Constants.qNoteCommit Constants.noteCommitR
    (noteCommitMessage gd pkd v rho psi) rcm

/-! ### Notes -/

/-- `note.rs:128-142` `Note`. -/
structure Note where
  recipient : Address
  value : NoteValue
  rho : Fp
  rseed : Bytes 32
  deriving DecidableEq

/-- `note/nullifier.rs:53-62` `Nullifier::derive`; `K` is recomputed by hashing to the curve in the
code and is the table constant here. -/
def nullifierDerive (P : Prims) (nk rho psi : Fp) (cm : Point) : Outcome Fp := do
  let s ← modRP (prfNf P nk rho + psi)
  pure (extractP (s • Constants.nullifierK + cm))

/-- `note/nullifier.rs:34-36` `Nullifier::dummy`, from the random point. -/
def nullifierDummy (random : Point) : Fp := extractP random

namespace Note

/-- `note.rs:270-281` `commitment_inner`. -/
noncomputable def commitmentInner (P : Prims) (n : Note) : Option Point :=
  noteCommitDerive P (n.recipient.gd P).toBytes n.recipient.pkd.toBytes n.value n.rho
    (RandomSeed.psi P n.rseed n.rho) (RandomSeed.rcm P n.rseed n.rho)

/-- `note.rs:256-259` `commitment`. -/
noncomputable def commitment (P : Prims) (n : Note) : Outcome Point :=
  Option.unwrapO (n.commitmentInner P)

/-- `ExtractedNoteCommitment::from(note.commitment())` (`note/commitment.rs:84-88`). -/
noncomputable def cmx (P : Prims) (n : Note) : Outcome Fp := do
  pure (extractP (← n.commitment P))

/-- `note.rs:144-150` `PartialEq for Note`: compares extracted commitments only. -/
noncomputable def rustEq (P : Prims) (a b : Note) : Outcome Bool := do
  let x ← a.cmx P
  let y ← b.cmx P
  pure (decide (x = y))

/-- `note.rs:169-182` `from_parts`. -/
noncomputable def fromParts (P : Prims) (recipient : Address) (value : NoteValue) (rho : Fp)
    (rseed : Bytes 32) : Option Note :=
  let note : Note := ⟨recipient, value, rho, rseed⟩
  if (note.commitmentInner P).isSome then some note else none

/-- `note.rs:189-201` `new`: draws seeds until one gives a note; `none` if the draws are used up.
`fuel` bounds the recursion; every iteration uses at least one draw. -/
noncomputable def newAux (P : Prims) (recipient : Address) (value : NoteValue) (rho : Fp) :
    ℕ → List (Bytes 32) → Option (Note × List (Bytes 32))
  | 0, _ => none
  | fuel + 1, draws => match RandomSeed.random P rho draws with
    | none => none
    | some (rseed, rest) => match fromParts P recipient value rho rseed with
      | some note => some (note, rest)
      | none => newAux P recipient value rho fuel rest

/-- `note.rs:189-201` `new`. -/
noncomputable def new (P : Prims) (recipient : Address) (value : NoteValue) (rho : Fp)
    (draws : List (Bytes 32)) : Option (Note × List (Bytes 32)) :=
  newAux P recipient value rho draws.length draws

/-- `note.rs:242-244` `esk`. -/
def esk (P : Prims) (n : Note) : Outcome Fq := RandomSeed.esk P n.rseed n.rho

/-- `note.rs:284-291` `nullifier`. -/
noncomputable def nullifier (P : Prims) (n : Note) (fvk : FullViewingKey) : Outcome Fp := do
  let cm ← n.commitment P
  nullifierDerive P fvk.nk n.rho (RandomSeed.psi P n.rseed n.rho) cm

end Note

/-- `keys.rs:56-65` `SpendingKey::random`: the first accepted draw and the remaining draws. -/
noncomputable def SpendingKey.random (P : Prims) :
    List (Bytes 32) → Outcome (Option (SpendingKey × List (Bytes 32)))
  | [] => pure none
  | b :: draws => do
    match ← SpendingKey.fromBytes P b with
    | some sk => pure (some (sk, draws))
    | none => SpendingKey.random P draws

/-- `note.rs:208-224` `Note::dummy`.  `skDraws`, `rhoPoint`, `seedDraws` are the random values, in
the order in which they are used; `rho = none` makes a dummy nullifier. -/
noncomputable def Note.dummy (P : Prims) (skDraws : List (Bytes 32)) (rho : Option Fp)
    (rhoPoint : Point) (seedDraws : List (Bytes 32)) :
    Outcome (Option (SpendingKey × FullViewingKey × Note)) := do
  match ← SpendingKey.random P skDraws with
  | none => pure none
  | some (sk, _) =>
    let fvk ← FullViewingKey.ofSk P sk
    let recipient ← fvk.addressAt P (Bytes.ofNat 11 0) .external
    match Note.new P recipient NoteValue.zero (rho.getD (nullifierDummy rhoPoint)) seedDraws with
    | none => pure none
    | some (note, _) => pure (some (sk, fvk, note))

end Orchard
