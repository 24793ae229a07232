import Verif.Model.Builder
import Verif.Spec.Keys
import Verif.Spec.Note
import Verif.Spec.Tree

/-!
# Specification of what bundle construction has to deliver

The data types are those of the model; the conditions are written with the specification functions
of `Verif/Spec/*.lean` and not with the functions of `Verif/Model/Builder.lean`.
-/

namespace Orchard.Spec

/-- A note value as an integer. -/
def intValue (v : NoteValue) : ℤ := v.inner.toNat

/-- Hashing `leaf` with the siblings `path` along position `pos` gives `root`: at level `l` the
running node is the left child iff bit `l` of the position is zero. -/
def PathRoot (P : Prims) (pos : ℕ) (path : List Fp) (leaf root : Fp) : Prop :=
  ∃ nodes : ℕ → Fp, nodes 0 = leaf ∧ nodes path.length = root ∧
    ∀ l (h : l < path.length), nodes (l + 1) =
      if pos / 2 ^ l % 2 = 0 then merkleCRH P l (nodes l) path[l] else merkleCRH P l path[l] (nodes l)

/-- The note commitment of a note. -/
noncomputable def commitmentOf (P : Prims) (n : Note) : Option Point :=
  noteCommitOf P n.recipient.d n.recipient.pkd n.value.inner.toNat n.rho n.rseed

/-- The Merkle path leads from the note's commitment to the anchor. -/
def PathToAnchor (P : Prims) (anchor : Fp) (s : SpendInfo) : Prop :=
  ∃ cm, commitmentOf P s.note = some cm ∧
    PathRoot P s.merklePath.position.toNat s.merklePath.authPath (extractP cm) anchor

/-- The anchor rule: zero-valued spends are exempt. -/
def AnchorOk (P : Prims) (anchor : Fp) (s : SpendInfo) : Prop :=
  intValue s.note.value = 0 ∨ PathToAnchor P anchor s

/-- The `rivk` of a scope. -/
def scopedRivk (P : Prims) (fvk : FullViewingKey) : Scope → Fq
  | .external => fvk.rivk
  | .internal => rivkInternal P fvk.ak.point fvk.nk fvk.rivk

/-- What the note pays to belongs to `fvk` in the given scope:
`pk_d = [ivk] DiversifyHash(d)` for the incoming viewing key of that scope. -/
def OwnedInScope (P : Prims) (fvk : FullViewingKey) (scope : Scope) (a : Address) : Prop :=
  ∃ ivk : Fp, commitIvk P (extractP fvk.ak.point) fvk.nk (scopedRivk P fvk scope) = some ivk ∧
    a.pkd = ((ivk.val : ℕ) : Fq) • diversifyHash P a.d

/-- A spend as an honest caller can request it: not a dummy, a valid full viewing key that owns the
note's address in the recorded scope, and a note whose commitment exists. -/
def Requestable (P : Prims) (s : SpendInfo) : Prop :=
  s.dummySk = none ∧ ValidFvk P s.fvk.ak.point s.fvk.nk s.fvk.rivk ∧
    OwnedInScope P s.fvk s.scope s.note.recipient ∧ ∃ cm, commitmentOf P s.note = some cm

/-- A dummy spend made from the given random values: a zero-valued note addressed to the first
external address of the freshly drawn spending key, whose keys are used to spend it. -/
def DummySpend (P : Prims) (d : SpendDummyDraws) (s : SpendInfo) : Prop :=
  intValue s.note.value = 0 ∧ s.note.rho = extractP d.rhoPoint ∧ s.scope = .external ∧
    s.merklePath = d.path ∧ s.note.rseed ∈ d.seedDraws ∧
    (∃ cm, commitmentOf P s.note = some cm) ∧
    ValidFvk P s.fvk.ak.point s.fvk.nk s.fvk.rivk ∧
    OwnedInScope P s.fvk .external s.note.recipient ∧
    ∃ sk, s.dummySk = some sk ∧ sk.bytes ∈ d.skDraws ∧
      ∃ ask, SpendAuthorizingKey.ofSk P sk = .ret ask ∧ s.fvk.ak = ask.vk ∧
        FullViewingKey.ofSk P sk = .ret s.fvk ∧
        s.fvk.addressAt P (Bytes.ofNat 11 0) .external = .ret s.note.recipient

/-- A dummy output made from the given random values: value zero, to the first external address
of a freshly drawn key, no outgoing viewing key, and the default memo (`0xf6` and 511 zero bytes). -/
def DummyOutput (P : Prims) (skDraws : List (Bytes 32)) (o : OutputInfo) : Prop :=
  intValue o.value = 0 ∧ o.ovk = none ∧ o.memo.toList = 0xf6 :: List.replicate 511 0 ∧
    ∃ sk fvk, sk.bytes ∈ skDraws ∧ FullViewingKey.ofSk P sk = .ret fvk ∧
      ValidFvk P fvk.ak.point fvk.nk fvk.rivk ∧ OwnedInScope P fvk .external o.recipient ∧
      fvk.addressAt P (Bytes.ofNat 11 0) .external = .ret o.recipient

/-- One row of the plan behind a bundle: which spend and which output share an action, and the
randomness of that action. -/
structure Row where
  spend : SpendInfo
  output : OutputInfo
  /-- value commitment trapdoor -/
  rcv : Fq
  /-- spend authorisation randomiser -/
  alpha : Fq
  /-- the created note -/
  note : Note
  /-- randomness of the encryption without outgoing viewing key -/
  rndOck : Bytes 32
  rndOp : Bytes 64

/-- Net value of a row. -/
def Row.net (r : Row) : ℤ := intValue r.spend.note.value - intValue r.output.value

/-- The action realises the row: it spends the row's note, creates a note for the row's output, and
commits to the difference of their values. -/
structure Realises (P : Prims) (r : Row) (a : Action SigningMetadata) : Prop where
  /-- the published nullifier is that of the spent note -/
  nullifier : ∃ cm, commitmentOf P r.spend.note = some cm ∧
    a.nf = deriveNullifier P r.spend.fvk.nk r.spend.note.rho
      (psi P r.spend.note.rseed r.spend.note.rho) cm
  /-- `rk = ak + [α] G` -/
  rk : a.rk.point = r.spend.fvk.ak.point + r.alpha • Constants.spendAuthG
  /-- the new note pays the output's value to its recipient and has the nullifier as `ρ` -/
  recipient : r.note.recipient = r.output.recipient
  value : r.note.value = r.output.value
  rho : r.note.rho = a.nf
  /-- `cmx` is the extracted commitment of the new note -/
  cmx : ∃ cm, commitmentOf P r.note = some cm ∧ a.cmx = extractP cm
  /-- the ephemeral secret of the new note is not zero -/
  esk : esk P r.note.rseed r.note.rho ≠ 0
  /-- `cv_net = [v_old - v_new] V + [rcv] R` -/
  cvNet : a.cvNet.inner =
    (r.net : Fq) • Constants.valueCommitV + r.rcv • Constants.valueCommitR
  /-- the ciphertexts encrypt the new note and the output's memo under the output's ovk -/
  ciphertext : encryptNote P r.output.ovk r.note r.output.memo a.cvNet a.cmx r.rndOck r.rndOp =
    .ret a.encryptedNote
  /-- what is kept for signing: `ak`, `α`, and for a dummy its authorising key -/
  parts : a.authorization.parts = ⟨r.spend.fvk.ak, r.alpha⟩
  noDummyKey : r.spend.dummySk = none → a.authorization.dummyAsk = none
  dummyKey : ∀ sk, r.spend.dummySk = some sk →
    ∃ ask, a.authorization.dummyAsk = some ask ∧ SpendAuthorizingKey.ofSk P sk = .ret ask

/-- The circuit witness that belongs to a row: the row's data, with `ψ`, `rcm` of both notes and the
commitment of the spent one, and the `rivk` of the spend's scope. -/
def IsWitness (P : Prims) (r : Row) (c : Circuit) : Prop :=
  c.path = r.spend.merklePath.authPath ∧ c.pos = r.spend.merklePath.position ∧
  c.gdOld = diversifyHash P r.spend.note.recipient.d ∧ c.pkdOld = r.spend.note.recipient.pkd ∧
  c.vOld = r.spend.note.value ∧ c.rhoOld = r.spend.note.rho ∧
  c.psiOld = psi P r.spend.note.rseed r.spend.note.rho ∧
  c.rcmOld = rcm P r.spend.note.rseed r.spend.note.rho ∧
  commitmentOf P r.spend.note = some c.cmOld ∧
  c.alpha = r.alpha ∧ c.ak = r.spend.fvk.ak ∧ c.nk = r.spend.fvk.nk ∧
  c.rivk = scopedRivk P r.spend.fvk r.spend.scope ∧
  c.gdNew = diversifyHash P r.note.recipient.d ∧ c.pkdNew = r.note.recipient.pkd ∧
  c.vNew = r.note.value ∧ c.psiNew = psi P r.note.rseed r.note.rho ∧
  c.rcmNew = rcm P r.note.rseed r.note.rho ∧ c.rcv.inner = r.rcv

/-- The plan explains the bundle: row `i` is realised by action `i`, its witness is circuit `i`, and
the binding signing key is the sum of the trapdoors. -/
def Explains {V : Type} (P : Prims) (rows : List Row) (b : UnauthorizedBundle V) : Prop :=
  List.Forall₂ (Realises P) rows b.actions ∧
    List.Forall₂ (IsWitness P) rows b.authorization.proof.circuits ∧
    b.authorization.sigs.bsk.s = (rows.map Row.rcv).sum

/-- Every partial sum, from the left, has absolute value at most `2^64 - 1`. -/
def RunningSumsOk (l : List ℤ) : Prop :=
  ∀ k, -(2 ^ 64 - 1) ≤ (l.take k).sum ∧ (l.take k).sum ≤ 2 ^ 64 - 1

/-- The net values of the `n` actions, in order: spends and outputs are padded with zero values,
shuffled separately and paired. -/
def plannedNets (rng : BuildDraws) (spends : List SpendInfo) (outputs : List OutputInfo) (n : ℕ) :
    List ℤ :=
  List.zipWith (· - ·)
    (shuffle rng.spendShuffle
      ((spends.map fun s => intValue s.note.value) ++ List.replicate (n - spends.length) 0))
    (shuffle rng.outputShuffle
      ((outputs.map fun o => intValue o.value) ++ List.replicate (n - outputs.length) 0))

/-- Total value of the requested spends. -/
def totalSpends (l : List SpendInfo) : ℤ := (l.map fun s => intValue s.note.value).sum

/-- Total value of the requested outputs. -/
def totalOutputs (l : List OutputInfo) : ℤ := (l.map fun o => intValue o.value).sum

/-- No drawn spending key has `ask = 0` (`SpendingKey::random` panics on those, see C30; by chance
this does not happen). -/
def NoZeroKeys (P : Prims) (rng : BuildDraws) : Prop :=
  (∀ i, ∀ b ∈ (rng.spendDummy i).skDraws, askScalar P b ≠ 0) ∧
    ∀ i, ∀ b ∈ rng.outputDummy i, askScalar P b ≠ 0

/-- The listed draws are enough for every rejection loop to end. -/
def EnoughDraws (P : Prims) (rng : BuildDraws) : Prop :=
  (∀ i, (SpendInfo.dummy P (rng.spendDummy i) : Run BuildError SpendInfo) ≠ .more) ∧
  (∀ i, (OutputInfo.dummy P (rng.outputDummy i) : Run BuildError OutputInfo) ≠ .more) ∧
  ∀ i (a : Address) (v : NoteValue) (rho : Fp), ∃ s ∈ (rng.action i).seedDraws,
    GoodSeed P a.d a.pkd v.inner.toNat rho s

/-- The arguments of the accepted `add_spend` calls, in order. -/
def acceptedSpends : List Builder.Call → List Bool → List (FullViewingKey × Note × MerklePath)
  | .spend fvk note path :: cs, r :: rs =>
    if r then (fvk, note, path) :: acceptedSpends cs rs else acceptedSpends cs rs
  | .output _ _ _ _ :: cs, _ :: rs => acceptedSpends cs rs
  | _, _ => []

/-- The outputs of the accepted `add_output` calls, in order; without a memo the default one (`0xf6`
and zeros) is used. -/
def acceptedOutputs : List Builder.Call → List Bool →
    List (Option (Bytes 32) × Address × NoteValue × List UInt8)
  | .output ovk recipient value memo :: cs, r :: rs =>
    if r then (ovk, recipient, value,
      (memo.map Bytes.toList).getD (0xf6 :: List.replicate 511 0)) :: acceptedOutputs cs rs
    else acceptedOutputs cs rs
  | .spend _ _ _ :: cs, _ :: rs => acceptedOutputs cs rs
  | _, _ => []

/-- The rows are a complete plan of the bundle for a request: row `i` is realised by action `i`; the
spends of the rows are, up to order, the requested spends and dummies made from the random values;
likewise the outputs; and row `i` has the `i`-th trapdoor, the `i`-th `alpha`, one of the `i`-th seeds and the `i`-th
values for an outgoing ciphertext without viewing key. -/
structure Plan {V : Type} (P : Prims) (rng : BuildDraws) (spends : List SpendInfo)
    (outputs : List OutputInfo) (b : UnauthorizedBundle V) (rows : List Row) : Prop where
  explains : Explains P rows b
  spends : ∃ dS, (rows.map Row.spend).Perm (spends ++ dS) ∧
    dS.length = b.actions.length - spends.length ∧
    ∀ i d, dS[i]? = some d → DummySpend P (rng.spendDummy i) d
  outputs : ∃ dO, (rows.map Row.output).Perm (outputs ++ dO) ∧
    dO.length = b.actions.length - outputs.length ∧
    ∀ i d, dO[i]? = some d → DummyOutput P (rng.outputDummy i) d
  randomness : ∀ i r, rows[i]? = some r → r.rcv = rng.rcv i ∧ r.alpha = (rng.action i).alpha ∧
    r.note.rseed ∈ (rng.action i).seedDraws ∧ r.rndOck = (rng.action i).rndOck ∧ r.rndOp = (rng.action i).rndOp

end Orchard.Spec
