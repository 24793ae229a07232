import Verif.Model.Testing
import Verif.Spec.Builder
import Verif.Spec.Zip32

/-!
# Specification of the generators for property testing
-/

namespace Orchard.Spec

/-- The strategy yields exactly the values with the given property, and never panics. -/
def Yields {α : Type} (g : Gen α) (p : α → Prop) : Prop := ∀ o, o ∈ g ↔ ∃ a, p a ∧ o = .ret a

/-- Every use of the strategy panics. -/
def AlwaysPanics {α : Type} (g : Gen α) : Prop := ∀ o, o ∈ g ↔ o = .panic

/-- The full viewing key of a spending key. -/
def fvkOf (P : Prims) (sk : Bytes 32) : FullViewingKey := ⟨⟨ak P sk⟩, nk P sk, rivk P sk⟩

/-- An external address of some valid spending key. -/
def SomeAddress (P : Prims) (a : Address) : Prop :=
  ∃ sk, ValidSk P sk ∧ OwnedInScope P (fvkOf P sk) .external a

/-- What the commitments of a generated action say: it spends the value `v.1` and creates a note of
value `v.2` for some address, the value commitment has trapdoor zero, and the ciphertexts are
zeros. -/
structure FakeAction {A : Type} (P : Prims) (v : ℕ × ℕ) (a : Action A) : Prop where
  cmx : ∃ note cm, intValue note.value = v.2 ∧ SomeAddress P note.recipient ∧
    commitmentOf P note = some cm ∧ a.cmx = extractP cm
  cvNet : a.cvNet.inner = (((v.1 : ℤ) - (v.2 : ℤ) : ℤ) : Fq) • Constants.valueCommitV
  epk : ∀ x ∈ a.encryptedNote.epkBytes.toList, x = 0
  enc : ∀ x ∈ a.encryptedNote.encCiphertext.toList, x = 0
  out : ∀ x ∈ a.encryptedNote.outCiphertext.toList, x = 0

/-- The pairs of values (spent, created) of the actions of a generated bundle of `n` actions: each
value is less than `(2^64 - 1) / n`, and zero where the flags forbid it. -/
structure FakeValues (n : ℕ) (flags : Flags) (vs : List (ℕ × ℕ)) : Prop where
  length : vs.length = n
  bounded : ∀ v ∈ vs, n * (v.1 + 1) ≤ 2 ^ 64 - 1 ∧ n * (v.2 + 1) ≤ 2 ^ 64 - 1
  spends : flags.spendsEnabled = false → ∀ v ∈ vs, v.1 = 0
  outputs : flags.outputsEnabled = false → ∀ v ∈ vs, v.2 = 0

/-- What a generated bundle of `n` actions says, with the spent and created values of its actions:
the actions commit to these values and the balance is their exact difference. -/
structure FakeBundle {T A : Type} (P : Prims) (n : ℕ) (vs : List (ℕ × ℕ))
    (b : Bundle T A ValueSum) : Prop where
  values : FakeValues n b.flags vs
  actions : List.Forall₂ (FakeAction P) vs b.actions
  balance : b.valueBalance.inner = (vs.map fun v => (v.1 : ℤ)).sum - (vs.map fun v => (v.2 : ℤ)).sum

/-- The inputs on which the generators of actions can panic: bytes with `ask = 0`, and a note for some
address without a commitment. -/
def Exceptional (P : Prims) : Prop :=
  (∃ b, askScalar P b = 0) ∨ ∃ note, SomeAddress P note.recipient ∧ commitmentOf P note = none

/-- A note of the given value that can be generated and has a commitment. -/
def Generable (P : Prims) (G : Point) (value : ℕ) (note : Note) : Prop :=
  intValue note.value = value ∧ SomeAddress P note.recipient ∧
    (∃ s : Fq, note.rho = extractP (s • G)) ∧ ∃ cm, commitmentOf P note = some cm

/-! ### Inputs of generated bundles -/

/-- The leaves of the tree that starts with the given leaves: all later leaves are empty (`2`). -/
def padLeaves (leaves : List Fp) (j : ℕ) : Fp := leaves.getD j 2

/-- The root of the tree of height 32 that starts with the given leaves. -/
noncomputable def treeRoot (P : Prims) (leaves : List Fp) : Fp := node P (padLeaves leaves) 32 0

/-- The path of leaf `pos` in the tree that starts with the given leaves. -/
def IsPathIn (P : Prims) (leaves : List Fp) (pos : ℕ) (path : MerklePath) : Prop :=
  path.position.toNat = pos ∧
    path.authPath = (List.range 32).map fun l => node P (padLeaves leaves) l (sibling (pos / 2 ^ l))

/-- Total of a list of values. -/
def totalOf (vs : List NoteValue) : ℤ := (vs.map intValue).sum

/-- The notes of generated inputs, or their outputs: between 1 and 29 of them with positive values,
each less than `(2^64 - 1)` divided by their number. -/
def ValuesOk (vs : List NoteValue) : Prop :=
  1 ≤ vs.length ∧ vs.length < 30 ∧
    ∀ v ∈ vs, 0 < v.inner.toNat ∧ vs.length * (v.inner.toNat + 1) ≤ 2 ^ 64 - 1

/-- The notes and outputs that `arb_bundle_inputs` draws: notes as in `C99_note`, addresses of some
keys, and bounded positive values. -/
structure DrawnInputs (P : Prims) (G : Point) (notes : List Note)
    (outputs : List (Address × NoteValue)) : Prop where
  notes_ok : ∀ n ∈ notes, SomeAddress P n.recipient ∧ ∃ s : Fq, n.rho = extractP (s • G)
  outputs_ok : ∀ p ∈ outputs, SomeAddress P p.1
  noteValues : ValuesOk (notes.map Note.value)
  outputValues : ValuesOk (outputs.map Prod.snd)

/-- The inputs that `arb_bundle_inputs` makes from notes and outputs: the path of note `i` is its path in
the tree of the notes up to `i`, and the anchor is the root of the tree of all notes. -/
structure InputsOf (P : Prims) (sk : SpendingKey) (seed : Bytes 32) (notes : List Note)
    (outputs : List (Address × NoteValue)) (x : Testing.ArbitraryBundleInputs) : Prop where
  sk_eq : x.sk = sk
  seed_eq : x.rngSeed = seed
  outputs_eq : x.outputAmounts = outputs
  notes_eq : x.notes.map Prod.fst = notes
  tree : ∃ cmxs : List Fp,
    List.Forall₂ (fun n c => ∃ cm, commitmentOf P n = some cm ∧ c = extractP cm) notes cmxs ∧
    x.anchor = treeRoot P cmxs ∧
    ∀ i p, x.notes[i]? = some p → IsPathIn P (cmxs.take (i + 1)) i p.2

/-- Inputs with which a bundle can be built: the key owns the addresses of all notes and of all
outputs, the path of every note leads to the anchor, and the balance is a value of the caller's
type. -/
structure Usable {V : Type} (P : Prims) (tryFrom : I64 → Option V) (x : Testing.ArbitraryBundleInputs) :
    Prop where
  notes : ∀ p ∈ x.notes, ∃ scope, OwnedInScope P (fvkOf P x.sk.bytes) scope p.1.recipient
  paths : ∀ p ∈ x.notes, ∃ cm, commitmentOf P p.1 = some cm ∧
    PathRoot P p.2.position.toNat p.2.authPath (extractP cm) x.anchor
  outputs : ∀ p ∈ x.outputAmounts, ∃ scope, OwnedInScope P (fvkOf P x.sk.bytes) scope p.1
  balance : ∃ (i : I64) (v : V), i.val = totalOf (x.notes.map fun p => p.1.value) -
    totalOf (x.outputAmounts.map Prod.snd) ∧ tryFrom i = some v

/-- No randomised validating key is the identity. -/
def NoZeroRk (P : Prims) (draws : BuildDraws) (sk : Bytes 32) : Prop :=
  ∀ i, ak P sk + (draws.action i).alpha • Constants.spendAuthG ≠ 0 ∧
    ∀ j, ∀ b ∈ (draws.spendDummy j).skDraws,
      ak P b + (draws.action i).alpha • Constants.spendAuthG ≠ 0

end Orchard.Spec
