# Formal model of the `orchard` crate (0.10.0)

* Properties: `properties.jsonl`.  Status and theorem names per property: `MANIFEST.json`.
* Lean project: `lean/` (Lean 4.33.0, Mathlib; `lake build`).
* Attempts to break the theorems with wrong programs: `seeded/LOG.jsonl`.

## Layout

| directory | content |
|-----------|---------|
| `Verif/Basic` | the two Pasta primes (Lucas certificates), the Pallas group and its order, bytes and bit strings, canonical encodings |
| `Verif/Model` | the model, function by function; each definition cites the file and lines of `/repo` it models and says what is simplified |
| `Verif/Spec` | small specifications written from the English property and the protocol specification, independent of the model's helper functions |
| `Verif/Lemmas` | proofs about the model that are not property statements |
| `Verif/Examples` | concrete primitives and states used to show that hypotheses can be met |
| `Verif/Props` | the property theorems (`Cxx_...`) and, beside each, a concrete `example` meeting its hypotheses |

## Modelling conventions

* Fields: `Fp = ZMod p` (Pallas base field), `Fq = ZMod q` (scalar field), literal moduli, primality
  proved.
* Group: `Point` is Mathlib's `WeierstrassCurve.Affine.Point` of `y² = x³ + 5` over `Fp`.  That it has
  exactly `q` elements is proved (C58), so `Fq` acts on it.
* `[u8; n]` is `Bytes n` (a byte list with a length proof), `&[u8]` is `List UInt8`.
* `u64`/`u32`/`u8` are `UInt64`/`UInt32`/`UInt8`, or `ℕ`/`ℤ` with the range check written out where
  the Rust code performs one (`checked_add`, `try_from`).  `ValueSum(i128)` is an `ℤ` whose range is an
  invariant proved for every constructible value (C02).
* A Rust function that may panic returns `Outcome α` (`ret`/`panic`); `unwrap`, `expect`, `assert!`
  and overflow of checked machine arithmetic are explicit.
* Errors (`Result`) are inductive types with the constructors of the Rust enums.
* Randomness is an explicit list of draws consumed in program order (`Run`).  Rejection loops
  (`Note::new`, `Note::dummy`, `SpendingKey::random`) run over that list; a run whose list is too
  short is a run that has not terminated.  `EnoughDraws` is the hypothesis that it is long enough.
  The two shuffles are Fisher–Yates driven by draws, as in `rand 0.8`.  In `Model/Builder` each draw has a name;
  `Model/Rng` writes the same functions with one generator passed along, and C97 shows that both agree and which calls
  of the generator each name stands for.
* Generic parameters (`V: TryFrom<i64>`, authorisation types, callbacks of `map_authorization`) stay
  parameters.
* Hash functions and ciphers (`Prims`: BLAKE2b, hash-to-curve, Poseidon, the Sinsemilla table, the FF1
  round function, ChaCha20 key stream, Poly1305 tag, RedPallas hash) are parameters.  Every theorem
  holds for every choice of them; a law that a theorem needs is a hypothesis of the theorem.
  Collision resistance or hardness is never assumed: binding theorems exhibit the collision or the
  discrete-logarithm relation from an explicitly given finite list of candidates.

## Which code is modelled

| Rust file | Lean | modelled | not modelled |
|-----------|------|----------|--------------|
| `value.rs` | `Model/Value` | all arithmetic, commitments, trapdoors, `into_bsk`, `into_bvk`, encodings | trait boilerplate |
| `spec.rs` | `Model/Spec`, `Model/Wnaf` | all functions; prepared scalars and bases twice, as scalar multiplication and with their tables and digits | |
| `keys.rs` | `Model/Keys` | all key types, derivations, encodings, diversifiers (FF1 structure incl. rounds), `kdf`, batch `kdf` | constant-time aspects |
| `address.rs`, `note.rs`, `note/*.rs` | `Model/Keys`, `Model/Note` | all | |
| `tree.rs` | `Model/Tree`, `Model/Frontier` | `MerklePath` and its conversions, `combine`, empty roots, anchors; frontiers over them (C106) | `testing` (a random field element), `Debug` |
| `zip32.rs` | `Model/Zip32` | all | `Debug` |
| `action.rs`, `bundle.rs`, `bundle/commitments.rs`, `bundle/batch.rs` | `Model/Action`, `Model/Bundle`, `Model/Batch`, `Model/DynamicUsage` | all | |
| `note_encryption.rs` | `Model/NoteEncryption` | the `Domain` implementation, and the generic driver of crate `zcash_note_encryption` (encryption, trial decryption, compact, recovery, batch driver in `Model/BatchDecryption`) | constant-time comparison (its Boolean result is modelled) |
| `builder.rs` | `Model/Builder`, `Model/Rng`, `Model/Signing`, `Model/Views` | all | |
| `Display` for the error types; `Debug` written by hand for proofs, ciphertexts, compact actions, bundles | `Model/Display` | all (C107) | derived implementations; the alternate form of `Debug for Bundle` |
| `FullViewingKey::read`, `write`; `Serialize`, `Deserialize` for `MerkleHashOrchard` | `Model/Stream` | all (C108) | `read_exact` and `write_all` of the standard library are modelled from their documentation; data formats are parameters |
| the modules `testing` of `value.rs`, `keys.rs`, `address.rs`, `note.rs`, `note/nullifier.rs`, `primitives/redpallas.rs`, `note_encryption.rs`, `action.rs`, `bundle.rs`, `builder.rs` | `Model/Testing` | all generators, as sets of possible outcomes | probabilities, shrinking, and the limit on rejections of crate `proptest` |
| `primitives/redpallas.rs` | `Model/RedPallas`, `Model/Order` | signing, verification, batch verification, randomisation, of crate `reddsa` over the Pallas group | |
| `circuit.rs`, `circuit/commit_ivk.rs`, `circuit/note_commit.rs`, `circuit/gadget*.rs` | `Model/Halo2`, `Model/CommitIvk`, `Model/NoteCommit`, `Model/Synthesize`; `Model/Layout`, `Model/LayoutNoteCommit`, `Model/LayoutCircuit` | every custom gate polynomial by polynomial, `synthesize` step by step, twice: as a relation between cells with the witness assignment, and as a table with advice columns, rotations, selectors, regions and copies; `Instance`, `Proof::verify`/`add_to_batch` | the gates, cells and lookup tables inside `halo2_gadgets` (contracts), fixed columns, the floor planner (a parameter), `halo2_proofs` itself |
| dependency `halo2_gadgets` | `Model/Halo2`, `Model/MulFixed`, `Model/Gadgets`, `Model/Regions` | contracts, gates, and rows of the gadgets the circuit calls (C75, C81–C88) | assignment of witness values |
| `circuit_description` | `Model/Pinned/*` (generated by `tools/gen_pinned.py`), `Model/Gadgets`, `Model/Pinned/Circuit` | the constraint system of the pinned verification key: all gates, lookups, permutation columns; readable gates of the gadgets proved equal to it (C81); domain and query lists, and what a proof consists of (`Model/ProofSize`, C105) | commitments to fixed columns and permutations |
| `constants.rs`, `constants/*` | `Model/Constants`, `Model/FixedBase`, `Model/Arrays`, `Model/Tables/*` (generated) | generators, Sinsemilla `Q` points, the tables `U`, `Z` of all six fixed bases, `T_P`, `T_Q`, `INV_TWO_POW_K`, `i2lebsp_k`, `lebs2ip_k`, the array loop of `util.rs` | `load.rs` (not part of the crate's module tree) |
| `test_vectors/*`, unit tests | `Vectors/*`, `Spec/EmptyRoots` | the tests of `keys.rs`, `note_encryption.rs` and `tree.rs` on all their vectors (the trees of crate `bridgetree` replaced by the specification's), the empty roots (C80) | `print_action_circuit` (draws a picture), `benches` |
| `tests/builder.rs` and the tests on random inputs in `value.rs`, `keys.rs`, `builder.rs`, `circuit.rs` | `Model/Tests` | the tests, statement by statement (C102) | the comparison of the verification key with its description (C81) |
| tests of `spec.rs`, `constants/*`, `keys.rs`, `zip32.rs`, `circuit/commit_ivk.rs`, `circuit/note_commit.rs` | `Model/UnitTests` | the tests on fixed inputs, with those inputs as arguments (C104) | the layout inside the mock prover (the tests are at the level of C52 and C53) |
| `circuit.rs` 1090-1174, `circuit_proof_test_case.bin` | `Model/ProofTestCase`, `Model/Tables/ProofTestCase` | writing, reading and regenerating the file (C103) | whether the stored proof verifies (needs the `halo2_proofs` verifier) |

## Trusted base

* The Lean kernel.  All theorems together depend only on the axioms `propext`, `Classical.choice` and
  `Quot.sound` (collected over all theorems of the project; each single theorem uses a subset).
  No `sorry`, no `native_decide`, no `bv_decide`, no `implemented_by`, no added axioms.  The tactic `kernel_rfl`
  (`Lemmas/PatchPack.lean`) proposes `Eq.refl` as the proof without evaluating the goal first: only the kernel checks it.
* The transcription from Rust to Lean.
* Facts about dependencies whose source is not in `/repo`, transcribed from memory:
  * `pasta_curves`: `from_repr`, `to_repr`, `from_uniform_bytes`, point encoding (little endian `x`, sign
    of `y` in bit 255), complete group law; random field elements from eight words, random points by trying abscissas.
  * `zcash_note_encryption`: the functions in `Model/NoteEncryption.lean` and `Model/BatchDecryption.lean`.
  * `zcash_spec`: the `PrfExpand` domain bytes; `zip32`: hardened child indices, `AccountId`.
  * `fpe` FF1: 10 Feistel rounds, radix 2, 88 bits.
  * `reddsa`: nonce from 80 random bytes, key and message; challenge; cofactorless equation; batch
    verification with random 128-bit weights (C57 states exactly which weights make it wrong).
  * `group`: the functions of its module `wnaf`, version 0.13, in `Model/Wnaf.lean`.
  * `incrementalmerkletree`: frontiers, their witnesses, and paths (version 0.7), in `Model/Frontier.lean`; `bridgetree` (used by
    tests only) is replaced by the tree of the specification.
  * `memuse`: the implementations of `DynamicUsage` for `Vec` and `NonEmpty`, in `Model/DynamicUsage.lean`.
  * `rand`: `shuffle` is Fisher–Yates from the end, its positions by widening multiplication with rejection, from 32
    bits where they suffice (`Model/Rng.lean`); `nonempty`: `map` visits the head first.
  * `halo2_gadgets`: the contracts in `Model/Halo2.lean` (range checks with 10-bit words, Sinsemilla pieces,
    incomplete addition may allow any result in an exceptional case, Merkle gadget without canonicity,
    fixed- and variable-base multiplication, complete addition, Poseidon).  The contracts of fixed-base
    multiplication and complete addition are proved from the gates (C75), in
    `Model/MulFixed.lean`, with the tables of the crate.  The gate polynomials of all gadgets are those of
    `/repo/src/circuit_description` (C81), which is in the repository.  All contracts are proved from these gates and
    lookups (C82–C87, C88): what stays recalled is `Model/Regions.lean`, that is, which selectors and constants a
    gadget sets on which of its rows, and which cells it copies.  In the table model the
    cells that the circuit receives from gadgets are distinct cells of the ten advice columns at places the floor plan
    decides.
    C89 shows that these regions are jointly satisfiable for every honest witness.  Where an exceptional addition is
    met (a hash is ⊥) C83 says nothing about the cells of the result.
  * `halo2_proofs`: the prover and verifier are parameters; what the prover writes (points and scalars, their number and
    order) is recalled in `Model/ProofSize.lean`, and gives the sizes the crate's test expects (C105).  C57 assumes of batch verification of proofs
    that it accepts iff all single verifications do (hypothesis `hfin`); C54 is about satisfying
    assignments, not about proofs.
* The generators derived at run time by `hash_to_curve` on fixed strings (`value.rs`, `nullifier.rs`, ...)
  are proved to be the points hard-coded in `constants/` (C73), with `hash_to_curve` and BLAKE2b written out
  in `Crypto/` from RFC 9380, RFC 7693 and memory of `pasta_curves`.  That the nine hard-coded points come
  out makes a transcription error implausible.
* All primitives are also written out concretely: `Prims.zcash` (`Crypto/Zcash.lean`) has BLAKE2b,
  `hash_to_curve`, Poseidon (P128Pow5T3), the Sinsemilla table, AES-256 for FF1, ChaCha20 and Poly1305.
  Theorems about it are C80 and the test vectors in `Vectors/`: the unit tests of the crate are transcribed
  as functions of the primitives, and the kernel checks that they pass on all published vectors.  This is evidence for
  the transcription (of the model as well as of the primitives) and is not counted as a property.

## Side conditions that appear in theorems

* `NoZeroKeys`: no drawn spending key has `ask = 0` (else the code panics, finding 1).
* `EnoughDraws`: the draw list is long enough (termination of rejection sampling is probabilistic).
* `hashToCurve keyDiversificationPersonalization [] ≠ 0`: the fallback of `diversify_hash` is not the
  identity (one fixed point, used where a diversified base must not be the identity).  C73 proves it for the
  `hash_to_curve` of `Crypto/HashToCurve.lean`.
* C55: `rk` and the requested recipients' `pk_d` are not the identity, and no Sinsemilla exception on
  the Merkle path.

## Findings: where the code differs from the expected property

1. `SpendingKey::from_bytes` panics (instead of returning `None`) when the derived `ask` is zero: the
   `FullViewingKey` conversion is reached before the check can reject.  `C30_never_panics_false`,
   `C30_panics_on_zero_ask`; what holds instead is `C30_spending_key_partial`.
2. `Builder::value_balance()` succeeding does not imply that `build` succeeds, nor conversely: partial sums
   are taken in shuffled order by `build`.  `C11_depends_on_shuffle`, `C11_value_balance_not_necessary`.
3. The preimage of `hash_bundle_auth_data` does not contain the number of actions or the proof length:
   different bundles share a preimage.  `C24_ambiguous_without_count`; binding holds for equal counts and
   together with the txid commitment (`C24_both_commitments`).
4. `Instance::to_halo2_instance` panics when `rk` is the identity (`unwrap` of coordinates): an adversarial
   bundle with identity `rk` makes `Proof::verify`, `add_bundle` panic.  `C27_identity_rk_panics`,
   `C57_add_panics_iff`.
5. A `Note` built by `from_parts` with an `rseed` valid for another `rho` can have `esk = 0`; encrypting it
   panics.  `C42_encryption_can_panic`.
6. `ExtendedSpendingKey::derive_child` overflows `depth: u8` after 255 derivations.  `C50_depth_limit`.
7. Several `z13` canonicity constraints of the circuit are not needed for soundness (only those of `pk_d`
   and `rho` are used in the proofs of C53); harmless.
8. `builder::testing::arb_bundle` and `arb_bundle_with_key` ("produce an arbitrary valid Orchard bundle")
   panic on nearly all their inputs: notes and outputs go to addresses of arbitrary keys, but are spent and
   recovered with one key (`FvkMismatch`, `unwrap` on `None`); the path of each note is taken before later
   notes are appended, but the anchor is the final root (`AnchorMismatch` from two notes on); and the
   balance can overflow.  `C101_panics`, `C101_unusable_panics`, `C101_several_notes`.
9. Smaller points in the test support: `arb_note_value` never yields the largest value;
   `arb_note_value_bounded` is documented as positive and yields zero (`C99_values`); `bundle::testing`'s
   generators panic for zero actions (`C100_zero_actions`); `fake_compact_action` panics instead of drawing
   a new seed when the note has no commitment (`C99_fake_compact_action`).
10. `BuildError::OutputsDisabled` prints "Spends are not enabled for the requested bundle type." (`C107_outputs_disabled`),
   and `zip32::Error::InvalidChildIndex` prints "Seed produced invalid spending key." (`C107_zip32_error`).

## Per property

| id | how stated and proved |
|----|------------------------|
| C01, C02 | exact integer statements; induction over lists; every constructible `ValueSum` is in range |
| C03, C04 | module algebra over `Fq`; integer bounds versus `q` |
| C05 | case analysis of `num_actions`, also for the constants `DEFAULT` and `DISABLED`, and the count for built bundles |
| C06, C07 | induction over call histories of the builder |
| C08–C15 | `bundle()` refines `Spec.Builder` (`Plan`, `Explains`): permutation reasoning through padding and both shuffles |
| C16–C21 | the signing state machine; invariants by induction over histories |
| C22–C27 | byte-exact layouts; injectivity of fixed-width concatenations; list inductions |
| C28–C37 | field, curve and Feistel lemmas; encodings as mutually inverse partial maps |
| C38–C40 | notes; Sinsemilla with ⊥; reductions to explicit discrete-logarithm relations |
| C41–C44 | byte-exact plaintexts; round trips; soundness of decryption for arbitrary bytes |
| C45–C47 | induction over tree depth; 13 is not a square in `Fp` |
| C48, C49 | parsing and serialisation are inverse, acceptance characterised |
| C50 | induction over derivation paths |
| C51–C55 | gates as polynomial equations, running sums as integers, composition through `synthesize` |
| C56, C57 | decision logic; induction over `add_bundle` calls |
| C58–C60 | certificates checked in the kernel; inductions over bit strings |
| C61, C62 | equality of every primitive and key derivation with `Spec/Protocol.lean`, which is written from the protocol specification with lists of bytes and bits and uses no function of `Model/` except the primitives `Prims`; diversifiers are FF1 of SP 800-38G, as the recurrence of its Feistel halves |
| C63 | history of the built bundle (C06–C15) composed with decryption and recovery (C42, C43) |
| C64 | from the characterisation of decryption (C44) and of `scope_for_address` (C35) |
| C65 | soundness of the circuit (C54) for every action, summed, with the binding of value commitments |
| C66 | completeness of the circuit (C55), signature correctness (C18–C21) and the batch validator (C27); proof-system completeness is a hypothesis |
| C67 | chunks of a flattened list of keyed items, by induction; every item reduces to the single decryption |
| C68 | a Hoare logic over the events of synthesis (`Lemmas/Layout*`): a table that satisfies them satisfies the relation of C54; gates are evaluated from the constraint system that `configure` builds |
| C69 | a relational Hoare logic for two runs of synthesis (`Lemmas/LayoutShape`) |
| C70 | a third one for tables that hold the written values (`Lemmas/LayoutHonest`), from C55 |
| C71 | `Note.rustEq` against `Spec.noteCommitOf`; laws of `Eq`; meaning by C39 |
| C72 | `encryptNote` with `ovk = none` against `Spec.Seals`; independence by comparing two calls |
| C73 | `Crypto/`: BLAKE2b, `expand_message_xmd`, simplified SWU and the 3-isogeny; evaluated by the kernel through number-level functions proved equal to them |
| C74 | all 3576 table entries against `Spec/FixedBase` (window points as multiples of the generator, Euler's criterion), evaluated by the kernel through number-level functions proved sound by induction over the windows |
| C75 | gates of fixed-base multiplication and complete addition; induction over the windows with a bound on the partial sums; equivalence with the contracts used by C51–C55 and C68–C70 |
| C76 | `shuffle` against in-range choices (`Spec/Shuffle`): bijection with permutations by induction over the list; counting |
| C77 | invariant over `prepare` and successive `sign` calls: a map from signatures to generator blocks that stays injective |
| C78 | the three commitments are affine in the trapdoor over a non-identity base of prime order; for builds, success and everything but `cv_net`, `rk` (and what is derived from them) do not depend on the blinding values |
| C79 | `Model/Wnaf`: tables, limb buffer, digit loop and multiplication of the `group` crate with the crate's window size; loop invariant (digits so far, carry, rest of the scalar); refinement to `kaOrchardPrepared` |
| C80 | `emptyRoot` by C47; every Merkle hash evaluated by the kernel with the primitives of Zcash (`Prims.zcash`), through number-level functions proved equal to the model |
| C81 | `circuit_description` parsed into expressions (generated modules); each of the 193 polynomials compared with the model's by `ring` after evaluating `configure`; selectors as products over the numbers of a fixed column; then C68 and C70 |
| C82–C87 | `Model/Regions`: selectors, constants and copies of each gadget on its rows; from `Spec.Satisfied` (pinned gates on all rows, lookups on usable rows) by induction over the rows of a region: running sums, Sinsemilla steps with their doubled ordinates, Poseidon rounds, both halves of double-and-add (incomplete additions cannot be exceptional because the partial scalars stay small), overflow check |
| C88 | every gadget call of synthesis: its contract from its regions (C82–C87); composed with C81 |
| C89 | for each gadget the contents of its region for honest inputs, shown to satisfy every gate and lookup on its rows (`Lemmas/Patch*`: running sums, Sinsemilla, Merkle layers, Poseidon, fixed- and variable-base multiplication with all inverses); the 100-odd regions packed into 1923 rows, disjointness checked by the kernel; gates off elsewhere; `honest_events` for the cells of synthesis.  Examples for C82–C89: `Examples.regions_P0`, `complete_P0`, `defined_P0` |
| C90 | the scheme as written in the protocol specification (`Spec/RedPallas.lean`); arithmetic in the group of prime order |
| C91 | orders by encodings and derived orders (`Model/Order.lean`); lexicographic orders by induction on byte strings; that of field elements reduced to that of integers |
| C92 | chain of bundles with the secrets behind proofs and binding signatures (`Spec/Ledger.lean`); consensus rules (anchors, nullifiers, capacity) from the protocol specification; induction over the chain, over the levels of the tree, and over sums; binding of the commitments as in C04, C39, C46 with non-canonical encodings and undefined hashes treated as breaks; honest bundles extend the chain by C55, C54 and C12 (`Props/LedgerHonest.lean`) |
| C93 | `DynamicUsage` implementations with the ones of crate `memuse` for `Vec` and `NonEmpty` (capacities as arguments, sizes without wrap-around); induction over vectors |
| C94 | chain as in C92 (`Spec/Ledger.lean`), notes and keys of a wallet (`Spec/Wallet.lean`); decryption from C44, binding of note commitments and of nullifiers (generalising C40) against the openings on the chain, spend authority from C92, `add_spend` from C64 with the tree of the chain (C45) |
| C95 | `C95_builds` from C13 with the tree of the chain (C45, C64); `C95_goes_through` composes C66 (honest bundles are valid), C92_honest (honest bundles are accepted), C94_fresh (nullifiers of unspent notes are fresh), binding of nullifiers for two notes of the wallet, and C63 (recipients decrypt); example: 3 received in a coinbase bundle and paid on |
| C96 | signatures are functions of the discrete logarithms of `rk` and of the binding validating key; the blocks used (C77) are shown to depend only on the bundle and the keys (`Lemmas/Signers.lean`); two injective assignments of blocks differ by a permutation; requests via C78 |
| C97 | `Model/Rng.lean`: the functions drawing from a generator, loops with a number of rounds; a simulation relation between a computation with a generator and one with labels, closed under sequencing and loops (`Lemmas/Rng.lean`, `Lemmas/RngBuild.lean`); a log of labels with the calls they are made from; fairness of `gen_range` by counting |
| C98 | `Spec/Fair.lean`: probabilities as numbers of answers to given calls, all other calls answered by any generator.  `Lemmas/Fair.lean`: residues of the numbers below `2^512`; a loop that picks the first accepted answers, by induction over the calls: if two series of results have as many answers each, they have as many runs (`card_picks`); the loops of `Model/Rng` are such loops (`loop_iff`, `noteLoop_iff`, `shuffle_iff`); whole builds by C78 (one blinding per prescribed result) and a product over the actions; builds with a generator by following two runs whose generators differ in the blinding calls only (`Lemmas/FairBuild.lean`). |
| C99 | `Model/Testing.lean`: a proptest strategy is the set of its possible outcomes (`Gen`, a value or a panic), with `prop_map`, `prop_filter`, `prop_flat_map`, vectors and ranges of crate `proptest` recalled; each generator of the `testing` modules as such a set.  `Spec/Testing.lean`: `Yields` (exactly these values, no panic).  Proofs unfold membership generator by generator; addresses by C33/C34, `fake_compact_action` by C42. |
| C100 | The actions of `arb_bundle` are drawn with values; the drawn values are kept beside the actions (`Drawn`, `exists_forall₂`), sums by induction over the list.  `C100_balance` derives what a verifier of the balance sees. |
| C101 | The tree of crate `incrementalmerkletree` is modelled by the nodes of the tree with empty leaves after the appended ones (justified by C106); inputs by induction over the notes.  `into_bundle` is the composition of the modelled builder, prover, signer; usable inputs by C06, C13, C66, others by C06 and C13.  Several notes: descend from equal roots to the first differing children.  Panic for every key: two notes of `2^63-2` overflow whatever is drawn. |
| C102 | A test is a program that returns or panics (`Run`); strategies as in C99.  Values: partial sums stay in range because of the strategy's bound.  `bundle_chain` by composing C13 (building succeeds), C63 and C64 (the note is found and can be spent), C45 (its path), C66 (acceptance); the found note is the first that decrypts, which need not be the requested one, so C39 decides its value.  `round_trip` through the witness lemma behind C55. |
| C103 | Writer and reader as functions on byte lists; a short read is a panic.  The layout is the relation `Spec.IsTestCase`, from canonical encodings (C48, C49).  Both directions by decomposing the list.  Regeneration from C102.  The stored file is a generated table of 5154 bytes; its header is split off arithmetically, its proof stays opaque. |
| C104 | Tests as programs, with their inputs as arguments.  Bits from C60, constants from C59, generators from C73, tables from C74 together with the converse of the test, parsers from C48 and C49, derivation from C50, circuits from the completeness parts of C52 and C53. |
| C105 | What `create_proof` writes is a list of points and scalars, built from the pinned constraint system; degree, number of permutation products, blinding and opening sets are computed from it.  The opening sets for any number of circuits reduce to those of one circuit; the rest is counting.  Queries by comparing complete lists. |
| C106 | `append`, `root` and `witness` of a frontier as folds over the siblings on the way up; invariant: the ommers are the roots of the complete subtrees left of the last leaf.  Append: three phases of the carry (going up, waiting, put down), each by induction over the levels.  Root and witness by induction over the levels with C47 and C45. |
| C107 | texts as lists of characters; decimal numbers are read back up to the first non-digit, byte lists by induction, hexadecimal text by length.  The two mistakes are proved as equalities of texts. |
| C108 | induction over the answers of the reader (writer) against what it delivers as a whole; C31 for the 96 bytes, C48 for the hashes |
