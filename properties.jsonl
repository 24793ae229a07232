{"id": "C01", "title": "Value arithmetic is exact and never wraps", "statement": "Subtracting one note value from another always yields the exact signed difference and never panics; adding two value sums yields the exact sum when it lies in [-(2^64-1), 2^64-1] and an explicit failure otherwise; summing a list returns the exact total or an overflow error; converting to i64 succeeds exactly when the value fits and preserves it.", "quantifier": "all pairs of 64-bit note values, all in-range value sums, all lists of value sums", "why_tests_cant": "2^128 pairs of inputs; boundary behaviour at the ends of both ranges interacts with i128/u64/i64 conversions", "anchors": ["src/value.rs: NoteValue::sub, ValueSum::add, Sum for Result<ValueSum, OverflowError>, TryFrom<ValueSum> for i64"]}
{"id": "C02", "title": "Magnitude/sign split of a value sum is lossless", "statement": "Splitting any constructible value sum into magnitude and sign never panics, and sign*magnitude is the original value; zero is reported as positive.", "quantifier": "every value sum reachable through the public constructors and operators", "why_tests_cant": "The panic-freedom depends on an invariant over every sequence of operations that builds a ValueSum", "anchors": ["src/value.rs: ValueSum::magnitude_sign, VALUE_SUM_RANGE"]}
{"id": "C03", "title": "Value commitments are additively homomorphic", "statement": "The sum of value commitments to v_1..v_n with trapdoors r_1..r_n equals the commitment to the sum of the values with the sum of the trapdoors, whenever every value involved is in range; deriving a commitment never panics for an in-range value.", "quantifier": "all lists of in-range values and scalars, any choice of the two generators", "why_tests_cant": "Must hold for every list length and every scalar; tests use a few random samples", "anchors": ["src/value.rs: ValueCommitment::derive, Sum for ValueCommitment, Sum for ValueCommitTrapdoor"]}
{"id": "C04", "title": "A balance forgery reveals a discrete logarithm", "statement": "If the value commitments of a set of actions with net values v_1..v_n sum to a commitment to a different total value v (the balance equation the verifier checks), then a discrete-logarithm relation between the two commitment generators can be computed from the openings; for up to 2^190 actions the integer totals cannot coincide by wrap-around modulo the group order.", "quantifier": "all numbers of actions up to 2^190, all openings and all claimed balances", "why_tests_cant": "Soundness statement over all adversarial openings", "anchors": ["src/value.rs: ValueCommitment::derive, into_bvk", "src/bundle.rs: Bundle::binding_validating_key"]}
{"id": "C05", "title": "Number of actions in a bundle", "statement": "For a transactional bundle, the number of actions is max(spends, outputs, 2), except it is 0 when nothing was requested and no bundle is required; disabled spends (outputs) with a positive number of spends (outputs) are rejected; a coinbase bundle has exactly one action per output and rejects any spend. The default type has all flags enabled and requires no bundle; the disabled type admits no spend and no output and never yields a bundle.", "quantifier": "all flags, all bundle types, all counts of spends and outputs", "why_tests_cant": "Unbounded counts", "anchors": ["src/builder.rs: BundleType::num_actions, MIN_ACTIONS", "src/builder.rs: BundleType::DEFAULT, BundleType::DISABLED"]}
{"id": "C06", "title": "Builder accepts only valid spends, in any call history", "statement": "After any sequence of add_spend/add_output calls, the builder holds exactly the calls that returned Ok, in call order; every held spend is owned by the full viewing key it was added with, has a Merkle path whose root is the builder's anchor unless its value is zero, and spends (outputs) are only held when the bundle type enables them; a call that returns an error leaves the builder unchanged.", "quantifier": "all finite histories of builder calls with arbitrary arguments", "why_tests_cant": "Histories are unbounded; tests exercise one or two calls", "anchors": ["src/builder.rs: Builder::new, add_spend, add_output, SpendInfo::new, SpendInfo::has_matching_anchor"]}
{"id": "C07", "title": "Reported value balance is exact", "statement": "When Builder::value_balance returns a value, it equals total spend value minus total output value of the accepted calls as integers; it fails exactly when a running partial sum leaves [-(2^64-1), 2^64-1] or the total does not fit the caller's type. The input and output views offered for fee calculation show the values of exactly the accepted calls, in call order, and the balance is the sum of the former minus the sum of the latter.", "quantifier": "all call histories, all 64-bit values, any caller value type", "why_tests_cant": "Arbitrary number of values and partial sums", "anchors": ["src/builder.rs: Builder::value_balance", "src/builder.rs:504-512,939-968"]}
{"id": "C08", "title": "Every requested spend and output lands in exactly one action", "statement": "The actions of a built bundle consume each requested spend exactly once and create each requested output exactly once, and every other spend or output in the bundle is a freshly generated dummy of value zero, for every outcome of the shuffle.", "quantifier": "all spend/output lists, all pairs of shuffle permutations, all random dummies", "why_tests_cant": "Factorially many shuffles and unbounded list sizes", "anchors": ["src/builder.rs: bundle, SpendInfo::dummy, OutputInfo::dummy"]}
{"id": "C09", "title": "Bundle metadata points at the right actions", "statement": "For every n below the number of requested spends (outputs), spend_action_index(n) (output_action_index(n)) is the index of the action that consumes the n-th spend (creates the n-th output); indices are in range and distinct; for larger n the answer is None. If nothing was requested the metadata is the empty one.", "quantifier": "all spend/output lists, all shuffles, all n", "why_tests_cant": "Factorially many shuffles", "anchors": ["src/builder.rs: BundleMetadata, bundle"]}
{"id": "C10", "title": "Bundle value balance equals spends minus outputs, whatever the shuffle", "statement": "If building succeeds with a bundle, its value balance is exactly the total of the requested spends minus the total of the requested outputs, independent of padding and of both shuffles, and the sum over actions of (spend value - output value) equals it.", "quantifier": "all spend/output lists, all randomness", "why_tests_cant": "All shuffles and sizes", "anchors": ["src/builder.rs: bundle", "src/value.rs: ValueSum"]}
{"id": "C11", "title": "Overflow behaviour of building", "statement": "If the requested spends total at most 2^64-1 and the requested outputs total at most 2^64-1, and the net fits the caller's type, then building never fails with a value overflow for any shuffle. Without that bound, success of value_balance() does not determine success of build(): there are requests for which the outcome of build depends on the shuffle.", "quantifier": "all spend/output lists within the bound, all shuffles", "why_tests_cant": "All shuffles and sizes", "anchors": ["src/builder.rs: bundle, Builder::value_balance"]}
{"id": "C12", "title": "Building never trips its internal consistency assertion", "statement": "For every successful path through bundle construction, the binding verification key computed from the binding signing key equals the one computed from the value commitments and the balance, so the assertion in bundle construction cannot fire and no other arithmetic panic occurs.", "quantifier": "all inputs and all randomness", "why_tests_cant": "All inputs, all trapdoors", "anchors": ["src/builder.rs: bundle (assert_eq! on bvk)", "src/value.rs: into_bsk, into_bvk"]}
{"id": "C13", "title": "Building fails only for the documented reasons", "statement": "bundle() returns SpendsDisabled iff spends are requested while disabled; otherwise AnchorMismatch iff some requested non-zero spend's path does not lead to the anchor; otherwise OutputsDisabled iff outputs are requested while disabled; otherwise BundleTypeNotSatisfiable never occurs; otherwise only a value overflow can occur; Ok(None) is returned exactly when the number of actions is zero.", "quantifier": "all inputs, all randomness", "why_tests_cant": "Combinations of flags, lists, anchors, and shuffles", "anchors": ["src/builder.rs: bundle"]}
{"id": "C14", "title": "A built bundle respects flags and anchor", "statement": "The bundle's flags and anchor are those of the builder; if spends (outputs) are disabled then every action's spend (output) is a zero-valued dummy; in a coinbase bundle every spend is a dummy; every non-zero spend in the bundle has an authentication path to the bundle's anchor.", "quantifier": "all inputs, all randomness", "why_tests_cant": "All lists and shuffles", "anchors": ["src/builder.rs: bundle, BundleType::flags"]}
{"id": "C15", "title": "Actions are correctly assembled", "statement": "In each built action, rho of the created note is the nullifier of the note spent in the same action, rk is the spend validating key of that spend randomised by the recorded alpha, cmx is the extracted commitment of the created note, the created note has the requested recipient and value, and the value commitment opens to spend minus output value with the recorded trapdoor.", "quantifier": "all pre-actions, all randomness", "why_tests_cant": "All inputs", "anchors": ["src/builder.rs: ActionInfo::build", "src/circuit.rs: Circuit::from_action_context_unchecked"]}
{"id": "C16", "title": "Finalisation requires every signature and preserves order", "statement": "Finalising a partially authorised bundle succeeds iff every action carries a signature, and then the i-th action of the authorised bundle carries exactly the i-th signature; otherwise it reports MissingSignatures.", "quantifier": "all partially authorised bundles", "why_tests_cant": "Unbounded number of actions and all signing states", "anchors": ["src/builder.rs: Bundle::finalize, MaybeSigned::finalize"]}
{"id": "C17", "title": "Only valid signatures are ever attached", "statement": "In any history of prepare / sign / append_signatures steps, every attached spend authorisation signature verifies under its action's rk for the prepared sighash, and the binding signature verifies under the bundle's binding validating key; hence every authorised bundle produced by the builder passes signature validation.", "quantifier": "all histories of signing steps, all keys, all external signatures (valid or not)", "why_tests_cant": "Unbounded histories with adversarial external signatures", "anchors": ["src/builder.rs: prepare, sign, append_signatures, finalize, apply_signatures", "src/bundle.rs: binding_validating_key"]}
{"id": "C18", "title": "Signing with a key touches exactly its own spends", "statement": "sign(ask) attaches a signature to exactly the not-yet-signed actions whose recorded spend validating key is the one of ask, leaves every other action untouched, never removes a signature, signing again with the same key changes nothing, and the set of signed actions does not depend on the order in which keys are used.", "quantifier": "all bundles in signing state and all keys", "why_tests_cant": "All states and orders", "anchors": ["src/builder.rs: Bundle<InProgress<P, PartiallyAuthorized>>::sign"]}
{"id": "C19", "title": "External signatures attach to exactly one input", "statement": "append_signatures succeeds iff, processing the signatures in order, each is valid for exactly one still-unsigned action; it is then attached there. A signature valid for none yields InvalidExternalSignature, for several yields DuplicateSignature.", "quantifier": "all bundles, all lists of external signatures", "why_tests_cant": "Unbounded lists, adversarial signatures", "anchors": ["src/builder.rs: append_signatures, append_signature"]}
{"id": "C20", "title": "One-shot signing succeeds exactly when all spend keys are supplied", "statement": "apply_signatures succeeds iff for every non-dummy action the list of supplied spend authorising keys contains one whose validating key is the action's; dummy spends are signed automatically.", "quantifier": "all bundles, all key lists", "why_tests_cant": "Unbounded lists", "anchors": ["src/builder.rs: apply_signatures, prepare"]}
{"id": "C21", "title": "Authorising never changes effects", "statement": "Proof creation, preparation, signing, appending and finalising leave nullifiers, rks, cmxs, ciphertexts, value commitments, flags, balance and anchor of every action and their order unchanged; therefore the transaction-id commitment of the bundle is the same before and after authorisation.", "quantifier": "all histories of authorisation steps", "why_tests_cant": "Unbounded histories", "anchors": ["src/action.rs: Action::map, try_map", "src/bundle.rs: map_authorization, try_map_authorization, try_map_value_balance, commitment"]}
{"id": "C22", "title": "Flags byte encoding", "statement": "Flags survive a round trip through their byte; a byte is accepted iff bits 2..7 are clear; accepted bytes re-encode to themselves. The named flag sets are the bytes 3 (enabled), 2 (spends disabled) and 1 (outputs disabled).", "quantifier": "all 256 bytes, all flag values", "why_tests_cant": "Small enough to enumerate, kept because consensus depends on all bytes being handled", "anchors": ["src/bundle.rs: Flags::to_byte, from_byte"]}
{"id": "C23", "title": "The bundle commitment binds all effecting data", "statement": "If two bundles have the same transaction-id commitment, then either all their effecting data (actions' nf, cmx, ephemeral key, ciphertexts, cv, rk; flags; balance; anchor; number and order of actions) are equal, or a collision of the personalised hash is exhibited. No bundle shares the preimage of the absent-bundle commitment.", "quantifier": "all pairs of bundles with any numbers of actions", "why_tests_cant": "All pairs, unbounded sizes; injectivity of concatenation formats", "anchors": ["src/bundle/commitments.rs: hash_bundle_txid_data, hash_bundle_txid_empty"]}
{"id": "C24", "title": "The authorising commitment binds authorising data", "statement": "For bundles with the same number of actions, equal authorising commitments imply equal proofs, spend authorisation signatures and binding signatures, or a hash collision is exhibited. Without the equal-count condition this fails: two bundles with different numbers of actions can have identical preimages. The authorising commitment differs from that of an absent bundle, or the digest collides.", "quantifier": "all pairs of authorised bundles", "why_tests_cant": "All pairs, unbounded sizes", "anchors": ["src/bundle/commitments.rs: hash_bundle_auth_data, hash_bundle_auth_empty"]}
{"id": "C25", "title": "Scanning a bundle with several keys", "statement": "decrypt_outputs_with_keys (recover_outputs_with_ovks) returns, in action order, one entry per action that at least one key decrypts (recovers), attributed to the first such key in the list; decrypt_output_with_key agrees with it for single keys and an out-of-range index yields None.", "quantifier": "all bundles, all key lists", "why_tests_cant": "Unbounded lists", "anchors": ["src/bundle.rs: decrypt_outputs_with_keys, decrypt_output_with_key, recover_outputs_with_ovks, recover_output_with_ovk"]}
{"id": "C26", "title": "Fallible authorisation mapping", "statement": "try_map_authorization succeeds iff every step succeeds, applies the spend step to each action in order and the bundle step to the bundle authorisation, and otherwise reports the error of the first failing action; map_authorization is the special case with no failures. try_map_value_balance changes only the value balance.", "quantifier": "all bundles and step functions", "why_tests_cant": "Unbounded number of actions", "anchors": ["src/bundle.rs: map_authorization, try_map_authorization", "src/bundle.rs: try_map_value_balance"]}
{"id": "C27", "title": "Public inputs determine the instance", "statement": "The vector of nine public inputs of an action is well defined whenever rk is not the identity, and two instances with equal vectors have the same anchor, cv_net, nullifier, rk, cmx and flags; instances of a bundle are produced in action order.", "quantifier": "all instances", "why_tests_cant": "All field/curve elements", "anchors": ["src/circuit.rs: Instance::to_halo2_instance, Instance::from_parts", "src/bundle.rs: to_instances", "src/value.rs: ValueCommitment::x, y"]}
{"id": "C28", "title": "Wide reductions and field conversions", "statement": "to_base and to_scalar reduce the little-endian 512-bit integer modulo the respective field order; converting a base field element to a scalar never fails, preserves its integer value, is injective and maps only zero to zero.", "quantifier": "all 64-byte strings, all base field elements", "why_tests_cant": "2^512 inputs", "anchors": ["src/spec.rs: to_base, to_scalar, mod_r_p"]}
{"id": "C29", "title": "Derived spend keys have the required sign", "statement": "For every spending key with non-zero derived scalar, the spend authorising key generates a validating key whose encoding has a clear top bit, so serialising it never panics, and parsing that serialisation returns the same key.", "quantifier": "all spending keys", "why_tests_cant": "All 2^256 keys", "anchors": ["src/keys.rs: From<&SpendingKey> for SpendAuthorizingKey, SpendValidatingKey::to_bytes, from_bytes"]}
{"id": "C30", "title": "Spending key validation", "statement": "SpendingKey::from_bytes accepts exactly the byte strings whose derived ask is non-zero and whose external and internal incoming viewing keys are valid and non-zero, returns the same bytes, and never panics. SpendingKey::random returns the first acceptable draw and consumes no more.", "quantifier": "all 32-byte strings", "why_tests_cant": "Failure cases occur with probability about 2^-254", "anchors": ["src/keys.rs: SpendingKey::from_bytes, SpendAuthorizingKey::from", "src/keys.rs: SpendingKey::random"]}
{"id": "C31", "title": "Full viewing key encoding is canonical", "statement": "A full viewing key that parses re-encodes to the same 96 bytes; a valid key encodes and parses back to itself; parsing rejects non-canonical field elements, the identity ak, ak with the sign bit set, invalid points, and keys whose external or internal ivk is zero or undefined.", "quantifier": "all 96-byte strings, all full viewing keys", "why_tests_cant": "2^768 inputs", "anchors": ["src/keys.rs: FullViewingKey::from_bytes, to_bytes, read, write"]}
{"id": "C32", "title": "Incoming viewing key and address encodings are canonical", "statement": "IncomingViewingKey and Address round trip through their 64-/43-byte encodings; a parsed encoding re-encodes to itself; zero or non-canonical ivk and identity, non-canonical or off-curve pk_d are rejected.", "quantifier": "all 64-byte and 43-byte strings", "why_tests_cant": "Exponentially many inputs", "anchors": ["src/keys.rs: IncomingViewingKey::to_bytes, from_bytes, DiversifiedTransmissionKey::from_bytes", "src/address.rs: to_raw_address_bytes, from_raw_address_bytes"]}
{"id": "C33", "title": "Diversifier indices are recovered exactly", "statement": "For every incoming viewing key and index j, diversifier_index(address_at(j)) = Some(j); conversely if diversifier_index(addr) = Some(j) then addr = address_at(j), and distinct indices give distinct addresses.", "quantifier": "all incoming viewing keys, all 2^88 indices, all addresses", "why_tests_cant": "2^88 indices per key", "anchors": ["src/keys.rs: IncomingViewingKey::diversifier_index, address_at, DiversifierKey::get, diversifier_index"]}
{"id": "C34", "title": "Address ownership and scope", "statement": "scope_for_address returns External iff the address is derived from the external ivk, Internal iff it is derived from the internal but not the external ivk, and None iff it is derived from neither; address(d, scope) agrees with to_ivk(scope).address(d) and with address_at.", "quantifier": "all full viewing keys and addresses", "why_tests_cant": "All keys and addresses", "anchors": ["src/keys.rs: FullViewingKey::scope_for_address, address, address_at, to_ivk"]}
{"id": "C35", "title": "Key agreement is symmetric", "statement": "For every address of an incoming viewing key and every ephemeral secret, the sender's shared secret (esk with pk_d) equals the recipient's shared secret (ivk with epk), with or without precomputation, and it is never the identity.", "quantifier": "all ivks, diversifiers, ephemeral secrets", "why_tests_cant": "All group elements and scalars", "anchors": ["src/spec.rs: ka_orchard, ka_orchard_prepared", "src/keys.rs: EphemeralSecretKey, EphemeralPublicKey, DiversifiedTransmissionKey::derive"]}
{"id": "C36", "title": "Internal and external keys share spend authority", "statement": "The internal full viewing key has the same ak and nk as the external one, so a note has the same nullifier under both; deriving the internal key of the internal key uses the internal rivk; to_ivk/to_ovk/rivk for the internal scope are those of the internal key.", "quantifier": "all full viewing keys", "why_tests_cant": "All keys", "anchors": ["src/keys.rs: FullViewingKey::derive_internal, rivk, to_ivk, to_ovk"]}
{"id": "C37", "title": "Batched key derivation equals one-at-a-time derivation", "statement": "Deriving symmetric keys for a batch of optional shared secrets gives, position by position, what deriving each one alone would give, with absent entries staying absent.", "quantifier": "all batches", "why_tests_cant": "Unbounded batches with arbitrary positions of absent entries", "anchors": ["src/keys.rs: SharedSecret::batch_to_affine", "src/note_encryption.rs: OrchardDomain::batch_kdf"]}
{"id": "C38", "title": "Notes always have a commitment", "statement": "Every Note value obtainable through the API (from_parts, new, dummy, decryption) has a defined commitment, so commitment() never panics; from_parts succeeds iff the commitment is defined and returns a note with exactly the given parts.", "quantifier": "all note parts, all randomness", "why_tests_cant": "Failure has negligible probability under test sampling", "anchors": ["src/note.rs: Note::from_parts, Note::new, Note::dummy, Note::commitment", "src/note/commitment.rs"]}
{"id": "C39", "title": "Note commitment input is unambiguous", "statement": "The bit string committed by a note commitment has a fixed length and determines diversified base, transmission key, value, rho and psi uniquely, so two notes with equal commitments either agree on all of them or yield a collision of the commitment scheme.", "quantifier": "all pairs of notes", "why_tests_cant": "All pairs of inputs", "anchors": ["src/note/commitment.rs: NoteCommitment::derive", "src/note.rs: Note::commitment"]}
{"id": "C40", "title": "Nullifier formula and Faerie-gold reduction", "statement": "The nullifier is the x-coordinate of cm + [(PRF(rho)+psi) mod p] K; if two notes yield the same nullifier then their commitments satisfy an explicit linear relation with K, up to sign.", "quantifier": "all notes and keys", "why_tests_cant": "All inputs", "anchors": ["src/note/nullifier.rs: Nullifier::derive", "src/note.rs: Note::nullifier"]}
{"id": "C41", "title": "Note plaintext format round trips", "statement": "Encoding a note plaintext and parsing it with the action's rho returns the same note parts (diversifier, value, random seed) and memo; only lead byte 0x02 is accepted; the compact prefix is the first 52 bytes.", "quantifier": "all notes, memos, and all byte strings", "why_tests_cant": "Exponentially many inputs", "anchors": ["src/note_encryption.rs: note_plaintext_bytes, orchard_parse_note_plaintext_without_memo, extract_memo"]}
{"id": "C42", "title": "Recipients can decrypt what builders encrypt", "statement": "For every note to an address of an incoming viewing key, decrypting the ciphertext produced by encryption, in full or compact form, with that key returns exactly the note, its address and (full form) the memo.", "quantifier": "all notes, memos, keys and randomness", "why_tests_cant": "All inputs", "anchors": ["src/note_encryption.rs: OrchardDomain", "src/builder.rs: ActionInfo::build"]}
{"id": "C43", "title": "Senders can recover what they encrypt", "statement": "With the outgoing viewing key used for encryption, output recovery returns exactly the note, the recipient address and the memo.", "quantifier": "all notes, memos, ovks", "why_tests_cant": "All inputs", "anchors": ["src/note_encryption.rs: derive_ock, outgoing_plaintext_bytes, extract_pk_d, extract_esk, parse_note_plaintext_without_memo_ovk"]}
{"id": "C44", "title": "Decryption never returns a wrong note", "statement": "Whatever bytes an action carries, a note returned by trial decryption (full or compact) has a commitment equal to the action's cmx, has rho equal to the action's nullifier, is addressed to the decrypting key, and its ephemeral key matches the action's; likewise for recovery with an outgoing viewing key.", "quantifier": "all (possibly malicious) actions and keys", "why_tests_cant": "Adversarial byte strings", "anchors": ["src/note_encryption.rs: parse_note_plaintext_without_memo_ivk, parse_note_plaintext_without_memo_ovk, cmstar, OrchardDomain::for_action"]}
{"id": "C45", "title": "Merkle paths authenticate against the full tree", "statement": "For every full tree of depth 32 and every position, the root computed from the leaf and its siblings is the tree root; the leaf is placed left or right at level l according to bit l of the position.", "quantifier": "all trees, all 2^32 positions", "why_tests_cant": "2^32 positions, arbitrary leaves", "anchors": ["src/tree.rs: MerklePath::root, MerkleHashOrchard::combine"]}
{"id": "C46", "title": "A Merkle root binds leaf and position", "statement": "If two Merkle paths with the same position lead from two different leaves to the same root, a collision of the level-separated node hash is exhibited; likewise the path itself is bound.", "quantifier": "all paths, leaves and positions", "why_tests_cant": "Adversarial paths", "anchors": ["src/tree.rs: MerklePath::root, MerkleHashOrchard::combine"]}
{"id": "C47", "title": "Empty subtree roots", "statement": "empty_root(l) is the root of the depth-l tree all of whose leaves are the uncommitted value, and the uncommitted leaf value 2 is not the extracted commitment of any note.", "quantifier": "all levels 0..32, all notes", "why_tests_cant": "Second half is a statement about all curve points", "anchors": ["src/tree.rs: EMPTY_ROOTS, UNCOMMITTED_ORCHARD, MerkleHashOrchard::empty_root, empty_leaf"]}
{"id": "C48", "title": "Canonical encodings of field-valued types", "statement": "Anchor, MerkleHashOrchard, Nullifier, ExtractedNoteCommitment, Rho and ValueCommitTrapdoor parse exactly the canonical 32-byte encodings; parsing inverts serialisation and vice versa. Ephemeral secret keys parse exactly the canonical encodings of non-zero scalars. Note values and strings of 8 bytes correspond one to one, as little-endian 64-bit integers.", "quantifier": "all 32-byte strings, all 8-byte strings, all 64-bit values", "why_tests_cant": "2^256 inputs", "anchors": ["src/tree.rs: Anchor::from_bytes, MerkleHashOrchard::from_bytes", "src/note/nullifier.rs: Nullifier::from_bytes", "src/note/commitment.rs: ExtractedNoteCommitment::from_bytes", "src/note.rs: Rho::from_bytes", "src/keys.rs: EphemeralSecretKey::from_bytes", "src/value.rs: NoteValue::from_raw, from_bytes, to_bytes, to_le_bits"]}
{"id": "C49", "title": "Canonical encodings of curve points", "statement": "Value commitments, verification keys and transmission keys parse exactly the canonical compressed encodings: parsing inverts serialisation, an accepted encoding re-encodes to itself, and non-canonical x, off-curve x and a signed identity are rejected.", "quantifier": "all 32-byte strings, all Pallas points", "why_tests_cant": "2^256 inputs", "anchors": ["src/value.rs: ValueCommitment::from_bytes, to_bytes", "src/spec.rs: NonIdentityPallasPoint::from_bytes", "src/primitives/redpallas.rs"]}
{"id": "C50", "title": "Hierarchical derivation follows the path", "statement": "Deriving along a path equals deriving one child at a time (so deriving along a concatenation composes); the derived key has depth equal to the path length, records its parent's tag and index (all zero for the master key); only hardened indices are accepted; seed lengths outside 32..252 bytes are rejected; from_zip32_seed rejects coin types >= 2^31 and otherwise uses the path 32'/coin'/account'.", "quantifier": "all seeds and paths", "why_tests_cant": "Unbounded paths", "anchors": ["src/zip32.rs: ExtendedSpendingKey::from_path, master, derive_child", "src/keys.rs: SpendingKey::from_zip32_seed"]}
{"id": "C51", "title": "The action gate enforces balance, membership and flags", "statement": "For every satisfying assignment of the action gate: v_old - v_new = sign*magnitude; v_old = 0 or root = anchor; v_old = 0 or spends are enabled; v_new = 0 or outputs are enabled. With v_old, v_new 64-bit, magnitude 64-bit and sign = \u00b11 the balance equation holds over the integers. Conversely honest values satisfy it.", "quantifier": "all field assignments", "why_tests_cant": "All assignments of a 255-bit field", "anchors": ["src/circuit.rs: Circuit::configure (Orchard circuit checks)"]}
{"id": "C52", "title": "In-circuit IVK commitment hashes canonical encodings", "statement": "For every satisfying assignment of the CommitIvk decomposition and canonicity constraints, the hashed message is the canonical 255-bit encoding of ak followed by that of nk; and for all ak, nk a satisfying assignment exists.", "quantifier": "all field assignments, all ak, nk", "why_tests_cant": "A malicious prover may choose any assignment; edge cases near the modulus", "anchors": ["src/circuit/commit_ivk.rs: CommitIvkChip::configure, gadgets::commit_ivk"]}
{"id": "C53", "title": "In-circuit note commitment hashes canonical encodings", "statement": "For every satisfying assignment of the NoteCommit decomposition and canonicity constraints, the hashed message is exactly the canonical encoding of g_d, pk_d, the 64-bit value, rho and psi, and the value is below 2^64; and for all inputs a satisfying assignment exists.", "quantifier": "all field assignments, all notes", "why_tests_cant": "A malicious prover may choose any assignment; edge cases near the modulus", "anchors": ["src/circuit/note_commit.rs"]}
{"id": "C54", "title": "The circuit proves the Action statement", "statement": "Any satisfying assignment of the circuit (with the halo2 gadgets meeting their specifications) yields witnesses for the Action statement: old note commitment, Merkle membership or zero value, value-commitment integrity, nullifier integrity, spend authority, diversified address integrity, new note commitment with rho equal to the nullifier, flags.", "quantifier": "all satisfying assignments", "why_tests_cant": "Malicious provers", "anchors": ["src/circuit.rs: Circuit::synthesize", "src/circuit/gadget.rs"]}
{"id": "C55", "title": "Every action the builder produces is provable", "statement": "For every action produced by bundle construction, including dummies, the recorded circuit witness together with the public instance satisfies the circuit's relation.", "quantifier": "all builder inputs and randomness", "why_tests_cant": "All inputs; proofs are too slow to sample", "anchors": ["src/builder.rs: ActionInfo::build", "src/circuit.rs: Circuit::synthesize, Circuit::from_action_context"]}
{"id": "C56", "title": "Circuit construction checks rho", "statement": "Circuit::from_action_context returns a circuit iff the output note's rho is the nullifier of the spent note under the given viewing key, and the circuit then holds exactly the given parts.", "quantifier": "all spend infos and output notes", "why_tests_cant": "All inputs", "anchors": ["src/circuit.rs: Circuit::from_action_context, from_action_context_unchecked"]}
{"id": "C57", "title": "Batch validation accepts exactly when everything is valid", "statement": "After any sequence of add_bundle calls, validate returns true iff every spend authorisation signature verifies under its rk for its bundle's sighash, every binding signature verifies under its bundle's binding validating key, and every proof verifies for its bundle's instances; the empty batch is valid; the order of additions does not matter.", "quantifier": "all sequences of bundles and sighashes", "why_tests_cant": "Unbounded batches, adversarial bundles", "anchors": ["src/bundle/batch.rs: BatchValidator::add_bundle, validate"]}
{"id": "C58", "title": "The Pallas group has prime order and no point with x = 0", "statement": "The Pallas curve y^2 = x^3 + 5 over the base field has exactly q points with q prime, no point has x-coordinate 0, and extracting x-coordinates identifies points exactly up to sign with only the identity mapping to 0.", "quantifier": "all curve points", "why_tests_cant": "2^254 points", "anchors": ["src/spec.rs: extract_p, extract_p_bottom, NonIdentityPallasPoint", "src/constants.rs: T_P, T_Q"]}
{"id": "C59", "title": "Fixed generators and constants are well formed", "statement": "Every hard-coded generator is a canonical encoding of a point on the curve (so the constructors cannot panic), the constants T_P, T_Q and INV_TWO_POW_K satisfy their defining equations.", "quantifier": "every hard-coded table entry", "why_tests_cant": "Finite, but the unwraps run in production for each", "anchors": ["src/constants/fixed_bases/*.rs: GENERATOR, generator", "src/constants/sinsemilla.rs", "src/constants.rs"]}
{"id": "C60", "title": "Bit/integer conversions", "statement": "lebs2ip and i2lebsp are mutually inverse on strings of up to 64 bits, i2lebsp_k/lebs2ip_k on 10 bits; the field version agrees with the integer version. The bits are made by an array loop that calls its closure once for each position, in order, and returns exactly the results.", "quantifier": "all bit strings and integers", "why_tests_cant": "2^64 inputs", "anchors": ["src/spec.rs: lebs2ip, i2lebsp, lebs2ip_field", "src/constants/sinsemilla.rs: lebs2ip_k, i2lebsp_k", "src/constants/util.rs: gen_const_array, gen_const_array_with_default"]}
{"id": "C61", "title": "Primitives follow the protocol specification", "statement": "SinsemillaHashToPoint (10-bit pieces, chord additions, bottom in exceptional cases), Commit^ivk, DiversifyHash, PRF^nf, PRF^expand, ToBase, ToScalar, Extract_P, repr_P and key agreement as computed by the crate equal the functions written in the protocol specification.", "quantifier": "all messages, points, field elements and byte strings, all choices of the hash primitives", "why_tests_cant": "Test vectors fix a handful of inputs; exceptional cases and reductions modulo the two primes are not hit by chance", "anchors": ["src/spec.rs", "src/constants/sinsemilla.rs"]}
{"id": "C62", "title": "Key components are derived as specified", "statement": "ask, ak, nk, rivk of a spending key and ivk, dk, ovk, diversified addresses of a full viewing key, in both scopes, are the values defined in section 4.2.3 of the protocol specification and in ZIP 32.", "quantifier": "all spending keys with non-zero ask, all valid full viewing keys, both scopes, all diversifier indices", "why_tests_cant": "Swapped scopes, domain bytes or halves of the PRF output give self-consistent keys that only a comparison for every key rules out", "anchors": ["src/keys.rs: SpendAuthorizingKey, FullViewingKey, IncomingViewingKey, DiversifierKey", "src/spec.rs: commit_ivk, diversify_hash"]}
{"id": "C63", "title": "Sent outputs are found", "statement": "For a bundle built from a list of requested outputs and then proven and signed, the recipient's incoming viewing key decrypts the j-th requested output at the action index the metadata reports, with the requested value, address and memo; and the outgoing viewing key given for the output recovers the same.", "quantifier": "all request lists, anchors, random draws, signing orders and requested outputs whose address belongs to the key", "why_tests_cant": "Depends on the shuffle, padding and the joint behaviour of builder, encryption and signing for every request list", "anchors": ["src/builder.rs: bundle, BundleMetadata", "src/note_encryption.rs", "src/bundle.rs: decrypt_output_with_key, recover_output_with_ovk"]}
{"id": "C64", "title": "A received note can be spent", "statement": "Whatever an incoming viewing key of a full viewing key decrypts from any action, the note's commitment is the published cmx, its nullifier can be computed, it belongs to the scope of the key, and Builder::add_spend accepts it with every Merkle path leading from that cmx to the builder's anchor.", "quantifier": "all actions, also made by others, all full viewing keys and scopes, all paths and anchors", "why_tests_cant": "Adversarial ciphertexts are not enumerable", "anchors": ["src/note_encryption.rs: parse_note_plaintext_without_memo", "src/builder.rs: add_spend, SpendInfo::has_matching_anchor", "src/keys.rs: scope_for_address"]}
{"id": "C65", "title": "The value balance is the difference of circuit values", "statement": "If for every action of a bundle cells satisfying the Action circuit are known, and a signing key for the bundle's binding validating key, then the bundle's value balance equals the sum of the spent values minus the sum of the output values, or a non-trivial discrete-logarithm relation between the value-commitment generators is explicit; spends or outputs disabled by flags have value zero.", "quantifier": "all bundles up to 2^32 actions, all cell assignments, all signing keys", "why_tests_cant": "A counterexample is an attack that creates money; it would be sought by an adversary, not by a random test", "anchors": ["src/circuit.rs", "src/value.rs", "src/bundle.rs: binding_validating_key"]}
{"id": "C66", "title": "Honestly made bundles are accepted", "statement": "With a complete proof system, a bundle built from valid requests, proven, signed and finalised is accepted by proof verification and by the batch validator; the only exception is a Sinsemilla exception on a Merkle path.", "quantifier": "all requests, anchors, random draws and signing orders", "why_tests_cant": "Needs circuit completeness for every action, including dummies, with all random draws", "anchors": ["src/builder.rs", "src/circuit.rs", "src/bundle/batch.rs"]}
{"id": "C67", "title": "Batched trial decryption equals the single decryption", "statement": "Batched decryption of actions or compact actions with a list of incoming viewing keys reports for each action the first key in the list that decrypts it, with exactly the note and memo that the single-key decryption gives, and nothing if no key does; on a bundle it agrees with decrypt_outputs_with_keys.", "quantifier": "all lists of keys and actions", "why_tests_cant": "Chunking and batching errors show only at particular numbers of keys, outputs and invalid ephemeral keys", "anchors": ["src/note_encryption.rs: BatchDomain, OrchardDomain::batch_kdf", "src/bundle.rs: decrypt_outputs_with_keys"]}
{"id": "C68", "title": "The table layout of the circuit is sound", "statement": "For every floor plan, every table that satisfies the gates of configure on the rows where synthesize enables their selectors, the copy constraints, the instance constraints and the gadgets' contracts contains, in the cells of the private inputs, a witness of the Action statement for the public inputs. So no gate is enabled on the wrong row, no column or rotation is mixed up and no copy is missing.", "quantifier": "all tables, floor plans, public inputs and prover values", "why_tests_cant": "A missing copy constraint or a wrong rotation is accepted by every honest test; it only matters for adversarial tables", "anchors": ["src/circuit.rs: configure, synthesize", "src/circuit/commit_ivk.rs: configure, assign_gate, commit_ivk", "src/circuit/note_commit.rs", "src/circuit/gadget/add_chip.rs"]}
{"id": "C69", "title": "The circuit's shape does not depend on the witness", "statement": "Synthesis for any two witnesses and public inputs enables the same selectors on the same rows, makes the same copies, calls the same gadgets and assigns the same cells; so keys generated without a witness fit every proof.", "quantifier": "all pairs of witnesses and public inputs, all floor plans", "why_tests_cant": "A branch on a witness value shows only for particular values", "anchors": ["src/circuit.rs: synthesize, without_witnesses", "src/circuit/commit_ivk.rs", "src/circuit/note_commit.rs"]}
{"id": "C70", "title": "The prover's table satisfies the circuit", "statement": "For the recorded witness of every action of a built bundle, requested or dummy, the values the prover assigns to cells satisfy all gates, copies, instance constraints and gadget contracts, and copies are made only between columns enabled for equality; the only exception is a Sinsemilla exception on the Merkle path.", "quantifier": "all built bundles, actions, and floor plans that write no cell twice", "why_tests_cant": "Canonicity gates have cases that random field elements never reach", "anchors": ["src/circuit.rs", "src/circuit/commit_ivk.rs", "src/circuit/note_commit.rs", "src/builder.rs"]}
{"id": "C71", "title": "Equality of notes", "statement": "Comparing two notes that can be obtained never panics and returns true exactly if their extracted note commitments (protocol specification) are equal; it is an equivalence relation; notes that agree on everything committed to are equal, and equal notes agree on everything committed to or yield an explicit discrete-logarithm relation.", "quantifier": "all pairs and triples of obtainable notes", "why_tests_cant": "Notes whose equality differs from structural equality never come up by chance", "anchors": ["src/note.rs: impl PartialEq for Note"]}
{"id": "C72", "title": "Outputs without an outgoing viewing key reveal nothing through the outgoing ciphertext", "statement": "When a note is encrypted without an outgoing viewing key, the outgoing ciphertext is the random plaintext sealed under the random key, the same for every note, memo, recipient and commitment; the ephemeral key and the note ciphertext do not depend on the outgoing viewing key, the commitments or the randomness.", "quantifier": "all notes, memos, keys, commitments and randomness", "why_tests_cant": "A leak of the real outgoing plaintext under a random key looks like random bytes", "anchors": ["src/builder.rs: OutputInfo::build", "src/note_encryption.rs"]}
{"id": "C73", "title": "The hard-coded generators are those of the specification", "statement": "The hard-coded generator tables hold exactly the points that hash_to_curve (RFC 9380 suite pallas_XMD:BLAKE2b_SSWU_RO_, down to BLAKE2b) gives on the strings the run-time code and the Sinsemilla crate use; they are pairwise different up to sign; and the diversified base is never the identity, for any diversifier.", "quantifier": "all nine generators; all 11-byte diversifiers", "why_tests_cant": "Tests compare the tables with the same library that computes them at run time; they cannot cover all 2^88 diversifiers", "anchors": ["src/constants/fixed_bases/*.rs: GENERATOR", "src/constants/sinsemilla.rs: Q_*", "src/value.rs: ValueCommitment::derive", "src/note/nullifier.rs: Nullifier::derive", "src/spec.rs: diversify_hash"]}
{"id": "C74", "title": "The fixed-base tables are right", "statement": "For all six fixed bases the tables Z and U have the right size, every entry of U is a canonical encoding, and for every window and digit u squared equals y + z of the point of that window and digit while z - y is not a square, so that the x coordinate leaves no choice of sign; the window counts suffice for all scalars, base field elements and values.", "quantifier": "all bases, windows and digits (3576 entries), all field elements as candidate roots", "why_tests_cant": "The tests compare the tables with library functions that compute them in the same way; that no wrong-sign witness exists is a statement about all field elements", "anchors": ["src/constants/fixed_bases.rs", "src/constants/fixed_bases/*.rs: Z, U, Z_SHORT, U_SHORT"]}
{"id": "C75", "title": "Fixed-base multiplication in the circuit computes exactly the multiple", "statement": "With the crate's tables, the gates of fixed-base multiplication (full-width, short signed and base-field scalars) and of complete addition can be satisfied exactly by the correct output: windows of three bits and the multiple they spell; magnitude below 2^64, sign 1 or -1; the canonical integer of a base field element. No incomplete addition meets an exceptional case.", "quantifier": "all scalars, windows, witnesses and output cells", "why_tests_cant": "Soundness quantifies over all malicious witnesses; exceptional cases have negligible probability in random tests", "anchors": ["src/constants/fixed_bases.rs", "src/circuit/gadget.rs", "src/circuit.rs"]}
{"id": "C76", "title": "The shuffle is fair", "statement": "The shuffle of spends and of outputs is a bijection between the choices it draws and the orders of the list: every order comes from exactly one sequence of in-range choices, so with uniform draws every order is equally likely. At every position of an action each pair of a spend and an output (requested or dummy) occurs in equally many cases, so positions in a bundle tell nothing about requests.", "quantifier": "all lists of any length, all orders, all sequences of choices", "why_tests_cant": "Uniformity over n! orders for every n; a biased or correlated shuffle passes every functional test", "anchors": ["src/builder.rs: bundle"]}
{"id": "C77", "title": "No signing randomness is used twice", "statement": "In a bundle that was prepared and signed with one generator, each action's signature and the binding signature are made from different blocks of the generator's output, with the right key each; blocks still to come were not used. The same for apply_signatures.", "quantifier": "all bundles, key lists, generators and sighashes", "why_tests_cant": "Nonce reuse leaves every signature valid, so verification tests pass; it must be excluded for every mix of dummies, keys and call orders", "anchors": ["src/builder.rs: prepare, sign, apply_signatures", "src/primitives/redpallas.rs"]}
{"id": "C78", "title": "Value commitments, note commitments and randomised keys hide perfectly", "statement": "For every value and point exactly one trapdoor gives that value commitment; for every ak and point exactly one alpha gives that rk; likewise for note commitments where defined. For a whole build: any list of cv_net and rk for its actions comes from exactly one choice of the trapdoors and randomisers, whatever is spent and paid, with unchanged nullifiers.", "quantifier": "all values, keys, notes, requests, points", "why_tests_cant": "A statement about all 2^254 trapdoors and all requests at once; leaking programs behave correctly otherwise", "anchors": ["src/value.rs: ValueCommitment::derive", "src/note/commitment.rs: NoteCommitment::derive", "src/primitives/redpallas.rs: randomize", "src/builder.rs: ActionInfo::build, bundle"]}
{"id": "C79", "title": "Prepared scalars and bases multiply correctly", "statement": "The windowed non-adjacent form that a prepared scalar holds is one (digits zero or odd and small, sparse) and spells the scalar; multiplying a prepared base by a prepared scalar never panics and gives the scalar multiple of the base, so that key agreement and address derivation with prepared keys are the plain ones.", "quantifier": "all scalars, all points; the form for all window sizes 2 to 63 and all byte strings without the top bit", "why_tests_cant": "Windows across limb boundaries and carries at the top occur for rare scalars only; 2^254 scalars", "anchors": ["src/spec.rs: PreparedNonIdentityBase, PreparedNonZeroScalar, ka_orchard, ka_orchard_prepared, PREPARED_WINDOW_SIZE", "src/keys.rs: PreparedIncomingViewingKey, PreparedEphemeralPublicKey"]}
{"id": "C80", "title": "The roots of empty trees are the published ones", "statement": "With the hash functions of Zcash, the root of the empty subtree of every height from 0 to 32 that the code computes, and so the anchor of the empty tree, is byte for byte the published one.", "quantifier": "all levels on which empty_root is defined (0 to 32)", "why_tests_cant": "A test compares running code with the table; the theorem ties the specification of the tree (not the running code) and the published constants, down to BLAKE2b and curve arithmetic.", "anchors": ["src/tree.rs: EMPTY_ROOTS, empty_root, Anchor::empty_tree, MerkleHashOrchard::combine", "src/test_vectors/commitment_tree.rs: EMPTY_ROOTS"]}
{"id": "C81", "title": "The gates of the model are those of the pinned verification key", "statement": "The constraint system recorded in src/circuit_description (which the verification key is compared with) consists, polynomial by polynomial, of the gates that the model of configure creates, multiplied with their selectors: this crate's 25 gates on their columns and the gates and lookups of the gadgets. On every row its 193 polynomials vanish exactly if those of the selected gates do, so C68 (soundness) and C70 (completeness) hold with the pinned gates in place of the model's.", "quantifier": "all rows (contents of advice and fixed columns), all tables, all floor plans, all witnesses", "why_tests_cant": "The test compares a debug string of the compiled key with the file; it does not say what the polynomials mean or that they enforce the statement.", "anchors": ["src/circuit_description", "src/circuit.rs:197-382 Circuit::configure", "src/circuit.rs:1045-1054 round_trip test", "src/circuit/commit_ivk.rs: configure", "src/circuit/note_commit.rs: configure", "src/circuit/gadget/add_chip.rs: configure"]}
{"id": "C82", "title": "Range checks of the gadgets hold by the pinned lookups", "statement": "On any table that satisfies the pinned gates and lookups, with the Sinsemilla table loaded: a range check of n words decomposes its element into a number below 2^(10n) plus 2^(10n) times its last cell, a strict check (n at most 25) bounds the element by 2^(10n), a short check of up to 10 bits bounds it by 2^bits.", "quantifier": "all tables and fixed columns, all places, all numbers of words", "why_tests_cant": "The prover in a test assigns honest values only; a dishonest assignment of 20000 field elements is never tried, and a missing constraint shows on dishonest ones only.", "anchors": ["src/circuit_description", "src/circuit.rs:197-382 Circuit::configure", "src/circuit.rs:299 LookupRangeCheckConfig::configure", "src/circuit/note_commit.rs: range checks", "src/circuit/commit_ivk.rs: range checks"]}
{"id": "C83", "title": "Sinsemilla hashes in the circuit are those of the witnessed pieces", "statement": "On any such table, with either of the two Sinsemilla chips: the cells of the pieces of a hashed message contain numbers of the pieces' lengths, and the result cells contain the Sinsemilla hash of the bits of these numbers whenever it is defined.", "quantifier": "all tables, both chips, all initial points, all lists of pieces of 1 to 25 words", "why_tests_cant": "The prover in a test assigns honest values only; a dishonest assignment of 20000 field elements is never tried, and a missing constraint shows on dishonest ones only.", "anchors": ["src/circuit_description", "src/circuit.rs:197-382 Circuit::configure", "src/circuit.rs:321-351 sinsemilla and merkle configs", "src/constants/sinsemilla.rs"]}
{"id": "C84", "title": "Merkle paths in the circuit give the root", "statement": "On any such table: the swap cells of a Merkle path contain the bits of a position, and the final node is the root computed from leaf, siblings and position with the layer number in each hash (with encodings of nodes that need not be canonical).", "quantifier": "all tables, all placements of up to 2^10 layers on either chip, all leaves", "why_tests_cant": "The prover in a test assigns honest values only; a dishonest assignment of 20000 field elements is never tried, and a missing constraint shows on dishonest ones only.", "anchors": ["src/circuit_description", "src/circuit.rs:197-382 Circuit::configure", "src/circuit.rs:458-471 Merkle path", "src/constants/sinsemilla.rs: MERKLE_CRH_PERSONALIZATION"]}
{"id": "C85", "title": "Variable-base multiplication in the circuit multiplies by the canonical integer", "statement": "On any such table: the result of variable-base scalar multiplication of a point other than the identity by a base field element is the multiple by the canonical integer of the element; no alias modulo the other field's order is possible.", "quantifier": "all tables, all points other than the identity, all base field elements", "why_tests_cant": "The prover in a test assigns honest values only; a dishonest assignment of 20000 field elements is never tried, and a missing constraint shows on dishonest ones only.", "anchors": ["src/circuit_description", "src/circuit.rs:197-382 Circuit::configure", "src/circuit.rs:590-605 [ivk] g_d_old"]}
{"id": "C86", "title": "Poseidon in the circuit is Poseidon", "statement": "On any such table: the Poseidon gadget's result is the Poseidon hash (P128Pow5T3, constant length 2) of its two inputs.", "quantifier": "all tables, all inputs", "why_tests_cant": "The prover in a test assigns honest values only; a dishonest assignment of 20000 field elements is never tried, and a missing constraint shows on dishonest ones only.", "anchors": ["src/circuit_description", "src/circuit.rs:197-382 Circuit::configure", "src/circuit.rs:306-315 PoseidonChip::configure", "src/circuit/gadget.rs:148-215 derive_nullifier"]}
{"id": "C87", "title": "Points, additions and fixed-base multiplications in the circuit are right", "statement": "On any such table: witnessed points are curve points or the identity, witnessed non-identity points are not the identity, complete additions give the sum of any two points, and fixed-base multiplications by full-width scalars, short signed scalars and base field elements give the right multiple of the crate's generators.", "quantifier": "all tables, all placements, all points, all fixed bases of the crate", "why_tests_cant": "The prover in a test assigns honest values only; a dishonest assignment of 20000 field elements is never tried, and a missing constraint shows on dishonest ones only.", "anchors": ["src/circuit_description", "src/circuit.rs:197-382 Circuit::configure", "src/constants/fixed_bases.rs", "src/constants/fixed_bases/*.rs", "src/circuit/gadget.rs"]}
{"id": "C88", "title": "Soundness of the circuit from its pinned gates and lookups", "statement": "Take any table and fixed columns satisfying the pinned gates and lookups, with the selectors, lookup table, copy constraints and gadget regions that synthesis sets and the public inputs in the instance column. Then the cells of the private inputs contain a witness of the Action statement. No contract of a gadget is assumed: each follows from the gates.", "quantifier": "all tables, all fixed columns, all floor plans, all instances", "why_tests_cant": "The prover in a test assigns honest values only; a dishonest assignment of 20000 field elements is never tried, and a missing constraint shows on dishonest ones only.", "anchors": ["src/circuit_description", "src/circuit.rs:197-382 Circuit::configure", "src/circuit.rs:385-753 Circuit::synthesize", "src/circuit/gadget.rs", "src/circuit/note_commit.rs", "src/circuit/commit_ivk.rs"]}
{"id": "C89", "title": "Completeness of the circuit down to its pinned gates and lookups", "statement": "There are one floor plan and one assignment of the fixed columns (selectors, constants, lookup table: the contents of the verifying key) such that every Action statement that is true with a witness for which all hashes exist has a table of advice cells satisfying all pinned gates and lookups, with all gadget regions, copy constraints and public inputs in place. In particular the honest prover's assignment always exists within the 2048 rows, no constraint excludes it, and the soundness theorem C88 is not vacuous. The constants of the pinned Sinsemilla lookups are the generator of the word 0.", "quantifier": "all true statements (all instances and witnesses), with the same fixed columns", "why_tests_cant": "A test proves a handful of random actions; a corner of the witness space for which the gates have no solution (an exceptional addition, a carry, an inverse of zero) would make funds unspendable and not show.", "anchors": ["src/circuit_description", "src/circuit.rs:197-382 Circuit::configure", "src/circuit.rs:385-753 Circuit::synthesize", "src/circuit/gadget.rs", "src/circuit/note_commit.rs", "src/circuit/commit_ivk.rs"]}
{"id": "C90", "title": "RedPallas signatures", "statement": "Spend authorisation and binding signatures verify exactly if their halves are the canonical encodings of a point R and a scalar S with [S] B = R + [c] vk, where c is the BLAKE2b-512 hash (personalisation Zcash_RedPallasH) of R, the key and the message, and B the base of the signature type. Signing gives such a signature. The first half determines the second. Two signatures with the same R and different challenges give the signing key away, also when each is valid for its own hash function. For every key, challenge and response exactly one R fits, which is found without the signing key, and exactly one nonce of the holder of the key leads to it. Randomising key pairs gives key pairs, randomisers add up, zero changes nothing. Signing keys parse exactly the canonical encodings of scalars.", "quantifier": "all keys, messages, signatures, randomness and hash functions", "why_tests_cant": "Malleable encodings and non-canonical scalars are a negligible fraction of the strings; tests only verify signatures made by the signer.", "anchors": ["src/primitives/redpallas.rs"]}
{"id": "C91", "title": "Equality and order of keys and nullifiers", "statement": "The comparison of verification keys, spend validating keys, full and incoming viewing keys, diversifier keys, nullifiers and rho is a total order in which only equal values compare equal. Verification keys are ordered by the first differing byte of the encoding, field elements by their canonical integers, viewing keys lexicographically (ak, nk, rivk; dk, ivk). Equality and constant-time equality, decided on encodings, are equality.", "quantifier": "all pairs and triples of values", "why_tests_cant": "Transitivity and consistency of Eq with Ord over triples of 256-bit values; a violation corrupts ordered maps silently.", "anchors": ["src/primitives/redpallas.rs:94-112", "src/keys.rs:43-47,158,173-177,227,268,306,476,551,615", "src/note/nullifier.rs:15", "src/note.rs:24"]}
{"id": "C92", "title": "No inflation on a chain of accepted bundles", "statement": "On every chain of accepted bundles (anchors are roots of earlier trees, nullifiers never repeat, every action satisfies the Action statement, binding signing keys are known) each spend of non-zero value spends a note created by an earlier bundle with exactly the contents it was created with, no created note is spent twice, and the pool balance is exactly the value of the created and unspent notes, so it is never negative; a note addressed to a full viewing key reveals the nullifier its holder computes and needs a signature under a randomisation of its spend validating key. Otherwise the chain exhibits an explicit discrete-logarithm relation with coefficients computed from values on the chain. Conversely an honestly built bundle for an earlier root, with fresh nullifiers, may always follow the chain.", "quantifier": "all chains of any number of bundles of any size, all secrets", "why_tests_cant": "A statement about all adversarial chains and all secrets; counterfeiting needs inputs that no test generates.", "anchors": ["src/bundle.rs:31-41,291-296,397-405", "src/circuit.rs:214-600", "src/note/commitment.rs:43-89", "src/note/nullifier.rs:52-66", "src/tree.rs:40-155", "src/spec.rs:201-215", "src/value.rs:253-389", "src/builder.rs:561-740"]}
{"id": "C93", "title": "Reported heap usage covers what is stored and lies within the reported bounds", "statement": "The heap usage reported for an authorised bundle is exactly the room allocated for the actions after the first (which is stored inline), plus the usage of the value balance, plus the room allocated for the proof; it covers all actions and proof bytes, lies within the reported bounds whenever the same holds for the value balance, and the bounds are unknown exactly when those of the value balance are. A prepared key accounts for its digits; actions, nullifiers and domains use no heap.", "quantifier": "all authorised bundles of any size, all value types, all capacities", "why_tests_cant": "Arbitrary bundle sizes, capacities and value types; the crate has no test of it.", "anchors": ["src/bundle.rs:459-483", "src/circuit.rs:884-892", "src/action.rs:109-119", "src/spec.rs:156-164", "src/keys.rs:684-692", "src/note_encryption.rs:87-95"]}
{"id": "C94", "title": "Received notes are real, stay spendable, and are spent only by their holder", "statement": "Whatever a wallet decrypts from an action on a chain of accepted bundles is the note that the action creates, with the value that counts in the pool. With the Merkle path of its leaf, add_spend accepts it in every builder whose anchor is the root of a state of the tree that contains it. If an action on the chain reveals the nullifier of a note addressed to a full viewing key, the action spends exactly this note and its signature validates under a randomisation of that key's spend validating key (up to sign); so as long as the holder has not spent the note, its nullifier is fresh and nobody can make the note unspendable. Otherwise an explicit discrete-logarithm relation among the protocol's generators, computed from the openings, is exhibited.", "quantifier": "all chains of any number of bundles of any size, all secrets, all full viewing keys, notes and builders", "why_tests_cant": "Adversarial senders choose the colliding note, nullifier and path; no sample of honest transactions covers them.", "anchors": ["src/note_encryption.rs:97-330", "src/note/nullifier.rs:52-66", "src/note.rs:150-290", "src/note/commitment.rs:43-89", "src/builder.rs:455-481", "src/tree.rs:100-155", "src/circuit.rs:214-600", "src/spec.rs:201-215"]}
{"id": "C95", "title": "Payments with received notes go through, and can be passed on", "statement": "Take any chain of accepted bundles and notes received on it (decrypted with a valid full viewing key) together with the Merkle paths of their leaves in any state of the tree that contains them. Any request to spend them and to pay any outputs can be built for the root of that state, if the type of bundle allows it, the totals fit into 64 bits and the difference fits the balance type. The built bundle, proven and signed with the keys of the notes, is valid; if the notes are different notes, not yet spent by their holder, and the nullifiers of the dummy notes are fresh, the chain accepts it, and every recipient decrypts from the longer chain a note of the requested value with the requested memo, to which the same applies again. Otherwise an explicit discrete-logarithm relation (or a Sinsemilla exception, which is one) is exhibited.", "quantifier": "all chains, all sets of received notes, all outputs, keys, random values, proof systems that are complete", "why_tests_cant": "The claim composes key derivation, decryption, tree, builder, prover, signer and consensus rules over chains of any length with adversarial bundles in between.", "anchors": ["src/builder.rs:455-760", "src/builder.rs:830-990", "src/note_encryption.rs:97-330", "src/note/nullifier.rs:52-66", "src/tree.rs:100-155", "src/bundle.rs:380-470", "src/circuit.rs:214-600"]}
{"id": "C96", "title": "Signatures do not tell who signs", "statement": "Two bundles that are ready for signing and whose actions have the same cv_net and rk, and with the same balance, get the same spend authorisation and binding signatures from apply_signatures for every message, whatever is spent and paid in them and whosever keys sign them, up to an order of the generator's blocks that does not depend on the generator or the message. For any two requests with the same number of actions and the same balance, every choice of trapdoors and randomisers of the first corresponds to exactly one of the second with equal cv_net, rk and signatures. So with uniform draws these published values depend only on the number of actions and the balance.", "quantifier": "all pairs of requests, all keys, generators, messages and proofs", "why_tests_cant": "It is a statement about distributions over all randomness; no number of runs shows that two distributions are equal.", "anchors": ["src/builder.rs:320-440", "src/builder.rs:561-700", "src/builder.rs:811-934", "src/primitives/redpallas.rs:95-200", "src/value.rs:270-360"]}
{"id": "C97", "title": "Building with one random number generator", "statement": "Building a bundle with any random number generator from which keys, points, seeds, paths, shuffle positions, trapdoors, randomisers and padding of outgoing ciphertexts are drawn one after the other gives the same outcome as building with separately chosen random values. When a bundle is built, these values are listed in a fixed order, each once; each is made, in a stated way, from consecutive calls of the generator, and no two values share a call. So no randomness is reused, and with a generator whose calls are independent all values are independent. A shuffle position is chosen fairly: every position stands for the same number of answers of the generator, and at least half of the answers are accepted. With a generator that never returns a key with ask = 0, building does not panic. The number of rounds allowed to the rejection loops does not change the outcome of a build that ends.", "quantifier": "all generators, all requests, all primitives, all numbers of rounds of the rejection loops", "why_tests_cant": "Reused or reordered randomness does not show in any single run; rejection loops make the number of calls unbounded; and fairness is a statement about all answers of the generator.", "anchors": ["src/builder.rs:240-253", "src/builder.rs:298-303", "src/builder.rs:315-369", "src/builder.rs:543-680", "src/note.rs:67-76", "src/note.rs:189-224", "src/note/nullifier.rs:34-36", "src/keys.rs:56-65", "src/tree.rs:117-123", "src/value.rs:250-256"]}
{"id": "C98", "title": "Random values are drawn fairly", "statement": "If the answers of the generator are uniform, every scalar and every element of the base field is drawn with almost the same probability: the numbers of answers that give two elements differ by at most one, and each element has more than 2^257 of them. The same holds for 64-byte hash values turned into scalars and base field elements. So every point is equally likely, up to this, as a value commitment whatever the value, and as a randomised validating key whatever the key. Every acceptable spending key, every acceptable seed of a new note and every order of a shuffle of distinct elements has exactly the same number of answers as any other. In a whole build with n actions, the probability of prescribed values of all cv_net and rk is the same for any two requests, up to a factor of (1 + 2^-257)^(2n); this holds also for a build that draws everything from one generator, over the answers to the calls behind trapdoors and randomizers, whatever the other answers.", "quantifier": "all generators, positions of the calls, values, keys, recipients, lists, numbers of rounds; all requests that can be built, all prescribed values; all primitives", "why_tests_cant": "Fairness counts all answers of the generator, up to 2^512 for a single scalar; no sample shows that two keys, seeds or orders are equally likely, and a bias in a rejection loop is too small to be seen.", "anchors": ["src/value.rs:250-256", "src/builder.rs:315-369", "src/builder.rs:609-610", "src/keys.rs:56-65", "src/note.rs:67-76", "src/note.rs:189-202", "src/spec.rs:170-188", "src/primitives/redpallas.rs:121-126"]}
{"id": "C99", "title": "Generators of values, keys, addresses and notes for property testing", "statement": "Each generator of the crate's public test support yields exactly the values it stands for: all scalars and base field elements; value sums and note values within their bounds; exactly the valid spending keys; non-zero ephemeral secrets; all signing keys and all multiples of the base point; exactly the external addresses of valid keys; and all notes of the given value for such addresses. The generators of numbers never panic unless the range is empty; the others panic only on bytes with ask = 0. fake_compact_action returns a note for the given recipient, value and nullifier with its commitment and an encryption that every incoming viewing key owning the address decrypts, or panics if the note with the drawn seed has no commitment; the outgoing key has no influence.", "quantifier": "all outcomes of all generators, all bounds, all primitives, all draws", "why_tests_cant": "The generators are what the tests of this crate and of its users draw from: a value they never yield is never tested, and a value they must not yield makes correct code fail. No run shows what is never generated.", "anchors": ["src/value.rs:363-423", "src/keys.rs:914-964", "src/address.rs:70-87", "src/note.rs:319-350", "src/note/nullifier.rs:74-92", "src/primitives/redpallas.rs:185-225", "src/note_encryption.rs:345-395"]}
{"id": "C100", "title": "Generated bundles balance", "statement": "For every number of actions n from 1 on, every bundle that arb_unauthorized_bundle(n) or arb_bundle(n) yields has n actions whose note and value commitments are to drawn notes and values; the value balance is the exact difference of what is spent and created; values forbidden by the flags are zero; nothing can overflow; the value commitments add up to the commitment to the balance with trapdoor zero. Every permitted choice of flags and values occurs. Authorised bundles carry signatures that the randomized keys verify for some message. The generators panic only if some bytes have ask = 0 or a note has no commitment, and on every use for n = 0.", "quantifier": "all numbers of actions, all outcomes, all flags and values, all primitives", "why_tests_cant": "The claim is about all bundles that can ever be generated, for all numbers of actions, and about all choices being reachable.", "anchors": ["src/bundle.rs:505-657", "src/action.rs:124-207"]}
{"id": "C101", "title": "Bundles generated with the builder", "statement": "Every bundle that the builder-based generators arb_bundle and arb_bundle_with_key return is valid: with a complete proof system its proof, signatures, and balance verify for the message of zeros (unless a Merkle path has a Sinsemilla exception). With enough draws, no drawn key with ask = 0 and no identity as randomized key, they return one exactly for inputs that can be used: notes and outputs for addresses of the key, paths that lead to the anchor, a balance of the caller's type; on all other inputs they panic. Which inputs occur is stated exactly: one to 29 notes and outputs for addresses of arbitrary keys, each path taken in the tree of the notes so far, the anchor of the tree of all notes. Hence with two or more notes the inputs can be used only if the tree's hash collides on given nodes, and for every key the generators can panic (which contradicts their documentation).", "quantifier": "all keys, outcomes of the generators, random values, provers, primitives", "why_tests_cant": "The generators draw random notes, addresses and values; a test only shows the outcome for the inputs it happens to draw, and their failure is the failure of the test that uses them.", "anchors": ["src/builder.rs:973-1107"]}
{"id": "C102", "title": "The randomised tests pass", "statement": "Every run of the crate's tests on random inputs passes. The value commitment test bsk_consistent_with_bvk and diversifier_index pass on every drawn input; key_agreement passes on every drawn input, and panics only if a drawn spending key has ask = 0. With a complete proof system whose proofs consist of what C105 counts, random values that end every rejection loop, no drawn key with ask = 0 and no identity as randomised key, shielding_bundle, bundle_chain (for every valid spending key) and round_trip pass, the first two for every amount up to 2^63; the only exceptions are a Sinsemilla exception on a Merkle path and, for bundle_chain, an action that decrypts to a note of another value than the one it was made for, and both give an explicit discrete-logarithm relation.", "quantifier": "all random values, spending keys, amounts, complete proof systems, primitives", "why_tests_cant": "These are the tests: each run looks at one draw of the random values; that no draw makes them fail is a statement about all draws.", "anchors": ["src/value.rs:435-467", "src/keys.rs:997-1024", "src/builder.rs:1125-1155", "src/circuit.rs:978-1088", "tests/builder.rs:17-122"]}
{"id": "C103", "title": "The proof test case file", "statement": "The test case that proof tests store in a file (circuit.rs) has a fixed layout: anchor, net value commitment, nullifier, randomised key and note commitment with 32 canonical bytes each, two bytes that are 0 or 1, then the proof. Writing produces exactly such a file; reading returns instance and proof exactly for files with such a layout and panics for all others, so reading inverts writing. A file regenerated by the test passes the test that reads it, for every complete proof system and all random values as in C102, up to a Sinsemilla exception that gives a discrete-logarithm relation. The file in the repository has this layout with a 4992-byte proof, a randomised key that is not the identity and both flags set, so the test on it passes exactly if the verifier accepts.", "quantifier": "all byte strings, instances, proofs, random values, proof systems", "why_tests_cant": "The test reads one file; that no other byte string is misread, and that every regenerated file is accepted again, concerns all files.", "anchors": ["src/circuit.rs:1090-1174"]}
{"id": "C104", "title": "The unit tests pass, for all inputs they make sense for", "statement": "The crate's unit tests that do not compare with test vectors pass, and not only on the inputs written in them. The round trips between integers and bit strings pass for every integer and every bit string of at most 64 bits (and panic for longer ones), those of K bits for every integer below 1024 and every string of 10 bits. The tests of t_p, t_q and the inverse of 2^K pass. The test of a tabulated point passes exactly if the table decodes to that point; with hash-to-curve as specified all nine tabulated points pass, and the substitute diversified base is not the identity. The test of fixed-base tables passes exactly if the tables fit their base, and passes for all six bases; the test of their interpolation passes exactly if no point of a window is the identity, and passes for all six bases. The parser tests pass. The ZIP 32 tests pass exactly if all spending keys on the path are valid, for every seed of allowed length and all indices. The circuit tests of Commit^ivk and NoteCommit pass exactly if the commitment is defined (and, for NoteCommit, not the identity), for all inputs; NoteCommit's panics if a coordinate belongs to no point.", "quantifier": "all integers, bit strings, tables, seeds, indices, field elements, primitives", "why_tests_cant": "These are the tests: each looks at a few inputs. For which inputs they pass is a statement about all of them.", "anchors": ["src/spec.rs:312-364", "src/constants.rs:40-62", "src/constants/sinsemilla.rs:140-233", "src/constants/fixed_bases/spend_auth_g.rs:2930-2963", "src/keys.rs:981-995", "src/zip32.rs:240-278", "src/circuit/commit_ivk.rs:691-901", "src/circuit/note_commit.rs:2051-2359"]}
{"id": "C105", "title": "Sizes of proofs", "statement": "A proof for n > 0 actions consists of 85 + 71 n compressed points and scalars, that is 2720 + 2272 n bytes, as follows from the constraint system pinned in circuit_description; in particular 4992 bytes for one action and 7264 for two, the numbers the test asserts, and the size of a proof determines the number of actions. Polynomials are opened at five different sets of points, however many actions there are. The pinned lists of queries are exactly what gates, lookups and the permutation argument need. The pinned fields are those of the curves, the pinned root of unity has order 2^K, the gates have degree at most 9 and some have degree 9, the constraints of the lookups stay within this degree, and the extended domain is the least with room for the quotient.", "quantifier": "all numbers of actions", "why_tests_cant": "The test looks at one and two actions; consensus rules use the formula for every number of actions.", "anchors": ["src/circuit.rs:1055-1065", "src/circuit.rs:66-67", "src/circuit_description"]}
{"id": "C106", "title": "Incremental note commitment trees", "statement": "Keeping the note commitment tree as a frontier (last leaf and roots of the complete subtrees to its left) over the node hash and the empty roots of this crate is correct: after appending any leaves, at most 2^32, the frontier's root is the root of the tree of height 32 with these leaves and empty leaves after them; it holds exactly one subtree root for each set bit of the last position; further leaves are accepted until there are 2^32 and then refused without change; the path taken for the last leaf is its path in the tree, also when later leaves are known from elsewhere, and leads to the anchor; if a sibling to the right is not known the result is an error. The generator arb_bundle_inputs, written with the frontier, gives the same anchors and paths as when written with the whole tree. Converting such a path into the crate's MerklePath cuts the position to 32 bits without changing any root, and panics (from a vector) unless there are 32 siblings. The test anchor_incremental passes.", "quantifier": "all leaves up to 2^32, all positions, callbacks, paths, primitives", "why_tests_cant": "The test appends five leaves; carries through many levels and the full tree of 2^32 leaves are out of reach.", "anchors": ["src/tree.rs:95-113", "src/tree.rs:210-244", "src/tree.rs:354-401", "src/builder.rs:1068-1091"]}
{"id": "C107", "title": "Printed errors, proofs and ciphertexts", "statement": "Two errors of bundle construction print the same text exactly if they are equal, or are errors of the prover whose own texts agree, or say that spends respectively outputs are disabled (whose texts are the same: a mistake in the code); errors of adding spends print different texts; all errors of key derivation print the same text (another mistake). Debug output of a proof shows its length and nothing else, unless the alternate form is asked for, which shows every byte; that of a transmitted ciphertext shows every byte; that of a compact action shows nothing of its contents. The errors of adding outputs and of value overflow print texts of their own. A bundle prints all its actions in order, its flags, value balance, anchor and authorisation.", "quantifier": "all errors, proofs, ciphertexts, compact actions", "why_tests_cant": "No test looks at these texts; that texts determine what was printed is a statement about all pairs.", "anchors": ["src/builder.rs:135-202", "src/value.rs:77-81", "src/zip32.rs:28-32", "src/circuit.rs:865-876", "src/note.rs:306-314", "src/note_encryption.rs:278-282", "src/bundle.rs:167-185"]}
{"id": "C108", "title": "Keys in streams and serialised Merkle hashes", "statement": "Reading a full viewing key takes exactly 96 bytes, however they arrive and however often the reader is interrupted: it returns the key whose encoding they are if that key is valid, and InvalidInput otherwise; from a reader that delivers fewer bytes it returns the reader's own error, or UnexpectedEof. It never panics. Writing writes a prefix of the encoding, all of it exactly if it succeeds, and fails only with an error of the writer. A valid key that was written is read back, and what follows it is left in the reader. A Merkle hash is deserialised exactly from the canonical 32 bytes; errors of the format are passed on; what was serialised is read back in any format that reads back the arrays it writes.", "quantifier": "all keys, all byte streams in all fragmentations with interruptions and errors, all data formats", "why_tests_cant": "Unboundedly many fragmentations of streams and 2^768 encodings; formats are abstract", "anchors": ["src/keys.rs: FullViewingKey::read, FullViewingKey::write", "src/tree.rs: Serialize for MerkleHashOrchard, Deserialize for MerkleHashOrchard"]}
