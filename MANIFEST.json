{
 "claims": [
  {
   "property": "C01",
   "status": "proved",
   "theorems": [
    "Orchard.C01_sub_exact",
    "Orchard.C01_add_exact",
    "Orchard.C01_sum_exact",
    "Orchard.C01_sum_sound",
    "Orchard.C01_toI64_exact"
   ],
   "note": "value.rs NoteValue/ValueSum arithmetic with explicit i128/u64/i64 checks"
  },
  {
   "property": "C02",
   "status": "proved",
   "theorems": [
    "Orchard.C02_constructible_inRange",
    "Orchard.C02_magnitude_sign"
   ],
   "note": ""
  },
  {
   "property": "C03",
   "status": "proved",
   "theorems": [
    "Orchard.C03_derive",
    "Orchard.C03_homomorphic"
   ],
   "note": ""
  },
  {
   "property": "C04",
   "status": "proved",
   "theorems": [
    "Orchard.C04_bundle_balance",
    "Orchard.C04_balance_binding"
   ],
   "note": ""
  },
  {
   "property": "C05",
   "status": "proved",
   "theorems": [
    "Orchard.C05_transactional",
    "Orchard.C05_coinbase",
    "Orchard.C05_built",
    "Orchard.C05_default",
    "Orchard.C05_disabled"
   ],
   "note": ""
  },
  {
   "property": "C06",
   "status": "proved",
   "theorems": [
    "Orchard.C06_add_spend",
    "Orchard.C06_add_output",
    "Orchard.C06_history"
   ],
   "note": ""
  },
  {
   "property": "C07",
   "status": "proved",
   "theorems": [
    "Orchard.C07_value_balance",
    "Orchard.C07_views"
   ],
   "note": ""
  },
  {
   "property": "C08",
   "status": "proved",
   "theorems": [
    "Orchard.C08_each_once"
   ],
   "note": ""
  },
  {
   "property": "C09",
   "status": "proved",
   "theorems": [
    "Orchard.C09_metadata",
    "Orchard.C09_only_dummies"
   ],
   "note": ""
  },
  {
   "property": "C10",
   "status": "proved",
   "theorems": [
    "Orchard.C10_value_balance"
   ],
   "note": ""
  },
  {
   "property": "C11",
   "status": "proved",
   "theorems": [
    "Orchard.C11_no_overflow",
    "Orchard.C11_depends_on_shuffle",
    "Orchard.C11_value_balance_not_necessary"
   ],
   "note": ""
  },
  {
   "property": "C12",
   "status": "proved",
   "theorems": [
    "Orchard.C12_no_panic",
    "Orchard.C12_binding_key",
    "Orchard.C12_after_any_history"
   ],
   "note": ""
  },
  {
   "property": "C13",
   "status": "proved",
   "theorems": [
    "Orchard.C13_outcome",
    "Orchard.C13_only_errors"
   ],
   "note": ""
  },
  {
   "property": "C14",
   "status": "proved",
   "theorems": [
    "Orchard.C14_flags_anchor",
    "Orchard.C14_coinbase"
   ],
   "note": ""
  },
  {
   "property": "C15",
   "status": "proved",
   "theorems": [
    "Orchard.C15_action"
   ],
   "note": ""
  },
  {
   "property": "C16",
   "status": "proved",
   "theorems": [
    "Orchard.C16_finalize"
   ],
   "note": ""
  },
  {
   "property": "C17",
   "status": "proved",
   "theorems": [
    "Orchard.C17_history",
    "Orchard.C17_built_signable",
    "Orchard.C17_authorized",
    "Orchard.C17_reachable"
   ],
   "note": ""
  },
  {
   "property": "C18",
   "status": "proved",
   "theorems": [
    "Orchard.C18_sign",
    "Orchard.C18_idempotent",
    "Orchard.C18_signed_set",
    "Orchard.C18_order_independent"
   ],
   "note": ""
  },
  {
   "property": "C19",
   "status": "proved",
   "theorems": [
    "Orchard.C19_append_signatures"
   ],
   "note": ""
  },
  {
   "property": "C20",
   "status": "proved",
   "theorems": [
    "Orchard.C20_apply_signatures",
    "Orchard.C20_builder"
   ],
   "note": ""
  },
  {
   "property": "C21",
   "status": "proved",
   "theorems": [
    "Orchard.C21_create_proof",
    "Orchard.C21_effects",
    "Orchard.C21_commitment"
   ],
   "note": ""
  },
  {
   "property": "C22",
   "status": "proved",
   "theorems": [
    "Orchard.C22_to_byte",
    "Orchard.C22_constants",
    "Orchard.C22_from_byte"
   ],
   "note": ""
  },
  {
   "property": "C23",
   "status": "proved",
   "theorems": [
    "Orchard.C23_commitment_eq",
    "Orchard.C23_commitment_binding",
    "Orchard.C23_not_absent",
    "Orchard.C23_depends_on_effects"
   ],
   "note": ""
  },
  {
   "property": "C24",
   "status": "proved",
   "theorems": [
    "Orchard.C24_authorizing_eq",
    "Orchard.C24_not_absent",
    "Orchard.C24_authorizing_binding",
    "Orchard.C24_both_commitments",
    "Orchard.C24_ambiguous_without_count"
   ],
   "note": ""
  },
  {
   "property": "C25",
   "status": "proved",
   "theorems": [
    "Orchard.C25_decrypt",
    "Orchard.C25_recover",
    "Orchard.C25_single_key"
   ],
   "note": ""
  },
  {
   "property": "C26",
   "status": "proved",
   "theorems": [
    "Orchard.C26_success",
    "Orchard.C26_failure",
    "Orchard.C26_value_balance",
    "Orchard.C26_never_panics",
    "Orchard.C26_infallible"
   ],
   "note": ""
  },
  {
   "property": "C27",
   "status": "proved",
   "theorems": [
    "Orchard.C27_layout",
    "Orchard.C27_defined",
    "Orchard.C27_injective",
    "Orchard.C27_instances",
    "Orchard.C27_verify_proof",
    "Orchard.C27_identity_rk_panics"
   ],
   "note": ""
  },
  {
   "property": "C28",
   "status": "proved",
   "theorems": [
    "Orchard.C28_wide_reduction",
    "Orchard.C28_mod_r_p",
    "Orchard.C28_mod_r_p_injective"
   ],
   "note": ""
  },
  {
   "property": "C29",
   "status": "proved",
   "theorems": [
    "Orchard.C29_ak_sign",
    "Orchard.C29_full_viewing_key"
   ],
   "note": ""
  },
  {
   "property": "C30",
   "status": "partial",
   "theorems": [
    "Orchard.C30_spending_key_partial",
    "Orchard.C30_panics_on_zero_ask",
    "Orchard.C30_never_panics_false",
    "Orchard.C30_valid_keys",
    "Orchard.C30_random"
   ],
   "note": "The 'never panics' part is false for byte strings whose derived ask is zero (C30_never_panics_false gives a witness choice of the hash); everything else is proved."
  },
  {
   "property": "C31",
   "status": "proved",
   "theorems": [
    "Orchard.C31_fvk_encoding",
    "Orchard.C31_fvk_rejects"
   ],
   "note": ""
  },
  {
   "property": "C32",
   "status": "proved",
   "theorems": [
    "Orchard.C32_ivk_encoding",
    "Orchard.C32_address_encoding",
    "Orchard.C32_derived_ivk_round_trip",
    "Orchard.C32_derived_address_round_trip"
   ],
   "note": ""
  },
  {
   "property": "C33",
   "status": "proved",
   "theorems": [
    "Orchard.C33_diversifier_index",
    "Orchard.C33_every_diversifier_has_index"
   ],
   "note": ""
  },
  {
   "property": "C34",
   "status": "proved",
   "theorems": [
    "Orchard.C34_scope_for_address",
    "Orchard.C34_address_agrees"
   ],
   "note": ""
  },
  {
   "property": "C35",
   "status": "proved",
   "theorems": [
    "Orchard.C35_key_agreement"
   ],
   "note": ""
  },
  {
   "property": "C36",
   "status": "proved",
   "theorems": [
    "Orchard.C36_internal_key",
    "Orchard.C36_nullifier"
   ],
   "note": ""
  },
  {
   "property": "C37",
   "status": "proved",
   "theorems": [
    "Orchard.C37_batch_kdf"
   ],
   "note": ""
  },
  {
   "property": "C38",
   "status": "proved",
   "theorems": [
    "Orchard.C38_from_parts",
    "Orchard.C38_new",
    "Orchard.C38_commitment_never_panics",
    "Orchard.C38_dummy",
    "Orchard.C38_decrypted"
   ],
   "note": "Decryption as a source of notes is covered in the note encryption properties."
  },
  {
   "property": "C39",
   "status": "proved",
   "theorems": [
    "Orchard.C39_message",
    "Orchard.C39_binding",
    "Orchard.C39_undefined"
   ],
   "note": "Binding by reduction to an explicit discrete-logarithm relation."
  },
  {
   "property": "C40",
   "status": "proved",
   "theorems": [
    "Orchard.C40_formula",
    "Orchard.C40_faerie_gold"
   ],
   "note": ""
  },
  {
   "property": "C41",
   "status": "proved",
   "theorems": [
    "Orchard.C41_layout",
    "Orchard.C41_parse",
    "Orchard.C41_lead_byte",
    "Orchard.C41_round_trip"
   ],
   "note": ""
  },
  {
   "property": "C42",
   "status": "proved",
   "theorems": [
    "Orchard.C42_recipient_decrypts",
    "Orchard.C42_encryption_can_panic"
   ],
   "note": ""
  },
  {
   "property": "C43",
   "status": "proved",
   "theorems": [
    "Orchard.C43_sender_recovers"
   ],
   "note": ""
  },
  {
   "property": "C44",
   "status": "proved",
   "theorems": [
    "Orchard.C44_decryption",
    "Orchard.C44_compact_decryption",
    "Orchard.C44_compact_agrees",
    "Orchard.C44_recovery"
   ],
   "note": ""
  },
  {
   "property": "C45",
   "status": "proved",
   "theorems": [
    "Orchard.C45_path_authenticates",
    "Orchard.C45_placement"
   ],
   "note": ""
  },
  {
   "property": "C46",
   "status": "proved",
   "theorems": [
    "Orchard.C46_node_hash",
    "Orchard.C46_root_binding",
    "Orchard.C46_membership"
   ],
   "note": ""
  },
  {
   "property": "C47",
   "status": "proved",
   "theorems": [
    "Orchard.C47_empty_root",
    "Orchard.C47_empty_tree",
    "Orchard.C47_uncommitted"
   ],
   "note": ""
  },
  {
   "property": "C48",
   "status": "proved",
   "theorems": [
    "Orchard.C48_base_field_types",
    "Orchard.C48_trapdoor",
    "Orchard.C48_ephemeral_secret_key",
    "Orchard.C48_note_values"
   ],
   "note": ""
  },
  {
   "property": "C49",
   "status": "proved",
   "theorems": [
    "Orchard.C49_points",
    "Orchard.C49_non_identity_points"
   ],
   "note": ""
  },
  {
   "property": "C50",
   "status": "proved",
   "theorems": [
    "Orchard.C50_composition",
    "Orchard.C50_seed_length",
    "Orchard.C50_derivation",
    "Orchard.C50_depth_limit",
    "Orchard.C50_from_zip32_seed",
    "Orchard.C50_key_index",
    "Orchard.C50_ct_eq",
    "Orchard.C50_master"
   ],
   "note": ""
  },
  {
   "property": "C51",
   "status": "proved",
   "theorems": [
    "Orchard.C51_gate",
    "Orchard.C51_integers",
    "Orchard.C51_honest"
   ],
   "note": "Gate polynomials of circuit.rs over all field assignments; integer version; honest values."
  },
  {
   "property": "C52",
   "status": "proved",
   "theorems": [
    "Orchard.C52_sound",
    "Orchard.C52_complete"
   ],
   "note": "Soundness for every satisfying assignment; completeness for the assigned values whenever Commit^ivk is defined."
  },
  {
   "property": "C53",
   "status": "proved",
   "theorems": [
    "Orchard.C53_sound",
    "Orchard.C53_complete"
   ],
   "note": "Soundness for every satisfying assignment; completeness for the assigned values whenever the commitment is defined."
  },
  {
   "property": "C54",
   "status": "proved",
   "theorems": [
    "Orchard.C54_sound",
    "Orchard.C54_meaning"
   ],
   "note": "halo2 gadgets enter through the contracts in Model/Halo2.lean; exceptional cases reduce to explicit discrete-logarithm relations."
  },
  {
   "property": "C55",
   "status": "proved",
   "theorems": [
    "Orchard.C55_complete"
   ],
   "note": "Needs rk and requested recipients' pk_d not to be the identity; a Sinsemilla exception on the Merkle path is the only other exception."
  },
  {
   "property": "C56",
   "status": "proved",
   "theorems": [
    "Orchard.C56_from_action_context"
   ],
   "note": ""
  },
  {
   "property": "C57",
   "status": "proved",
   "theorems": [
    "Orchard.C57_add_panics_iff",
    "Orchard.C57_valid_accepted",
    "Orchard.C57_invalid_rejected",
    "Orchard.C57_accepted_iff",
    "Orchard.C57_empty",
    "Orchard.C57_order"
   ],
   "note": ""
  },
  {
   "property": "C58",
   "status": "proved",
   "theorems": [
    "Orchard.C58_pallas_order",
    "Orchard.C58_no_zero_coordinates",
    "Orchard.C58_extract"
   ],
   "note": ""
  },
  {
   "property": "C59",
   "status": "proved",
   "theorems": [
    "Orchard.C59_generators_decode",
    "Orchard.C59_constants"
   ],
   "note": ""
  },
  {
   "property": "C60",
   "status": "proved",
   "theorems": [
    "Orchard.C60_const_array",
    "Orchard.C60_bits",
    "Orchard.C60_lebs2ip",
    "Orchard.C60_round_trip",
    "Orchard.C60_k_round_trip"
   ],
   "note": ""
  },
  {
   "property": "C61",
   "status": "proved",
   "theorems": [
    "Orchard.C61_sinsemilla",
    "Orchard.C61_commit_ivk",
    "Orchard.C61_functions"
   ],
   "note": ""
  },
  {
   "property": "C62",
   "status": "proved",
   "theorems": [
    "Orchard.C62_full_viewing_key",
    "Orchard.C62_viewing_keys",
    "Orchard.C62_diversifiers"
   ],
   "note": ""
  },
  {
   "property": "C63",
   "status": "proved",
   "theorems": [
    "Orchard.C63_recipient_finds_output",
    "Orchard.C63_sender_recovers_output"
   ],
   "note": ""
  },
  {
   "property": "C64",
   "status": "proved",
   "theorems": [
    "Orchard.C64_received_is_spendable"
   ],
   "note": ""
  },
  {
   "property": "C65",
   "status": "proved",
   "theorems": [
    "Orchard.C65_balance"
   ],
   "note": ""
  },
  {
   "property": "C66",
   "status": "proved",
   "theorems": [
    "Orchard.C66_honest_bundle_accepted"
   ],
   "note": ""
  },
  {
   "property": "C67",
   "status": "proved",
   "theorems": [
    "Orchard.C67_batch_decryption",
    "Orchard.C67_batch_compact_decryption",
    "Orchard.C67_agrees_with_scan"
   ],
   "note": ""
  },
  {
   "property": "C68",
   "status": "proved",
   "theorems": [
    "Orchard.C68_layout_sound"
   ],
   "note": "Gadgets of halo2_gadgets enter through contracts on their cells; the floor planner is a parameter."
  },
  {
   "property": "C69",
   "status": "proved",
   "theorems": [
    "Orchard.C69_shape",
    "Orchard.C69_constraints"
   ],
   "note": ""
  },
  {
   "property": "C70",
   "status": "proved",
   "theorems": [
    "Orchard.C70_layout_complete",
    "Orchard.C70_built"
   ],
   "note": "Same side conditions as C55; floor plans that write no cell twice."
  },
  {
   "property": "C71",
   "status": "proved",
   "theorems": [
    "Orchard.C71_note_eq",
    "Orchard.C71_equivalence",
    "Orchard.C71_meaning"
   ],
   "note": ""
  },
  {
   "property": "C72",
   "status": "proved",
   "theorems": [
    "Orchard.C72_without_ovk",
    "Orchard.C72_independent"
   ],
   "note": ""
  },
  {
   "property": "C73",
   "status": "proved",
   "theorems": [
    "Orchard.C73_generators",
    "Orchard.C73_distinct",
    "Orchard.C73_diversify_hash"
   ],
   "note": "hash_to_curve and BLAKE2b are written out from RFC 9380 and RFC 7693."
  },
  {
   "property": "C74",
   "status": "proved",
   "theorems": [
    "Orchard.C74_tables",
    "Orchard.C74_bases_and_sizes",
    "Orchard.C74_no_sign_choice"
   ],
   "note": ""
  },
  {
   "property": "C75",
   "status": "proved",
   "theorems": [
    "Orchard.C75_full",
    "Orchard.C75_every_scalar",
    "Orchard.C75_short",
    "Orchard.C75_base",
    "Orchard.C75_add",
    "Orchard.C75_output_unique"
   ],
   "note": "The gates of halo2_gadgets are recalled from memory; the tables are those of the crate."
  },
  {
   "property": "C76",
   "status": "proved",
   "theorems": [
    "Orchard.C76_every_order_once",
    "Orchard.C76_draws",
    "Orchard.C76_positions",
    "Orchard.C76_count",
    "Orchard.C76_uniform"
   ],
   "note": ""
  },
  {
   "property": "C77",
   "status": "proved",
   "theorems": [
    "Orchard.C77_prepare_sign",
    "Orchard.C77_apply_signatures"
   ],
   "note": ""
  },
  {
   "property": "C78",
   "status": "proved",
   "theorems": [
    "Orchard.C78_value_commitment",
    "Orchard.C78_rk",
    "Orchard.C78_note_commitment",
    "Orchard.C78_build"
   ],
   "note": ""
  },
  {
   "property": "C79",
   "status": "proved",
   "theorems": [
    "Orchard.C79_form",
    "Orchard.C79_prepared",
    "Orchard.C79_key_agreement"
   ],
   "note": "The functions of the group crate are recalled from memory (version 0.13); that crate is not in /repo."
  },
  {
   "property": "C80",
   "status": "proved",
   "theorems": [
    "Orchard.C80_empty_roots_published",
    "Orchard.C80_empty_tree_published"
   ],
   "note": "About the concrete primitives Prims.zcash (Crypto/Zcash.lean), written out from their specifications."
  },
  {
   "property": "C81",
   "status": "proved",
   "theorems": [
    "Orchard.C81_gates",
    "Orchard.C81_lookups",
    "Orchard.C81_columns",
    "Orchard.C81_selector",
    "Orchard.C81_codes",
    "Orchard.C81_rows",
    "Orchard.C81_layout_sound",
    "Orchard.C81_layout_complete"
   ],
   "note": "The generated modules Model/Pinned/Gates*.lean are a transcription of the file by tools/gen_pinned.py. Fixed columns are arbitrary; that key generation puts the numbers of enabled selectors into them (compress_selectors of halo2_proofs) is the hypothesis Selected."
  },
  {
   "property": "C82",
   "status": "proved",
   "theorems": [
    "Orchard.C82_range",
    "Orchard.C82_strict",
    "Orchard.C82_short"
   ],
   "note": "Model/Regions.lean (rows, selectors and copies of the gadgets) is recalled from memory of halo2_gadgets; gates and lookups are those of src/circuit_description."
  },
  {
   "property": "C83",
   "status": "proved",
   "theorems": [
    "Orchard.C83_sinsemilla"
   ],
   "note": "Regions as for C82. If the hash is undefined the result cells are unconstrained by the statement."
  },
  {
   "property": "C84",
   "status": "proved",
   "theorems": [
    "Orchard.C84_merkle"
   ],
   "note": "Regions as for C82."
  },
  {
   "property": "C85",
   "status": "proved",
   "theorems": [
    "Orchard.C85_mul"
   ],
   "note": "Regions as for C82; the base is copied into the first row, the gates keep it."
  },
  {
   "property": "C86",
   "status": "proved",
   "theorems": [
    "Orchard.C86_poseidon"
   ],
   "note": "Regions as for C82."
  },
  {
   "property": "C87",
   "status": "proved",
   "theorems": [
    "Orchard.C87_witness",
    "Orchard.C87_add",
    "Orchard.C87_mul_full",
    "Orchard.C87_mul_short",
    "Orchard.C87_mul_base"
   ],
   "note": "Regions as for C82; uses C74 and C75."
  },
  {
   "property": "C88",
   "status": "proved",
   "theorems": [
    "Orchard.C88_contracts",
    "Orchard.C88_action_sound"
   ],
   "note": "Regions as for C82; the hypotheses are what key generation fixes (selectors, constants, lookup table, copies)."
  },
  {
   "property": "C89",
   "status": "proved",
   "theorems": [
    "Orchard.C89_first_generator",
    "Orchard.C89_complete",
    "Orchard.C89_defined",
    "Orchard.C89_statement",
    "Orchard.C89_sound",
    "Orchard.C89_zcash"
   ],
   "note": "Regions as for C82. Witnesses for which some hash is undefined are outside (DefinedStatement)."
  },
  {
   "property": "C90",
   "status": "proved",
   "theorems": [
    "Orchard.C90_verify_spend_auth",
    "Orchard.C90_verify_binding",
    "Orchard.C90_sign",
    "Orchard.C90_correct",
    "Orchard.C90_one_response",
    "Orchard.C90_special_soundness",
    "Orchard.C90_nonce_reuse",
    "Orchard.C90_simulate",
    "Orchard.C90_randomize",
    "Orchard.C90_signing_key"
   ],
   "note": "The scheme of crate reddsa is written out from the protocol specification."
  },
  {
   "property": "C91",
   "status": "proved",
   "theorems": [
    "Orchard.C91_fields",
    "Orchard.C91_lawful",
    "Orchard.C91_orders",
    "Orchard.C91_equality"
   ],
   "note": "The orders of pasta_curves and of Rust arrays are recalled."
  },
  {
   "property": "C92",
   "status": "proved",
   "theorems": [
    "Orchard.C92_no_inflation",
    "Orchard.C92_at_all_times",
    "Orchard.C92_circuit",
    "Orchard.C92_spend_authority",
    "Orchard.C92_honest"
   ],
   "note": "The consensus rules are those of the node software, from the protocol specification; secrets behind proofs and binding signatures are given (knowledge soundness is assumed, C54/C65/C88 state what they give)."
  },
  {
   "property": "C93",
   "status": "proved",
   "theorems": [
    "Orchard.C93_bundle",
    "Orchard.C93_others",
    "Orchard.C93_vec"
   ],
   "note": "The implementations of crate memuse for Vec and NonEmpty are recalled."
  },
  {
   "property": "C94",
   "status": "proved",
   "theorems": [
    "Orchard.C94_received",
    "Orchard.C94_no_roadblock",
    "Orchard.C94_spendable",
    "Orchard.C94_fresh"
   ],
   "note": "As for C92: secrets behind proofs are given; the exceptional relations are explicit linear forms, one of them with the nullifier base K."
  },
  {
   "property": "C95",
   "status": "proved",
   "theorems": [
    "Orchard.C95_builds",
    "Orchard.C95_goes_through"
   ],
   "note": "The consensus rules as for C92; a complete proof system is a parameter (C89 proves completeness of the circuit)."
  },
  {
   "property": "C96",
   "status": "proved",
   "theorems": [
    "Orchard.C96_signatures",
    "Orchard.C96_requests"
   ],
   "note": "Nullifiers, note commitments, ciphertexts and proofs are not covered: they hide computationally only."
  },
  {
   "property": "C97",
   "status": "proved",
   "theorems": [
    "Orchard.C97_refines",
    "Orchard.C97_builder",
    "Orchard.C97_no_panic",
    "Orchard.C97_own_calls",
    "Orchard.C97_each_once",
    "Orchard.C97_rounds",
    "Orchard.C97_fair_choice"
   ],
   "note": "The draws of crates rand (shuffle, gen_range), pasta_curves (random field elements and points) and zcash_note_encryption are recalled."
  },
  {
   "property": "C98",
   "status": "proved",
   "theorems": [
    "Orchard.C98_scalar",
    "Orchard.C98_base",
    "Orchard.C98_hash",
    "Orchard.C98_bias",
    "Orchard.C98_value_commitment",
    "Orchard.C98_rk",
    "Orchard.C98_spending_key",
    "Orchard.C98_note_seed",
    "Orchard.C98_shuffle",
    "Orchard.C98_build",
    "Orchard.C98_indistinguishable",
    "Orchard.C98_generator"
   ],
   "note": "Probabilities are numbers of answers; that the generator answers uniformly is not a statement about this code. Draws recalled as for C97."
  },
  {
   "property": "C99",
   "status": "proved",
   "theorems": [
    "Orchard.C99_values",
    "Orchard.C99_spending_key",
    "Orchard.C99_keys",
    "Orchard.C99_address",
    "Orchard.C99_note",
    "Orchard.C99_fake_compact_action"
   ],
   "note": "A strategy of crate proptest is modelled as the set of its possible outcomes; probabilities and shrinking are outside."
  },
  {
   "property": "C100",
   "status": "proved",
   "theorems": [
    "Orchard.C100_unauthorized_bundle",
    "Orchard.C100_bundle",
    "Orchard.C100_zero_actions",
    "Orchard.C100_balance"
   ],
   "note": "As for C99. Signatures of StdRng-seeded generators: the 80 bytes drawn from a seed are a parameter."
  },
  {
   "property": "C101",
   "status": "proved",
   "theorems": [
    "Orchard.C101_inputs",
    "Orchard.C101_several_notes",
    "Orchard.C101_unusable_panics",
    "Orchard.C101_returned_valid",
    "Orchard.C101_usable",
    "Orchard.C101_panics"
   ],
   "note": "As for C99. The frontier of incrementalmerkletree appears as nodes of the tree (C106 shows that it computes them); the prover and the values drawn from StdRng are parameters."
  },
  {
   "property": "C102",
   "status": "proved",
   "theorems": [
    "Orchard.C102_bsk",
    "Orchard.C102_key_agreement",
    "Orchard.C102_diversifier_index",
    "Orchard.C102_shielding_bundle",
    "Orchard.C102_bundle_chain",
    "Orchard.C102_round_trip"
   ],
   "note": "As for C99 and C101. The comparison with the pinned verification key (C81) in round_trip is left out; bridgetree is replaced by the nodes of the tree."
  },
  {
   "property": "C103",
   "status": "proved",
   "theorems": [
    "Orchard.C103_write",
    "Orchard.C103_read",
    "Orchard.C103_round_trip",
    "Orchard.C103_regenerate",
    "Orchard.C103_file"
   ],
   "note": "That the stored proof verifies is not proved: it needs the verifier of halo2_proofs, a parameter here."
  },
  {
   "property": "C104",
   "status": "proved",
   "theorems": [
    "Orchard.C104_bits",
    "Orchard.C104_k_bits",
    "Orchard.C104_constants",
    "Orchard.C104_coordinates",
    "Orchard.C104_generators",
    "Orchard.C104_window_tables",
    "Orchard.C104_tables",
    "Orchard.C104_lagrange",
    "Orchard.C104_parsers",
    "Orchard.C104_zip32",
    "Orchard.C104_commit_ivk",
    "Orchard.C104_note_commit"
   ],
   "note": "test_zs_and_us, test_lagrange_coeffs and compute_window_table of halo2_gadgets are recalled; circuit tests at the level of C52 and C53."
  },
  {
   "property": "C105",
   "status": "proved",
   "theorems": [
    "Orchard.C105_point_sets",
    "Orchard.C105_size",
    "Orchard.C105_test",
    "Orchard.C105_unambiguous",
    "Orchard.C105_queries",
    "Orchard.C105_lookups",
    "Orchard.C105_domain"
   ],
   "note": "What create_proof of halo2_proofs writes, and its degree, blinding and grouping rules, are recalled; that the crate's two sizes come out supports it."
  },
  {
   "property": "C106",
   "status": "proved",
   "theorems": [
    "Orchard.C106_append",
    "Orchard.C106_root",
    "Orchard.C106_contents",
    "Orchard.C106_witness",
    "Orchard.C106_witness_missing",
    "Orchard.C106_last_path",
    "Orchard.C106_bundle_inputs",
    "Orchard.C106_conversion",
    "Orchard.C106_from_parts",
    "Orchard.C106_anchor_incremental"
   ],
   "note": "Frontier, witness and MerklePath of crate incrementalmerkletree are recalled (version 0.7); its positions are numbers here."
  },
  {
   "property": "C107",
   "status": "proved",
   "theorems": [
    "Orchard.C107_build_error",
    "Orchard.C107_outputs_disabled",
    "Orchard.C107_spend_error",
    "Orchard.C107_output_overflow_error",
    "Orchard.C107_zip32_error",
    "Orchard.C107_proof",
    "Orchard.C107_proof_alternate",
    "Orchard.C107_hex",
    "Orchard.C107_ciphertext",
    "Orchard.C107_compact_action",
    "Orchard.C107_bundle"
   ],
   "note": "The formatting of integers, byte lists and strings by core::fmt and hex::encode is recalled. Derived implementations are left out; they are parameters in what a bundle prints."
  },
  {
   "property": "C108",
   "status": "proved",
   "theorems": [
    "Orchard.C108_read",
    "Orchard.C108_write",
    "Orchard.C108_write_error",
    "Orchard.C108_round_trip",
    "Orchard.C108_deserialize",
    "Orchard.C108_serialize"
   ],
   "note": "read_exact and write_all of the standard library are recalled; data formats of serde are parameters."
  }
 ]
}