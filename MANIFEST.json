{
 "claims": [
  {
   "property": "C01",
   "status": "proved",
   "theorems": [
    "Mpt.Props.c01_conditional_constraints"
   ],
   "note": ""
  },
  {
   "property": "C02",
   "status": "proved",
   "theorems": [
    "Mpt.Props.c02_active_lookup",
    "Mpt.Props.c02_inactive_lookup"
   ],
   "note": ""
  },
  {
   "property": "C03",
   "status": "proved",
   "theorems": [
    "Mpt.Props.c03_active_poseidon",
    "Mpt.Props.c03_inactive_poseidon"
   ],
   "note": ""
  },
  {
   "property": "C04",
   "status": "proved",
   "theorems": [
    "Mpt.Props.c04_binary_column",
    "Mpt.Props.c04_boolean_algebra"
   ],
   "note": ""
  },
  {
   "property": "C05",
   "status": "proved",
   "theorems": [
    "Mpt.Props.c05_field_constant"
   ],
   "note": ""
  },
  {
   "property": "C06",
   "status": "proved",
   "theorems": [
    "Mpt.Props.c06_is_zero",
    "Mpt.Props.c06_is_zero_assign"
   ],
   "note": ""
  },
  {
   "property": "C07",
   "status": "proved",
   "theorems": [
    "Mpt.Props.c07_one_hot",
    "Mpt.Props.c07_one_hot_assign"
   ],
   "note": ""
  },
  {
   "property": "C08",
   "status": "proved",
   "theorems": [
    "Mpt.Props.c08_byte_bit",
    "Mpt.Props.c08_range_checks"
   ],
   "note": ""
  },
  {
   "property": "C09",
   "status": "partial",
   "theorems": [
    "Mpt.Props.c09_bytes_partial",
    "Mpt.Props.c09_after_first_string_partial",
    "Mpt.Props.c09_false"
   ],
   "note": "the full statement is false: see DESIGN.md B1"
  },
  {
   "property": "C10",
   "status": "proved",
   "theorems": [
    "Mpt.Props.c10_byte_representation_assign",
    "Mpt.Props.c10_large_field_element_panics"
   ],
   "note": ""
  },
  {
   "property": "C11",
   "status": "partial",
   "theorems": [
    "Mpt.Props.c11_canonical_partial",
    "Mpt.Props.c11_canonical_rlc_partial",
    "Mpt.Props.c11_c13_false_mod_zero",
    "Mpt.Props.c11_c13_false_trailing"
   ],
   "note": "full statement false for n_rows mod 32 = 0 or >= 2 (B2); proved for n_rows mod 32 = 1, and for every n_rows that is not a multiple of 32 if the rows after the last group hold leading bytes, as in assigned circuits"
  },
  {
   "property": "C12",
   "status": "proved",
   "theorems": [
    "Mpt.Props.c12_canonical_assign",
    "Mpt.Props.c12_witness"
   ],
   "note": ""
  },
  {
   "property": "C13",
   "status": "partial",
   "theorems": [
    "Mpt.Props.c13_key_bit_partial",
    "Mpt.Props.c13_key_bit_low_partial",
    "Mpt.Props.c11_c13_false_mod_zero",
    "Mpt.Props.c11_c13_false_trailing"
   ],
   "note": "full statement false for n_rows mod 32 = 0 or >= 2 (B2); proved for n_rows mod 32 = 1, and for every n_rows that is not a multiple of 32 if the rows after the last group hold leading bytes, as in assigned circuits"
  },
  {
   "property": "C14",
   "status": "proved",
   "theorems": [
    "Mpt.Props.c14_key_bit_assign",
    "Mpt.Props.c14_key_bit_assign_par",
    "Mpt.Props.c14_key_bit_par_panics"
   ],
   "note": ""
  },
  {
   "property": "C15",
   "status": "proved",
   "theorems": [
    "Mpt.Props.c15_canonical",
    "Mpt.Props.c15_key_bit",
    "Mpt.Props.c15_key_bit_first_request_lost",
    "Mpt.Props.c15_updates",
    "Mpt.Props.c15_circuit"
   ],
   "note": ""
  },
  {
   "property": "C16",
   "status": "proved",
   "theorems": [
    "Mpt.Props.c16_word_gadget"
   ],
   "note": ""
  },
  {
   "property": "C17",
   "status": "proved",
   "theorems": [
    "Mpt.Props.c17_run_shape"
   ],
   "note": ""
  },
  {
   "property": "C18",
   "status": "proved",
   "theorems": [
    "Mpt.Props.c18_exposed_rows"
   ],
   "note": ""
  },
  {
   "property": "C19",
   "status": "proved",
   "theorems": [
    "Mpt.Props.c19_address_and_roots"
   ],
   "note": ""
  },
  {
   "property": "C20",
   "status": "partial",
   "theorems": [
    "Mpt.Props.c20_nonce_changed",
    "Mpt.Props.c20_nonce_partial",
    "Mpt.Props.c29_false"
   ],
   "note": "full for all claims other than 0 to 0; those may move the root (B9)"
  },
  {
   "property": "C21",
   "status": "partial",
   "theorems": [
    "Mpt.Props.c21_balance_changed",
    "Mpt.Props.c21_balance_partial",
    "Mpt.Props.c21_false"
   ],
   "note": "full for all claims other than 0 to 0; those may move the root (B9)"
  },
  {
   "property": "C22",
   "status": "proved",
   "theorems": [
    "Mpt.Props.c22_code_size"
   ],
   "note": ""
  },
  {
   "property": "C23",
   "status": "proved",
   "theorems": [
    "Mpt.Props.c23_code_hash"
   ],
   "note": ""
  },
  {
   "property": "C24",
   "status": "proved",
   "theorems": [
    "Mpt.Props.c24_poseidon_code_hash"
   ],
   "note": ""
  },
  {
   "property": "C25",
   "status": "proved",
   "theorems": [
    "Mpt.Props.c25_storage_update"
   ],
   "note": ""
  },
  {
   "property": "C26",
   "status": "partial",
   "theorems": [
    "Mpt.Props.c26_storage_partial",
    "Mpt.Props.c26_false"
   ],
   "note": "full statement false (B8)"
  },
  {
   "property": "C27",
   "status": "proved",
   "theorems": [
    "Mpt.Props.c27_account_does_not_exist",
    "Mpt.Props.c27_absent_from_trie"
   ],
   "note": ""
  },
  {
   "property": "C28",
   "status": "proved",
   "theorems": [
    "Mpt.Props.c28_storage_does_not_exist",
    "Mpt.Props.c28_absent_from_trie"
   ],
   "note": ""
  },
  {
   "property": "C29",
   "status": "partial",
   "theorems": [
    "Mpt.Props.c29_no_destructed",
    "Mpt.Props.c29_read_only_partial",
    "Mpt.Props.c22_code_size",
    "Mpt.Props.c23_code_hash",
    "Mpt.Props.c24_poseidon_code_hash",
    "Mpt.Props.c29_false",
    "Mpt.Props.c29_false_exposed"
   ],
   "note": "full statement false (B9)"
  },
  {
   "property": "C30",
   "status": "partial",
   "theorems": [
    "Mpt.Props.c30_nonce",
    "Mpt.Props.c30_balance",
    "Mpt.Props.c30_code_size",
    "Mpt.Props.c30_code_hash",
    "Mpt.Props.c30_poseidon_code_hash",
    "Mpt.Props.c30_storage_partial",
    "Mpt.Props.c26_false"
   ],
   "note": "storage insertions/deletions: B8"
  },
  {
   "property": "C31",
   "status": "partial",
   "theorems": [
    "Mpt.Props.c32_existing_account_partial",
    "Mpt.Props.c31_false"
   ],
   "note": "the leaf key is not constrained (B3); shown false for extension updates, true when both tries are known and the account exists"
  },
  {
   "property": "C32",
   "status": "partial",
   "theorems": [
    "Mpt.Props.c32_existing_account_partial",
    "Mpt.Props.c32_any_claim_partial",
    "Mpt.Props.c32_false"
   ],
   "note": "full statement false (B3-B5)"
  },
  {
   "property": "C33",
   "status": "partial",
   "theorems": [
    "Mpt.Props.c33_partial",
    "Mpt.Props.c33_tight",
    "Mpt.Props.c33_panics",
    "Mpt.Props.c33_false"
   ],
   "note": "As stated the property is false: when the key requests dominate, n_rows_required gives 32k+2 but assign asserts n_rows/32-1 >= k, so it panics (c33_panics, c33_false with 67 absence proofs). c33_partial: n_rows_required rows suffice as soon as n >= 32(k+1)."
  },
  {
   "property": "C34",
   "status": "proved",
   "theorems": [
    "Mpt.Props.c34_rows",
    "Mpt.Props.c34_disjoint"
   ],
   "note": ""
  },
  {
   "property": "C35",
   "status": "proved",
   "theorems": [
    "Mpt.Props.c35_complete",
    "Mpt.Props.c35_complete_tight",
    "Mpt.Props.isHonest_sound",
    "Mpt.Fixtures.test_multiple_updates",
    "Mpt.Fixtures.test_create_name_registrator"
   ],
   "note": "for every list of honest traces (HonestTrace: all supported updates), from parsing to acceptance, serial and parallel; n must also satisfy the assertion of B7"
  },
  {
   "property": "C36",
   "status": "partial",
   "theorems": [
    "Mpt.Props.c36_hash_traces_partial",
    "Mpt.Props.c36_false"
   ],
   "note": "the reported triples are true hashes provided the trace's state_key is the hash of the claim's storage key, which Proof::from does not check"
  },
  {
   "property": "C37",
   "status": "proved",
   "theorems": [
    "Mpt.Props.c37_key_requests",
    "Mpt.Props.c37_bits_correct",
    "Mpt.Props.c37_byte_requests",
    "Mpt.Props.c35_complete"
   ],
   "note": "that the requests cover every looked-up value follows from acceptance of the assigned witness (c35_complete)"
  },
  {
   "property": "C38",
   "status": "proved",
   "theorems": [
    "Mpt.Props.c38_shape",
    "Mpt.Props.c38_roots",
    "Mpt.Props.c38_accepts"
   ],
   "note": ""
  },
  {
   "property": "C39",
   "status": "proved",
   "theorems": [
    "Mpt.Props.c39_next_domain",
    "Mpt.Props.c39_check",
    "Mpt.Props.c39_get_domains",
    "Mpt.Props.c39_circuit",
    "Mpt.Props.c39_node_types"
   ],
   "note": ""
  },
  {
   "property": "C40",
   "status": "proved",
   "theorems": [
    "Mpt.Props.c40_lagrange"
   ],
   "note": ""
  },
  {
   "property": "C41",
   "status": "proved",
   "theorems": [
    "Mpt.Props.c41_claim",
    "Mpt.Props.c41_rejected",
    "Mpt.Props.c41_values"
   ],
   "note": ""
  },
  {
   "property": "C42",
   "status": "proved",
   "theorems": [
    "Mpt.Props.c42_traces",
    "Mpt.Props.c42_binding"
   ],
   "note": ""
  },
  {
   "property": "C43",
   "status": "proved",
   "theorems": [
    "Mpt.Props.c43_parse",
    "Mpt.Props.c43_print",
    "Mpt.Props.c43_round_trip",
    "Mpt.Props.c43_cast"
   ],
   "note": ""
  },
  {
   "property": "C44",
   "status": "proved",
   "theorems": [
    "Mpt.Props.c44_round_trip",
    "Mpt.Props.c44_fixed_width",
    "Mpt.Props.c44_case",
    "Mpt.Props.reads_hexInt"
   ],
   "note": ""
  },
  {
   "property": "C45",
   "status": "proved",
   "theorems": [
    "Mpt.Props.c45_split",
    "Mpt.Props.c45_rlc",
    "Mpt.Props.c45_big_numbers"
   ],
   "note": ""
  },
  {
   "property": "C46",
   "status": "proved",
   "theorems": [
    "Mpt.Props.c46_reduction",
    "Mpt.Props.c46_injective",
    "Mpt.Props.c46_bit"
   ],
   "note": ""
  },
  {
   "property": "C47",
   "status": "proved",
   "theorems": [
    "Mpt.Props.c47_rlc_eq",
    "Mpt.Props.c47_rlc_collisions",
    "Mpt.Props.c47_roots",
    "Mpt.Props.c47_words"
   ],
   "note": ""
  },
  {
   "property": "C48",
   "status": "proved",
   "theorems": [
    "Mpt.Props.c48_account_key",
    "Mpt.Props.c48_matches_circuit",
    "Mpt.Props.c48_injective"
   ],
   "note": ""
  },
  {
   "property": "C49",
   "status": "proved",
   "theorems": [
    "Mpt.Props.c49_grouping",
    "Mpt.Props.c49_grouping_unique"
   ],
   "note": ""
  },
  {
   "property": "C50",
   "status": "proved",
   "theorems": [
    "Mpt.Props.c50_fixed_columns",
    "Mpt.Props.c58_parallel"
   ],
   "note": ""
  },
  {
   "property": "C51",
   "status": "proved",
   "theorems": [
    "Mpt.Props.c51_exposed"
   ],
   "note": ""
  },
  {
   "property": "C52",
   "status": "proved",
   "theorems": [
    "Mpt.Props.c35_operations",
    "Mpt.Props.c52_tables",
    "Mpt.Props.op_honest",
    "Mpt.Props.runOps_steps",
    "Mpt.Fixtures.world_existing_storage_update",
    "Mpt.Fixtures.world_empty_account_type_1_balance_update"
   ],
   "note": "the operations are those of Verif/Spec/World.lean; deletion of accounts and creation of an account by a storage or code write are not supported by the code and not operations here"
  },
  {
   "property": "C53",
   "status": "partial",
   "theorems": [
    "Mpt.Props.c53_operation_partial",
    "Mpt.Props.c53_absent",
    "Mpt.Props.c53_false_absent"
   ],
   "note": "existing accounts (and slots, for writes of non-zero values) and AccountDoesNotExist; false otherwise (c26_false, c31_false, c32_false), and for n_rows a multiple of 32 existing accounts can be proved absent (B2, c53_false_absent)"
  },
  {
   "property": "C54",
   "status": "partial",
   "theorems": [
    "Mpt.Props.c54_history_partial"
   ],
   "note": "for claims covered by C53"
  },
  {
   "property": "C55",
   "status": "partial",
   "theorems": [
    "Mpt.Props.c55_storage_key_partial",
    "Mpt.Props.c55_false"
   ],
   "note": "full statement false (B11)"
  },
  {
   "property": "C56",
   "status": "partial",
   "theorems": [
    "Mpt.Props.c56_tables_partial",
    "Mpt.Props.c56_nonce_partial",
    "Mpt.Props.c56_false",
    "Mpt.Props.c56_false_absent"
   ],
   "note": "full statement false (B1, B2): see DESIGN.md"
  },
  {
   "property": "C57",
   "status": "proved",
   "theorems": [
    "Mpt.Props.c57_test_circuit",
    "Mpt.Props.c57_load_iff",
    "Mpt.Props.c57_panics"
   ],
   "note": "n must also satisfy the assertion of B7; one row less than n_rows_required suffices"
  },
  {
   "property": "C58",
   "status": "partial",
   "theorems": [
    "Mpt.Props.c58_verifying_key_partial",
    "Mpt.Props.c58_parallel",
    "Mpt.Fixtures.c58_false"
   ],
   "note": "exact condition proved; false for the test circuit beyond 200 hashes (c58_false), and then proved up to 200"
  },
  {
   "property": "C59",
   "status": "proved",
   "theorems": [
    "Mpt.Props.c59_row",
    "Mpt.Props.c59_update",
    "Mpt.Props.c59_round_trip",
    "Mpt.Props.c59_round_trip_pretty",
    "Mpt.Props.c59_round_trip_updates",
    "Mpt.Props.c59_round_trip_updates_pretty",
    "Mpt.Props.c59_content",
    "Mpt.Props.c59_format",
    "Mpt.Props.c59_twice",
    "Mpt.Props.c59_lines",
    "Mpt.Props.c59_lines_empty",
    "Mpt.Fixtures.file_existing_storage_update",
    "Mpt.Fixtures.file_createName"
   ],
   "note": "the format itself is Spec/JsonFormat; all 20 trace files of the repository are read and written back byte by byte in Fixtures/JsonFiles1-3 (file_*)"
  },
  {
   "property": "C60",
   "status": "proved",
   "theorems": [
    "Mpt.Props.c60_first_phase",
    "Mpt.Props.c60_columns",
    "Mpt.Props.c60_complete"
   ],
   "note": ""
  },
  {
   "property": "C61",
   "status": "partial",
   "theorems": [
    "Mpt.Props.c61_claim_partial"
   ],
   "note": "for the claims whose truth the circuit decides (Decided: not those of findings B3-B6, B8, B9), hash tables without collisions, and EdgesOK: n % 32 != 0 and the edges of the byte and canonical tables in order, as in assigned circuits (B1, B2)"
  },
  {
   "property": "C62",
   "status": "partial",
   "theorems": [
    "Mpt.Props.c62_history_partial"
   ],
   "note": "same restrictions as C61, for every claim of the history"
  },
  {
   "property": "C63",
   "status": "proved",
   "theorems": [
    "Mpt.Props.c63_operation",
    "Mpt.Props.c63_history"
   ],
   "note": "the nine conditions are the fields of Patched; without them the statement is false (B3-B6, B8, B9, B13-B15); states are collision free with respect to the hash table (SafeState)"
  },
  {
   "property": "C64",
   "status": "proved",
   "theorems": [
    "Mpt.Props.c64_history"
   ],
   "note": "EdgesOK: n % 32 != 0 and the edges of the byte and canonical tables in order (B1, B2)"
  },
  {
   "property": "C65",
   "status": "proved",
   "theorems": [
    "Mpt.Props.c65_operations",
    "Mpt.Props.op_strict",
    "Mpt.Props.ready_patched"
   ],
   "note": ""
  },
  {
   "property": "C66",
   "status": "proved",
   "theorems": [
    "Mpt.c66_necessary",
    "Mpt.c66_independent"
   ],
   "note": "the examples use a linear hash function without collisions on the inputs that occur, and the challenge 256"
  },
  {
   "property": "C67",
   "status": "partial",
   "theorems": [
    "Mpt.Props.c67_complete_partial",
    "Mpt.Props.c67_rejects",
    "Mpt.Props.c67_rejects_empty",
    "Mpt.Props.c67_sound",
    "Mpt.Props.c67_sound_storage",
    "Mpt.Props.c67_false",
    "Mpt.Props.c67_unsound",
    "Mpt.Props.c67_demo"
   ],
   "note": "completeness needs an account path that is long enough (c67_false without it, c67_rejects says these are the only proofs that fail); soundness is missing for the shorter of two account paths, where it is false (c67_unsound)"
  },
  {
   "property": "C68",
   "status": "proved",
   "theorems": [
    "Mpt.Props.c68_json"
   ],
   "note": "serde_json's nesting limit of 128 levels is not modelled"
  },
  {
   "property": "C69",
   "status": "proved",
   "theorems": [
    "Mpt.Props.c69_requests_order",
    "Mpt.Props.c69_rows_order",
    "Mpt.Props.c69_rows_append",
    "Mpt.Props.c69_rows_bound",
    "Mpt.Props.c69_capacity",
    "Mpt.Props.c69_capacity_any",
    "Mpt.Props.c69_demo"
   ],
   "note": "one row of the 32 per key of B7 is included in the bound"
  },
  {
   "property": "C70",
   "status": "proved",
   "theorems": [
    "Mpt.Props.c70_accounts",
    "Mpt.Props.c70_panics",
    "Mpt.Props.c70_demo"
   ],
   "note": ""
  },
  {
   "property": "C71",
   "status": "partial",
   "theorems": [
    "Mpt.Props.c71_agree_partial",
    "Mpt.Props.c71_two_circuits_partial",
    "Mpt.Props.c71_patched",
    "Mpt.Props.c71_patched_two_circuits",
    "Mpt.Props.c71_false"
   ],
   "note": "full statement false (B8, c71_false); proved for values other than 0 and slots that exist on both sides; without exclusions when the constraints of C63 are added (c71_patched)"
  },
  {
   "property": "C72",
   "status": "partial",
   "theorems": [
    "Mpt.Props.c72_determined_partial",
    "Mpt.Props.c72_two_circuits_partial",
    "Mpt.Props.c72_patched",
    "Mpt.Props.c72_patched_two_circuits",
    "Mpt.Props.c72_false"
   ],
   "note": "full statement false (B8, c72_false); proved for fields and slots that exist before and after, in both directions; when the constraints of C63 are added also for creations and insertions (c72_patched); deletion of slots excluded there"
  },
  {
   "property": "C73",
   "status": "proved",
   "theorems": [
    "Mpt.Props.c73_sound",
    "Mpt.Props.c73_complete",
    "Mpt.Props.c73_full",
    "Mpt.Props.c73_false",
    "Mpt.Props.c73_full_blank"
   ],
   "note": "n_rows < usable rows is a hypothesis of the completeness part, necessary by c73_full/c73_false (B17)"
  },
  {
   "property": "C74",
   "status": "partial",
   "theorems": [
    "Mpt.Props.c74_false_partial",
    "Mpt.Props.c74_true",
    "Mpt.Props.history_iff"
   ],
   "note": "Completeness (c74_true) is full. Soundness: only for claims that the circuit decides (StateClaim.Decided; the others are findings B3-B9), with n_rows % 32 != 0 and the edges of the byte and canonical tables in order (B1, B2)."
  },
  {
   "property": "C75",
   "status": "proved",
   "theorems": [
    "Mpt.Props.c75_false",
    "Mpt.Props.c75_true"
   ],
   "note": "For n_rows % 32 != 0 (the part of B2 that is a condition on the parameter; the rest of B1 and B2 is among the added conditions). The added constraints are the predicate Patched of C63; they are not in /repo."
  },
  {
   "property": "C76",
   "status": "partial",
   "theorems": [
    "Mpt.Props.c76_chain_partial",
    "Mpt.Props.c76_fraction_partial",
    "Mpt.Props.c76_true"
   ],
   "note": "Completeness (c76_true) is full. Soundness as C74: only for claims that the circuit decides (the others are findings B3-B9), n_rows % 32 != 0, edges of the byte and canonical tables in order (B1, B2)."
  },
  {
   "property": "C77",
   "status": "proved",
   "theorems": [
    "Mpt.Props.c77_chain",
    "Mpt.Props.c77_fraction",
    "Mpt.Props.c77_true"
   ],
   "note": "For n_rows % 32 != 0, as C75. The added constraints are the predicate Patched of C63; they are not in /repo."
  }
 ]
}