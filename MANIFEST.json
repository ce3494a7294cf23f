{
 "claims": [
  {
   "property": "C01",
   "status": "proved",
   "theorems": [
    "Triptych.C01_new_with_generators",
    "Triptych.C01_new"
   ],
   "note": ""
  },
  {
   "property": "C02",
   "status": "proved",
   "theorems": [
    "Triptych.C02_sizes",
    "Triptych.C02_generators"
   ],
   "note": ""
  },
  {
   "property": "C03",
   "status": "proved",
   "theorems": [
    "Triptych.C03_hash",
    "Triptych.C03_binding"
   ],
   "note": ""
  },
  {
   "property": "C04",
   "status": "proved",
   "theorems": [
    "Triptych.C04_new",
    "Triptych.C04_padding",
    "Triptych.C04_no_padding"
   ],
   "note": ""
  },
  {
   "property": "C05",
   "status": "proved",
   "theorems": [
    "Triptych.C05_hash",
    "Triptych.C05_binding",
    "Triptych.C05_padding_visible"
   ],
   "note": ""
  },
  {
   "property": "C06",
   "status": "proved",
   "theorems": [
    "Triptych.C06_new",
    "Triptych.C06_exists"
   ],
   "note": ""
  },
  {
   "property": "C07",
   "status": "proved",
   "theorems": [
    "Triptych.C07_hash",
    "Triptych.C07_binding"
   ],
   "note": ""
  },
  {
   "property": "C08",
   "status": "proved",
   "theorems": [
    "Triptych.C08_new"
   ],
   "note": ""
  },
  {
   "property": "C09",
   "status": "proved",
   "theorems": [
    "Triptych.C09_random",
    "Triptych.C09_zero_key"
   ],
   "note": ""
  },
  {
   "property": "C10",
   "status": "proved",
   "theorems": [
    "Triptych.C10_relation",
    "Triptych.C10_link",
    "Triptych.C10_key"
   ],
   "note": ""
  },
  {
   "property": "C11",
   "status": "proved",
   "theorems": [
    "Triptych.C11_reject",
    "Triptych.C11_accept",
    "Triptych.C11_no_panic"
   ],
   "note": ""
  },
  {
   "property": "C12",
   "status": "proved",
   "theorems": [
    "Triptych.C12_zero_key",
    "Triptych.C12_zeroized"
   ],
   "note": ""
  },
  {
   "property": "C13",
   "status": "proved",
   "theorems": [
    "Triptych.C13_timing"
   ],
   "note": ""
  },
  {
   "property": "C14",
   "status": "proved",
   "theorems": [
    "Triptych.C14_complete",
    "Triptych.C14_exception"
   ],
   "note": ""
  },
  {
   "property": "C15",
   "status": "proved",
   "theorems": [
    "Triptych.C15_batch"
   ],
   "note": ""
  },
  {
   "property": "C16",
   "status": "proved",
   "theorems": [
    "Triptych.C16_no_panic",
    "Triptych.C16_shape"
   ],
   "note": ""
  },
  {
   "property": "C17",
   "status": "proved",
   "theorems": [
    "Triptych.C17_statement_exists",
    "Triptych.C17_release",
    "Triptych.C17_debug",
    "Triptych.C17_reachable"
   ],
   "note": ""
  },
  {
   "property": "C18",
   "status": "proved",
   "theorems": [
    "Triptych.C18_accepted",
    "Triptych.C18_verdict",
    "Triptych.C18_weights",
    "Triptych.C18_valid"
   ],
   "note": ""
  },
  {
   "property": "C19",
   "status": "proved",
   "theorems": [
    "Triptych.C19_unique",
    "Triptych.C19_count",
    "Triptych.C19_accepted"
   ],
   "note": ""
  },
  {
   "property": "C20",
   "status": "proved",
   "theorems": [
    "Triptych.C20_extract",
    "Triptych.C20_accepted"
   ],
   "note": ""
  },
  {
   "property": "C21",
   "status": "proved",
   "theorems": [
    "Triptych.C21_prover",
    "Triptych.C21_prover_history",
    "Triptych.C21_accepted",
    "Triptych.C21_linkable",
    "Triptych.C21_tags",
    "Triptych.C21_history",
    "Triptych.C21_extracted"
   ],
   "note": ""
  },
  {
   "property": "C22",
   "status": "proved",
   "theorems": [
    "Triptych.C22_unique",
    "Triptych.C22_accepted"
   ],
   "note": ""
  },
  {
   "property": "C23",
   "status": "proved",
   "theorems": [
    "Triptych.C23_prover",
    "Triptych.C23_verifier",
    "Triptych.C23_binding",
    "Triptych.C23_response",
    "Triptych.C23_replay",
    "Triptych.C23_statement"
   ],
   "note": ""
  },
  {
   "property": "C24",
   "status": "proved",
   "theorems": [
    "Triptych.C24_prover",
    "Triptych.C24_verifier",
    "Triptych.C24_objects",
    "Triptych.C24_proof",
    "Triptych.C24_hashes",
    "Triptych.C24_kinds"
   ],
   "note": ""
  },
  {
   "property": "C25",
   "status": "proved",
   "theorems": [
    "Triptych.C25_nonces",
    "Triptych.C25_key_inj",
    "Triptych.C25_query_inj",
    "Triptych.C25_indices"
   ],
   "note": ""
  },
  {
   "property": "C26",
   "status": "proved",
   "theorems": [
    "Triptych.C26_accepted",
    "Triptych.C26_prover",
    "Triptych.C26_prover_rejected",
    "Triptych.C26_verifier",
    "Triptych.C26_extends",
    "Triptych.C26_verify_rejected",
    "Triptych.C26_only_appends",
    "Triptych.C26_prover_only_appends"
   ],
   "note": ""
  },
  {
   "property": "C27",
   "status": "proved",
   "theorems": [
    "Triptych.C27_errors",
    "Triptych.C27_accepted"
   ],
   "note": ""
  },
  {
   "property": "C28",
   "status": "proved",
   "theorems": [
    "Triptych.C28_empty",
    "Triptych.C28_single"
   ],
   "note": ""
  },
  {
   "property": "C29",
   "status": "proved",
   "theorems": [
    "Triptych.C29_blame",
    "Triptych.C29_evidence",
    "Triptych.C29_minimal"
   ],
   "note": ""
  },
  {
   "property": "C30",
   "status": "proved",
   "theorems": [
    "Triptych.C30_cost",
    "Triptych.C30_named"
   ],
   "note": ""
  },
  {
   "property": "C31",
   "status": "proved",
   "theorems": [
    "Triptych.C31_no_panic",
    "Triptych.C31_panic",
    "Triptych.C31_wrong_blame",
    "Triptych.C31_full"
   ],
   "note": ""
  },
  {
   "property": "C32",
   "status": "proved",
   "theorems": [
    "Triptych.C32_full"
   ],
   "note": ""
  },
  {
   "property": "C33",
   "status": "proved",
   "theorems": [
    "Triptych.C33_single",
    "Triptych.C33_full"
   ],
   "note": ""
  },
  {
   "property": "C34",
   "status": "proved",
   "theorems": [
    "Triptych.C34_round_trip",
    "Triptych.C34_prover",
    "Triptych.C34_decoded"
   ],
   "note": ""
  },
  {
   "property": "C35",
   "status": "proved",
   "theorems": [
    "Triptych.C35_canonical"
   ],
   "note": ""
  },
  {
   "property": "C36",
   "status": "proved",
   "theorems": [
    "Triptych.C36_exact",
    "Triptych.C36_length",
    "Triptych.C36_prefix_free",
    "Triptych.C36_blocks"
   ],
   "note": ""
  },
  {
   "property": "C37",
   "status": "proved",
   "theorems": [
    "Triptych.C37_serialize",
    "Triptych.C37_round_trip",
    "Triptych.C37_exact"
   ],
   "note": ""
  },
  {
   "property": "C38",
   "status": "proved",
   "theorems": [
    "Triptych.C38_panic",
    "Triptych.C38_lossy",
    "Triptych.C38_prover"
   ],
   "note": ""
  },
  {
   "property": "C39",
   "status": "proved",
   "theorems": [
    "Triptych.C39_decompose",
    "Triptych.C39_bijective",
    "Triptych.C39_step",
    "Triptych.C39_iterator",
    "Triptych.C39_end",
    "Triptych.C39_refused"
   ],
   "note": ""
  },
  {
   "property": "C40",
   "status": "proved",
   "theorems": [
    "Triptych.C40_nonces",
    "Triptych.C40_coins",
    "Triptych.C40_simulated_valid",
    "Triptych.C40_real",
    "Triptych.C40_random",
    "Triptych.C40_view",
    "Triptych.C40_signer",
    "Triptych.C40_advantage"
   ],
   "note": ""
  },
  {
   "property": "C41",
   "status": "proved",
   "theorems": [
    "Triptych.C41_seeds",
    "Triptych.C41_few",
    "Triptych.C41_forgery",
    "Triptych.C41_accepted"
   ],
   "note": ""
  },
  {
   "property": "C42",
   "status": "proved",
   "theorems": [
    "Triptych.C42_verify_batch",
    "Triptych.C42_blame"
   ],
   "note": ""
  },
  {
   "property": "C43",
   "status": "proved",
   "theorems": [
    "Triptych.C43_commit_matrix",
    "Triptych.C43_linear"
   ],
   "note": ""
  },
  {
   "property": "C44",
   "status": "proved",
   "theorems": [
    "Triptych.C44_challenge",
    "Triptych.C44_response",
    "Triptych.C44_transcripts"
   ],
   "note": ""
  },
  {
   "property": "C45",
   "status": "proved",
   "theorems": [
    "Triptych.Parallel.C45_new_with_generators",
    "Triptych.Parallel.C45_new",
    "Triptych.Parallel.C45_sizes",
    "Triptych.Parallel.C45_generators",
    "Triptych.Parallel.C45_hash",
    "Triptych.Parallel.C45_binding",
    "Triptych.Parallel.C45_commit_matrix",
    "Triptych.Parallel.C45_linear"
   ],
   "note": ""
  },
  {
   "property": "C46",
   "status": "proved",
   "theorems": [
    "Triptych.Parallel.C46_input_set_new",
    "Triptych.Parallel.C46_padding",
    "Triptych.Parallel.C46_no_padding",
    "Triptych.Parallel.C46_input_set_hash",
    "Triptych.Parallel.C46_input_set_binding",
    "Triptych.Parallel.C46_padding_visible",
    "Triptych.Parallel.C46_statement_new",
    "Triptych.Parallel.C46_exists",
    "Triptych.Parallel.C46_statement_hash",
    "Triptych.Parallel.C46_statement_binding"
   ],
   "note": ""
  },
  {
   "property": "C47",
   "status": "proved",
   "theorems": [
    "Triptych.Parallel.C47_new",
    "Triptych.Parallel.C47_random",
    "Triptych.Parallel.C47_zero_key",
    "Triptych.Parallel.C47_relation",
    "Triptych.Parallel.C47_link",
    "Triptych.Parallel.C47_key"
   ],
   "note": ""
  },
  {
   "property": "C48",
   "status": "proved",
   "theorems": [
    "Triptych.Parallel.C48_reject",
    "Triptych.Parallel.C48_accept",
    "Triptych.Parallel.C48_no_panic",
    "Triptych.Parallel.C48_zero_key",
    "Triptych.Parallel.C48_zeroized",
    "Triptych.Parallel.C48_timing",
    "Triptych.Parallel.C48_nonces",
    "Triptych.Parallel.C48_key_inj",
    "Triptych.Parallel.C48_indices"
   ],
   "note": ""
  },
  {
   "property": "C49",
   "status": "proved",
   "theorems": [
    "Triptych.Parallel.C49_complete",
    "Triptych.Parallel.C49_exception",
    "Triptych.Parallel.C49_batch"
   ],
   "note": ""
  },
  {
   "property": "C50",
   "status": "proved",
   "theorems": [
    "Triptych.Parallel.C50_errors",
    "Triptych.Parallel.C50_batch_accepted",
    "Triptych.Parallel.C50_empty",
    "Triptych.Parallel.C50_single",
    "Triptych.Parallel.C50_accepted",
    "Triptych.Parallel.C50_verdict",
    "Triptych.Parallel.C50_weights",
    "Triptych.Parallel.C50_valid",
    "Triptych.Parallel.C50_challenge",
    "Triptych.Parallel.C50_response",
    "Triptych.Parallel.C50_transcripts",
    "Triptych.Parallel.C50_no_panic",
    "Triptych.Parallel.C50_shape",
    "Triptych.Parallel.C50_weight_unique",
    "Triptych.Parallel.C50_weight_count",
    "Triptych.Parallel.C50_exceptional"
   ],
   "note": ""
  },
  {
   "property": "C51",
   "status": "proved",
   "theorems": [
    "Triptych.Parallel.C51_prover",
    "Triptych.Parallel.C51_prover_history",
    "Triptych.Parallel.C51_linkable_accepted",
    "Triptych.Parallel.C51_extract",
    "Triptych.Parallel.C51_accepted",
    "Triptych.Parallel.C51_linkable",
    "Triptych.Parallel.C51_tags",
    "Triptych.Parallel.C51_history",
    "Triptych.Parallel.C51_extracted",
    "Triptych.Parallel.C51_unique",
    "Triptych.Parallel.C51_unique_accepted"
   ],
   "note": ""
  },
  {
   "property": "C52",
   "status": "proved",
   "theorems": [
    "Triptych.Parallel.C52_exact",
    "Triptych.Parallel.C52_round_trip",
    "Triptych.Parallel.C52_prover",
    "Triptych.Parallel.C52_decoded",
    "Triptych.Parallel.C52_canonical",
    "Triptych.Parallel.C52_length",
    "Triptych.Parallel.C52_prefix_free",
    "Triptych.Parallel.C52_blocks",
    "Triptych.Parallel.C52_serialize",
    "Triptych.Parallel.C52_borsh_round_trip",
    "Triptych.Parallel.C52_borsh_exact",
    "Triptych.Parallel.C52_panic",
    "Triptych.Parallel.C52_lossy",
    "Triptych.Parallel.C52_prover_bytes"
   ],
   "note": ""
  },
  {
   "property": "C53",
   "status": "proved",
   "theorems": [
    "Triptych.Parallel.C53_blame",
    "Triptych.Parallel.C53_evidence",
    "Triptych.Parallel.C53_minimal",
    "Triptych.Parallel.C53_cost",
    "Triptych.Parallel.C53_named",
    "Triptych.Parallel.C53_no_panic",
    "Triptych.Parallel.C53_panic",
    "Triptych.Parallel.C53_wrong_blame",
    "Triptych.Parallel.C53_full",
    "Triptych.Parallel.C53_full_lengths",
    "Triptych.Parallel.C53_single_transcripts",
    "Triptych.Parallel.C53_full_transcripts"
   ],
   "note": ""
  },
  {
   "property": "C54",
   "status": "proved",
   "theorems": [
    "Triptych.Parallel.C54_accepted",
    "Triptych.Parallel.C54_prover_binding",
    "Triptych.Parallel.C54_verifier_binding",
    "Triptych.Parallel.C54_prover",
    "Triptych.Parallel.C54_prover_rejected",
    "Triptych.Parallel.C54_verifier",
    "Triptych.Parallel.C54_extends",
    "Triptych.Parallel.C54_verify_rejected",
    "Triptych.Parallel.C54_only_appends",
    "Triptych.Parallel.C54_prover_only_appends",
    "Triptych.Parallel.C54_binding",
    "Triptych.Parallel.C54_response",
    "Triptych.Parallel.C54_replay",
    "Triptych.Parallel.C54_statement",
    "Triptych.Parallel.C54_kinds"
   ],
   "note": ""
  },
  {
   "property": "C55",
   "status": "proved",
   "theorems": [
    "Triptych.Parallel.C55_accepted",
    "Triptych.Parallel.C55_setup",
    "Triptych.Parallel.C55_reject",
    "Triptych.Parallel.C55_proves",
    "Triptych.Parallel.C55_complete",
    "Triptych.Parallel.C55_sound",
    "Triptych.Parallel.C55_balance"
   ],
   "note": ""
  },
  {
   "property": "C56",
   "status": "proved",
   "theorems": [
    "Triptych.Parallel.C56_large",
    "Triptych.Parallel.C56_statement_exists",
    "Triptych.Parallel.C56_release",
    "Triptych.Parallel.C56_debug",
    "Triptych.Parallel.C56_reachable"
   ],
   "note": ""
  },
  {
   "property": "C57",
   "status": "proved",
   "theorems": [
    "Triptych.Parallel.C57_seeds",
    "Triptych.Parallel.C57_few",
    "Triptych.Parallel.C57_forgery",
    "Triptych.Parallel.C57_accepted",
    "Triptych.Parallel.C57_deterministic",
    "Triptych.Parallel.C57_deterministic_blame"
   ],
   "note": ""
  },
  {
   "property": "C58",
   "status": "proved",
   "theorems": [
    "Triptych.C58_accepted",
    "Triptych.Parallel.C58_accepted_parallel",
    "Triptych.C58_prime",
    "Triptych.C58_small_sums",
    "Triptych.C58_small_sums_parallel",
    "Triptych.C58_extract",
    "Triptych.C58_extract_parallel",
    "Triptych.C58_weights",
    "Triptych.C58_weights_parallel",
    "Triptych.C58_generates",
    "Triptych.C58_masks",
    "Triptych.C58_masks_parallel",
    "Triptych.C58_wide"
   ],
   "note": ""
  },
  {
   "property": "C59",
   "status": "proved",
   "theorems": [
    "Triptych.Parallel.C59_nonces",
    "Triptych.Parallel.C59_coins",
    "Triptych.Parallel.C59_simulated_valid",
    "Triptych.Parallel.C59_real",
    "Triptych.Parallel.C59_random",
    "Triptych.Parallel.C59_view",
    "Triptych.Parallel.C59_signer",
    "Triptych.Parallel.C59_advantage"
   ],
   "note": ""
  },
  {
   "property": "C60",
   "status": "proved",
   "theorems": [
    "Triptych.C60_forge",
    "Triptych.C60_ristretto",
    "Triptych.C60_accepted",
    "Triptych.C60_honest"
   ],
   "note": ""
  },
  {
   "property": "C61",
   "status": "proved",
   "theorems": [
    "Triptych.Parallel.C61_forge",
    "Triptych.Parallel.C61_ristretto",
    "Triptych.Parallel.C61_accepted",
    "Triptych.Parallel.C61_honest"
   ],
   "note": ""
  },
  {
   "property": "C62",
   "status": "proved",
   "theorems": [
    "Triptych.C62_erase",
    "Triptych.C62_constant",
    "Triptych.C62_valid",
    "Triptych.C62_vartime"
   ],
   "note": ""
  },
  {
   "property": "C63",
   "status": "proved",
   "theorems": [
    "Triptych.Parallel.C63_erase",
    "Triptych.Parallel.C63_constant",
    "Triptych.Parallel.C63_valid",
    "Triptych.Parallel.C63_vartime"
   ],
   "note": ""
  },
  {
   "property": "C64",
   "status": "proved",
   "theorems": [
    "Triptych.C64_index",
    "Triptych.C64_key",
    "Triptych.C64_index_parallel",
    "Triptych.C64_key_parallel"
   ],
   "note": ""
  },
  {
   "property": "C65",
   "status": "proved",
   "theorems": [
    "Triptych.C65_size",
    "Triptych.C65_decoded",
    "Triptych.Parallel.C65_size_parallel",
    "Triptych.Parallel.C65_decoded_parallel"
   ],
   "note": ""
  },
  {
   "property": "C66",
   "status": "proved",
   "theorems": [
    "Triptych.C66_setup",
    "Triptych.C66_example",
    "Triptych.Parallel.C66_setup_parallel",
    "Triptych.Parallel.C66_example_parallel"
   ],
   "note": ""
  },
  {
   "property": "C67",
   "status": "proved",
   "theorems": [
    "Triptych.C67_fuzz",
    "Triptych.Parallel.C67_fuzz_parallel"
   ],
   "note": ""
  },
  {
   "property": "C68",
   "status": "proved",
   "theorems": [
    "Triptych.C68_relation",
    "Triptych.C68_complete",
    "Triptych.C68_accepted",
    "Triptych.Parallel.C68_relation_parallel",
    "Triptych.Parallel.C68_complete_parallel",
    "Triptych.Parallel.C68_accepted_parallel"
   ],
   "note": ""
  },
  {
   "property": "C69",
   "status": "proved",
   "theorems": [
    "Triptych.Parallel.C69_erase_parallel",
    "Triptych.Parallel.C69_one_parallel",
    "Triptych.Parallel.C69_none_parallel",
    "Triptych.Parallel.C69_saving_parallel",
    "Triptych.C69_erase",
    "Triptych.C69_one",
    "Triptych.C69_none",
    "Triptych.C69_saving"
   ],
   "note": ""
  },
  {
   "property": "C70",
   "status": "proved",
   "theorems": [
    "Triptych.C70_code",
    "Triptych.C70_keyless",
    "Triptych.C70_random",
    "Triptych.C70_zero_knowledge"
   ],
   "note": ""
  },
  {
   "property": "C71",
   "status": "proved",
   "theorems": [
    "Triptych.C71_forge",
    "Triptych.C71_no_key",
    "Triptych.C71_accepted",
    "Triptych.C71_same",
    "Triptych.C71_frame",
    "Triptych.C71_ristretto"
   ],
   "note": ""
  },
  {
   "property": "C72",
   "status": "proved",
   "theorems": [
    "Triptych.Parallel.C72_code",
    "Triptych.Parallel.C72_keyless",
    "Triptych.Parallel.C72_random",
    "Triptych.Parallel.C72_zero_knowledge"
   ],
   "note": ""
  },
  {
   "property": "C73",
   "status": "proved",
   "theorems": [
    "Triptych.Parallel.C73_forge",
    "Triptych.Parallel.C73_no_key",
    "Triptych.Parallel.C73_accepted",
    "Triptych.Parallel.C73_same",
    "Triptych.Parallel.C73_frame",
    "Triptych.Parallel.C73_ristretto"
   ],
   "note": ""
  },
  {
   "property": "C74",
   "status": "proved",
   "theorems": [
    "Triptych.C74_code",
    "Triptych.C74_uniform",
    "Triptych.C74_signing",
    "Triptych.C74_ristretto",
    "Triptych.C74_forge"
   ],
   "note": ""
  },
  {
   "property": "C75",
   "status": "proved",
   "theorems": [
    "Triptych.C75_terminates",
    "Triptych.C75_accept",
    "Triptych.C75_ristretto",
    "Triptych.C75_ristretto_terminates"
   ],
   "note": ""
  },
  {
   "property": "C76",
   "status": "proved",
   "theorems": [
    "Triptych.Parallel.C76_code",
    "Triptych.Parallel.C76_uniform",
    "Triptych.Parallel.C76_signing",
    "Triptych.Parallel.C76_ristretto",
    "Triptych.Parallel.C76_forge"
   ],
   "note": ""
  },
  {
   "property": "C77",
   "status": "proved",
   "theorems": [
    "Triptych.Parallel.C77_terminates",
    "Triptych.Parallel.C77_accept",
    "Triptych.Parallel.C77_ristretto",
    "Triptych.Parallel.C77_ristretto_terminates"
   ],
   "note": ""
  },
  {
   "property": "C78",
   "status": "proved",
   "theorems": [
    "Triptych.C78_accept",
    "Triptych.C78_ristretto",
    "Triptych.C78_known",
    "Triptych.C78_known_ristretto"
   ],
   "note": ""
  },
  {
   "property": "C79",
   "status": "proved",
   "theorems": [
    "Triptych.C79_accept",
    "Triptych.C79_ristretto"
   ],
   "note": ""
  },
  {
   "property": "C80",
   "status": "proved",
   "theorems": [
    "Triptych.C80_ristretto"
   ],
   "note": ""
  },
  {
   "property": "C81",
   "status": "proved",
   "theorems": [
    "Triptych.Parallel.C81_accept",
    "Triptych.Parallel.C81_ristretto",
    "Triptych.Parallel.C81_known",
    "Triptych.Parallel.C81_known_ristretto"
   ],
   "note": ""
  },
  {
   "property": "C82",
   "status": "proved",
   "theorems": [
    "Triptych.Parallel.C82_accept",
    "Triptych.Parallel.C82_ristretto"
   ],
   "note": ""
  },
  {
   "property": "C83",
   "status": "proved",
   "theorems": [
    "Triptych.Parallel.C83_ristretto"
   ],
   "note": ""
  },
  {
   "property": "C84",
   "status": "proved",
   "theorems": [
    "Triptych.C84_exact",
    "Triptych.C84_round_trip",
    "Triptych.C84_serialize",
    "Triptych.C84_canonical",
    "Triptych.C84_order",
    "Triptych.C84_unknown",
    "Triptych.C84_reject",
    "Triptych.C84_shapes",
    "Triptych.C84_verify"
   ],
   "note": ""
  },
  {
   "property": "C85",
   "status": "proved",
   "theorems": [
    "Triptych.Parallel.C85_exact",
    "Triptych.Parallel.C85_round_trip",
    "Triptych.Parallel.C85_serialize",
    "Triptych.Parallel.C85_canonical",
    "Triptych.Parallel.C85_order",
    "Triptych.Parallel.C85_unknown",
    "Triptych.Parallel.C85_reject",
    "Triptych.Parallel.C85_shapes",
    "Triptych.Parallel.C85_verify",
    "Triptych.Parallel.C85_cross"
   ],
   "note": ""
  },
  {
   "property": "C86",
   "status": "proved",
   "theorems": [
    "Triptych.C86_challenges",
    "Triptych.C86_tight",
    "Triptych.C86_relation",
    "Triptych.C86_reuse",
    "Triptych.C86_ristretto",
    "Triptych.C86_verify"
   ],
   "note": ""
  },
  {
   "property": "C87",
   "status": "proved",
   "theorems": [
    "Triptych.Parallel.C87_challenges",
    "Triptych.Parallel.C87_tight",
    "Triptych.Parallel.C87_relation",
    "Triptych.Parallel.C87_reuse",
    "Triptych.Parallel.C87_ristretto",
    "Triptych.Parallel.C87_verify"
   ],
   "note": ""
  },
  {
   "property": "C88",
   "status": "proved",
   "theorems": [
    "Triptych.C88_all_keys",
    "Triptych.C88_ristretto",
    "Triptych.C88_ring"
   ],
   "note": ""
  },
  {
   "property": "C89",
   "status": "proved",
   "theorems": [
    "Triptych.Parallel.C89_all_keys",
    "Triptych.Parallel.C89_ristretto",
    "Triptych.Parallel.C89_ring"
   ],
   "note": ""
  },
  {
   "property": "C90",
   "status": "proved",
   "theorems": [
    "Triptych.C90_ristretto",
    "Triptych.C90_unlinkable"
   ],
   "note": ""
  },
  {
   "property": "C91",
   "status": "proved",
   "theorems": [
    "Triptych.Parallel.C91_ristretto",
    "Triptych.Parallel.C91_unlinkable"
   ],
   "note": ""
  },
  {
   "property": "C92",
   "status": "proved",
   "theorems": [
    "Triptych.C92_ristretto",
    "Triptych.C92_unlinkable"
   ],
   "note": ""
  },
  {
   "property": "C93",
   "status": "proved",
   "theorems": [
    "Triptych.Parallel.C93_ristretto",
    "Triptych.Parallel.C93_unlinkable"
   ],
   "note": ""
  },
  {
   "property": "C94",
   "status": "proved",
   "theorems": [
    "Triptych.C94_anonymity",
    "Triptych.C94_tag",
    "Triptych.C94_family",
    "Triptych.C94_ristretto"
   ],
   "note": ""
  },
  {
   "property": "C95",
   "status": "proved",
   "theorems": [
    "Triptych.Parallel.C95_anonymity",
    "Triptych.Parallel.C95_family",
    "Triptych.Parallel.C95_ristretto"
   ],
   "note": ""
  },
  {
   "property": "C96",
   "status": "proved",
   "theorems": [
    "Triptych.C96_result",
    "Triptych.C96_memory",
    "Triptych.C96_invalid",
    "Triptych.C96_witness",
    "Triptych.C96_key",
    "Triptych.C96_keyless",
    "Triptych.C96_forge",
    "Triptych.C96_no_key",
    "Triptych.C96_ristretto"
   ],
   "note": ""
  },
  {
   "property": "C97",
   "status": "proved",
   "theorems": [
    "Triptych.Parallel.C97_result",
    "Triptych.Parallel.C97_memory",
    "Triptych.Parallel.C97_invalid",
    "Triptych.Parallel.C97_witness",
    "Triptych.Parallel.C97_key",
    "Triptych.Parallel.C97_keyless",
    "Triptych.Parallel.C97_forge",
    "Triptych.Parallel.C97_no_key",
    "Triptych.Parallel.C97_ristretto"
   ],
   "note": ""
  },
  {
   "property": "C98",
   "status": "proved",
   "theorems": [
    "Triptych.C98_runs",
    "Triptych.C98_count",
    "Triptych.C98_forge",
    "Triptych.C98_ristretto",
    "Triptych.C98_choose",
    "Triptych.C98_signing",
    "Triptych.C98_accepted",
    "Triptych.C98_unlinkable",
    "Triptych.C98_batch"
   ],
   "note": ""
  },
  {
   "property": "C99",
   "status": "proved",
   "theorems": [
    "Triptych.Parallel.C99_runs",
    "Triptych.Parallel.C99_forge",
    "Triptych.Parallel.C99_ristretto",
    "Triptych.Parallel.C99_choose",
    "Triptych.Parallel.C99_signing",
    "Triptych.Parallel.C99_accepted",
    "Triptych.Parallel.C99_unlinkable",
    "Triptych.Parallel.C99_batch"
   ],
   "note": ""
  },
  {
   "property": "C100",
   "status": "proved",
   "theorems": [
    "Triptych.C100_erase",
    "Triptych.C100_cost",
    "Triptych.Parallel.C100_erase_parallel",
    "Triptych.Parallel.C100_cost_parallel"
   ],
   "note": ""
  },
  {
   "property": "C101",
   "status": "proved",
   "theorems": [
    "Triptych.C101_erase",
    "Triptych.C101_exact",
    "Triptych.C101_decoded",
    "Triptych.C101_prover",
    "Triptych.C101_ragged",
    "Triptych.Parallel.C101_erase_parallel",
    "Triptych.Parallel.C101_exact_parallel",
    "Triptych.Parallel.C101_decoded_parallel",
    "Triptych.Parallel.C101_prover_parallel",
    "Triptych.Parallel.C101_ragged_parallel"
   ],
   "note": ""
  },
  {
   "property": "C102",
   "status": "proved",
   "theorems": [
    "Triptych.Parallel.C102_prove_parallel",
    "Triptych.Parallel.C102_rejected_parallel",
    "Triptych.Parallel.C102_totals_parallel",
    "Triptych.C102_prove",
    "Triptych.C102_rejected",
    "Triptych.C102_totals"
   ],
   "note": ""
  },
  {
   "property": "C103",
   "status": "proved",
   "theorems": [
    "Triptych.C103_accept",
    "Triptych.C103_ristretto"
   ],
   "note": ""
  },
  {
   "property": "C104",
   "status": "proved",
   "theorems": [
    "Triptych.Parallel.C104_accept",
    "Triptych.Parallel.C104_ristretto"
   ],
   "note": ""
  },
  {
   "property": "C105",
   "status": "proved",
   "theorems": [
    "Triptych.C105_params",
    "Triptych.C105_forge",
    "Triptych.C105_links",
    "Triptych.C105_batch"
   ],
   "note": ""
  },
  {
   "property": "C106",
   "status": "proved",
   "theorems": [
    "Triptych.Parallel.C106_params",
    "Triptych.Parallel.C106_forge",
    "Triptych.Parallel.C106_links",
    "Triptych.Parallel.C106_batch"
   ],
   "note": ""
  },
  {
   "property": "C107",
   "status": "proved",
   "theorems": [
    "Triptych.Parallel.C107_amount",
    "Triptych.Parallel.C107_batch",
    "Triptych.Parallel.C107_ringct",
    "Triptych.Parallel.C107_ringct_batch"
   ],
   "note": ""
  },
  {
   "property": "C108",
   "status": "proved",
   "theorems": [
    "Triptych.C108_collision",
    "Triptych.C108_preimage"
   ],
   "note": ""
  },
  {
   "property": "C109",
   "status": "proved",
   "theorems": [
    "Triptych.C109_forge",
    "Triptych.C109_links",
    "Triptych.C109_batch"
   ],
   "note": ""
  },
  {
   "property": "C110",
   "status": "proved",
   "theorems": [
    "Triptych.Parallel.C110_forge",
    "Triptych.Parallel.C110_links",
    "Triptych.Parallel.C110_batch",
    "Triptych.Parallel.C110_amount",
    "Triptych.Parallel.C110_amount_batch",
    "Triptych.Parallel.C110_ringct"
   ],
   "note": ""
  },
  {
   "property": "C111",
   "status": "proved",
   "theorems": [
    "Triptych.C111_unlinkable",
    "Triptych.C111_guess",
    "Triptych.C111_pool",
    "Triptych.C111_ristretto"
   ],
   "note": ""
  },
  {
   "property": "C112",
   "status": "proved",
   "theorems": [
    "Triptych.Parallel.C112_unlinkable",
    "Triptych.Parallel.C112_guess",
    "Triptych.Parallel.C112_pool",
    "Triptych.Parallel.C112_ristretto"
   ],
   "note": ""
  },
  {
   "property": "C113",
   "status": "proved",
   "theorems": [
    "Triptych.C113_data",
    "Triptych.C113_batch",
    "Triptych.Parallel.C113_data_parallel",
    "Triptych.Parallel.C113_batch_parallel"
   ],
   "note": ""
  },
  {
   "property": "C114",
   "status": "proved",
   "theorems": [
    "Triptych.C114_blame",
    "Triptych.C114_ristretto"
   ],
   "note": ""
  },
  {
   "property": "C115",
   "status": "proved",
   "theorems": [
    "Triptych.Parallel.C115_blame",
    "Triptych.Parallel.C115_ristretto"
   ],
   "note": ""
  },
  {
   "property": "C116",
   "status": "proved",
   "theorems": [
    "Triptych.C116_prove",
    "Triptych.C116_verify",
    "Triptych.Parallel.C116_prove_parallel",
    "Triptych.Parallel.C116_verify_parallel"
   ],
   "note": ""
  },
  {
   "property": "C117",
   "status": "proved",
   "theorems": [
    "Triptych.C117_zeroize",
    "Triptych.Parallel.C117_zeroize_parallel"
   ],
   "note": ""
  },
  {
   "property": "C118",
   "status": "proved",
   "theorems": [
    "Triptych.Parallel.C118_exchanged_parallel",
    "Triptych.C118_exchanged"
   ],
   "note": ""
  },
  {
   "property": "C119",
   "status": "proved",
   "theorems": [
    "Triptych.C119_bytes",
    "Triptych.C119_borsh",
    "Triptych.C119_serde"
   ],
   "note": ""
  },
  {
   "property": "C120",
   "status": "proved",
   "theorems": [
    "Triptych.C120_recover",
    "Triptych.C120_insider",
    "Triptych.C120_ristretto",
    "Triptych.Parallel.C120_recover_parallel",
    "Triptych.Parallel.C120_insider_parallel",
    "Triptych.Parallel.C120_ristretto_parallel"
   ],
   "note": ""
  },
  {
   "property": "C121",
   "status": "proved",
   "theorems": [
    "Triptych.C121_params",
    "Triptych.C121_new",
    "Triptych.C121_input_set",
    "Triptych.C121_statement",
    "Triptych.C121_proof",
    "Triptych.Parallel.C121_params_parallel",
    "Triptych.Parallel.C121_new_parallel",
    "Triptych.Parallel.C121_input_set_parallel",
    "Triptych.Parallel.C121_statement_parallel",
    "Triptych.Parallel.C121_proof_parallel"
   ],
   "note": ""
  },
  {
   "property": "C122",
   "status": "proved",
   "theorems": [
    "Triptych.C122_continued",
    "Triptych.C122_resumed",
    "Triptych.Parallel.C122_continued_parallel",
    "Triptych.Parallel.C122_resumed_parallel"
   ],
   "note": ""
  },
  {
   "property": "C123",
   "status": "proved",
   "theorems": [
    "Triptych.Parallel.C123_objects_parallel",
    "Triptych.Parallel.C123_no_panic_parallel",
    "Triptych.Parallel.C123_proofs_parallel",
    "Triptych.Parallel.C123_encode_parallel",
    "Triptych.Parallel.C123_errors_parallel",
    "Triptych.Parallel.C123_verify_parallel",
    "Triptych.Parallel.C123_zeroized_parallel",
    "Triptych.Parallel.C123_repeat_parallel",
    "Triptych.C123_objects",
    "Triptych.C123_no_panic",
    "Triptych.C123_proofs",
    "Triptych.C123_encode",
    "Triptych.C123_errors",
    "Triptych.C123_verify",
    "Triptych.C123_zeroized",
    "Triptych.C123_repeat"
   ],
   "note": ""
  },
  {
   "property": "C124",
   "status": "proved",
   "theorems": [
    "Triptych.C124_text",
    "Triptych.C124_constructors",
    "Triptych.C124_prove",
    "Triptych.C124_verify",
    "Triptych.C124_blame",
    "Triptych.Parallel.C124_constructors_parallel",
    "Triptych.Parallel.C124_prove_parallel",
    "Triptych.Parallel.C124_verify_parallel",
    "Triptych.Parallel.C124_blame_parallel"
   ],
   "note": ""
  },
  {
   "property": "C125",
   "status": "proved",
   "theorems": [
    "Triptych.C125_one_size",
    "Triptych.C125_other_size",
    "Triptych.C125_encoded",
    "Triptych.Parallel.C125_one_size_parallel",
    "Triptych.Parallel.C125_other_size_parallel",
    "Triptych.Parallel.C125_encoded_parallel"
   ],
   "note": ""
  }
 ]
}