{
 "claims": [
  {
   "property": "C01",
   "status": "proved",
   "theorems": [
    "Verif.Props.C01_galMultiply",
    "Verif.Props.C01_galMultiply_unique"
   ],
   "note": ""
  },
  {
   "property": "C02",
   "status": "proved",
   "theorems": [
    "Verif.Props.C02_logExp_multiply",
    "Verif.Props.C02_galDivide",
    "Verif.Props.C02_galDivide_zero",
    "Verif.Props.C02_shamir_mult_div"
   ],
   "note": ""
  },
  {
   "property": "C03",
   "status": "proved",
   "theorems": [
    "Verif.Props.C03_galExp",
    "Verif.Props.C03_galExp_bounded",
    "Verif.Props.C03_galExp_negative",
    "Verif.Props.C03_galExp_overflow",
    "Verif.Props.C03_galExp_exact"
   ],
   "note": ""
  },
  {
   "property": "C04",
   "status": "proved",
   "theorems": [
    "Verif.Props.C04_field"
   ],
   "note": ""
  },
  {
   "property": "C05",
   "status": "proved",
   "theorems": [
    "Verif.Props.C05_machine",
    "Verif.Props.C05_mulConstVector",
    "Verif.Props.C05_mulConstVector_generic"
   ],
   "note": ""
  },
  {
   "property": "C06",
   "status": "proved",
   "theorems": [
    "Verif.Props.C06_machine",
    "Verif.Props.C06_addVector",
    "Verif.Props.C06_addVector_generic"
   ],
   "note": ""
  },
  {
   "property": "C07",
   "status": "proved",
   "theorems": [
    "Verif.Props.C07_machine",
    "Verif.Props.C07_noasm_panics",
    "Verif.Props.C07_arm64_mismatch",
    "Verif.Props.C07_amd64_mismatch",
    "Verif.Props.C07_asm_short"
   ],
   "note": ""
  },
  {
   "property": "C08",
   "status": "proved",
   "theorems": [
    "Verif.Props.C08_split_combine"
   ],
   "note": ""
  },
  {
   "property": "C09",
   "status": "proved",
   "theorems": [
    "Verif.Props.C09_splitWithRandomizer_combine"
   ],
   "note": ""
  },
  {
   "property": "C10",
   "status": "proved",
   "theorems": [
    "Verif.Props.C10_splitWithRandomizerOld_combine",
    "Verif.Props.C10_splitGeneric_combine"
   ],
   "note": ""
  },
  {
   "property": "C11",
   "status": "proved",
   "theorems": [
    "Verif.Props.C11_splitP_exact",
    "Verif.Props.C11_splitP_combine",
    "Verif.Props.C11_C13_never_panics",
    "Verif.Props.C11_C34_no_data_race",
    "Verif.Props.C11_terminates"
   ],
   "note": ""
  },
  {
   "property": "C12",
   "status": "proved",
   "theorems": [
    "Verif.Props.C12_split_format",
    "Verif.Props.C12_splitGeneric_format",
    "Verif.Props.C12_splitWithRandomizerOld_format",
    "Verif.Props.C12_splitWithRandomizer_format",
    "Verif.Props.C12_splitP_format"
   ],
   "note": ""
  },
  {
   "property": "C13",
   "status": "proved",
   "theorems": [
    "Verif.Props.C13_C28_splitWithRandomizer_returns",
    "Verif.Props.C13_C28_splitWithRandomizer_returns_large",
    "Verif.Props.C13_split_validates",
    "Verif.Props.C13_splitGeneric_validates",
    "Verif.Props.C13_splitWithRandomizer_validates",
    "Verif.Props.C13_splitWithRandomizerOld_validates",
    "Verif.Props.C11_C13_never_panics",
    "Verif.Props.C13_splitP_validates"
   ],
   "note": ""
  },
  {
   "property": "C14",
   "status": "proved",
   "theorems": [
    "Verif.Props.C14_combine_total"
   ],
   "note": ""
  },
  {
   "property": "C15",
   "status": "proved",
   "theorems": [
    "Verif.Props.C15_combine_order"
   ],
   "note": ""
  },
  {
   "property": "C16",
   "status": "proved",
   "theorems": [
    "Verif.Props.C16_qualified_sets_agree",
    "Verif.Props.C16_more_shares"
   ],
   "note": ""
  },
  {
   "property": "C17",
   "status": "proved",
   "theorems": [
    "Verif.Props.C17_split_reads",
    "Verif.Props.C17_secrecy",
    "Verif.Props.C17_secrecy_joint",
    "Verif.Props.C17_uniform",
    "Verif.Props.C17_splitGeneric_secrecy",
    "Verif.Props.C17_splitGeneric_uniform",
    "Verif.Props.C17_splitP_draws",
    "Verif.Props.C17_splitP_secrecy",
    "Verif.Props.C17_splitP_uniform"
   ],
   "note": ""
  },
  {
   "property": "C18",
   "status": "proved",
   "theorems": [
    "Verif.Props.C18_combine_too_few_ok",
    "Verif.Props.C18_combine_too_few_uniform"
   ],
   "note": ""
  },
  {
   "property": "C19",
   "status": "proved",
   "theorems": [
    "Verif.Props.C19_bytewise",
    "Verif.Props.C19_tamper"
   ],
   "note": ""
  },
  {
   "property": "C20",
   "status": "proved",
   "theorems": [
    "Verif.Props.C20_homomorphic"
   ],
   "note": ""
  },
  {
   "property": "C21",
   "status": "proved",
   "theorems": [
    "Verif.Props.C21_C47_krawczyk_deterministic",
    "Verif.Props.C21_C47_split_deterministic",
    "Verif.Props.C21_C47_splitOld_deterministic"
   ],
   "note": ""
  },
  {
   "property": "C22",
   "status": "proved",
   "theorems": [
    "Verif.Props.C22_chain",
    "Verif.Props.C22_regenerate_same_polynomials",
    "Verif.Props.C22_regenerate_combine",
    "Verif.Props.C22_split_regenerate_combine",
    "Verif.Props.C22_closed_form"
   ],
   "note": ""
  },
  {
   "property": "C23",
   "status": "proved",
   "theorems": [
    "Verif.Props.C23_tags_are_raw_random_bytes",
    "Verif.Props.C23_duplicates_possible"
   ],
   "note": ""
  },
  {
   "property": "C24",
   "status": "proved",
   "theorems": [
    "Verif.Props.C24_returns",
    "Verif.Props.C24_returns_fresh",
    "Verif.Props.C24_diverges",
    "Verif.Props.C24_rejects"
   ],
   "note": ""
  },
  {
   "property": "C25",
   "status": "proved",
   "theorems": [
    "Verif.Props.C25_known_tag",
    "Verif.Props.C25_tag_zero"
   ],
   "note": ""
  },
  {
   "property": "C26",
   "status": "proved",
   "theorems": [
    "Verif.Props.C26_read",
    "Verif.Props.C26_read_prefix",
    "Verif.Props.C26_read_twice"
   ],
   "note": ""
  },
  {
   "property": "C27",
   "status": "proved",
   "theorems": [
    "Verif.Props.C27_perm",
    "Verif.Props.C27_perm255"
   ],
   "note": ""
  },
  {
   "property": "C28",
   "status": "proved",
   "theorems": [
    "Verif.Props.C28_C37_splitWithRandomizer_returns",
    "Verif.Props.C28_distinct",
    "Verif.Props.C28_small",
    "Verif.Props.C28_large",
    "Verif.Props.C13_C28_splitWithRandomizer_returns",
    "Verif.Props.C13_C28_splitWithRandomizer_returns_large"
   ],
   "note": ""
  },
  {
   "property": "C29",
   "status": "proved",
   "theorems": [
    "Verif.Props.C29_tag_zero_is_secret",
    "Verif.Props.C29_leak",
    "Verif.Props.C29_iff",
    "Verif.Props.C29_large"
   ],
   "note": ""
  },
  {
   "property": "C30",
   "status": "proved",
   "theorems": [
    "Verif.Props.C30_old_same_masks",
    "Verif.Props.C30_old_equal",
    "Verif.Props.C30_same_masks",
    "Verif.Props.C30_reuse_lowers_threshold",
    "Verif.Props.C30_reuse_threshold_two",
    "Verif.Props.C30_reuse_one_byte"
   ],
   "note": ""
  },
  {
   "property": "C31",
   "status": "proved",
   "theorems": [
    "Verif.Props.C31_first_byte_leaks",
    "Verif.Props.C31_one_share"
   ],
   "note": ""
  },
  {
   "property": "C32",
   "status": "proved",
   "theorems": [
    "Verif.Props.C32_randomizer_perm",
    "Verif.Props.C32_randomizer_perm_zero"
   ],
   "note": ""
  },
  {
   "property": "C33",
   "status": "proved",
   "theorems": [
    "Verif.Props.C33_capacity",
    "Verif.Props.C33_retained",
    "Verif.Props.C33_full_discards",
    "Verif.Props.C33_empty_new",
    "Verif.Props.C33_fifo",
    "Verif.Props.C33_package_pools",
    "Verif.Props.C33_concurrent_capacity",
    "Verif.Props.C33_never_blocks"
   ],
   "note": ""
  },
  {
   "property": "C34",
   "status": "proved",
   "theorems": [
    "Verif.Props.C34_concurrent_calls",
    "Verif.Props.C34_concurrent_split_combine",
    "Verif.Props.C34_no_data_race",
    "Verif.Props.C34_pool_exclusive",
    "Verif.Props.C34_terminates",
    "Verif.Props.C11_C34_no_data_race",
    "Verif.Props.C34_concurrent_with_splitP"
   ],
   "note": ""
  },
  {
   "property": "C35",
   "status": "proved",
   "theorems": [
    "Verif.Props.C35_split_combine",
    "Verif.Props.C35_splitWithRandomizer_combine"
   ],
   "note": ""
  },
  {
   "property": "C36",
   "status": "proved",
   "theorems": [
    "Verif.Props.C36_split_format",
    "Verif.Props.C36_splitWithRandomizer_format",
    "Verif.Props.C36_C64_tags"
   ],
   "note": ""
  },
  {
   "property": "C37",
   "status": "proved",
   "theorems": [
    "Verif.Props.C37_split_validates",
    "Verif.Props.C37_split_accepts",
    "Verif.Props.C37_splitWithRandomizer_validates",
    "Verif.Props.C37_splitWithRandomizer_succeeds",
    "Verif.Props.C28_C37_splitWithRandomizer_returns"
   ],
   "note": ""
  },
  {
   "property": "C38",
   "status": "proved",
   "theorems": [
    "Verif.Props.C38_too_few_never_ok",
    "Verif.Props.C38_split_too_few",
    "Verif.Props.C38_splitWithRandomizer_too_few"
   ],
   "note": ""
  },
  {
   "property": "C39",
   "status": "proved",
   "theorems": [
    "Verif.Props.C39_nil_entries"
   ],
   "note": ""
  },
  {
   "property": "C40",
   "status": "proved",
   "theorems": [
    "Verif.Props.C40_panics_iff",
    "Verif.Props.C40_otherwise_returns",
    "Verif.Props.C40_index_too_large"
   ],
   "note": ""
  },
  {
   "property": "C41",
   "status": "proved",
   "theorems": [
    "Verif.Props.C41_decrypt_encrypt",
    "Verif.Props.C41_output_feedback",
    "Verif.Props.C41_chunking_irrelevant",
    "Verif.Props.C41_bad_key"
   ],
   "note": ""
  },
  {
   "property": "C42",
   "status": "proved",
   "theorems": [
    "Verif.Props.C42_length_field"
   ],
   "note": ""
  },
  {
   "property": "C43",
   "status": "proved",
   "theorems": [
    "Verif.Props.C43_same_key",
    "Verif.Props.C43_C44_data_share"
   ],
   "note": ""
  },
  {
   "property": "C44",
   "status": "proved",
   "theorems": [
    "Verif.Props.C44_tag_is_key_byte",
    "Verif.Props.C43_C44_data_share",
    "Verif.Props.C44_key_recovery"
   ],
   "note": ""
  },
  {
   "property": "C45",
   "status": "proved",
   "theorems": [
    "Verif.Props.C45_order_irrelevant",
    "Verif.Props.C45_split_order",
    "Verif.Props.C45_splitWithRandomizer_order"
   ],
   "note": ""
  },
  {
   "property": "C46",
   "status": "proved",
   "theorems": [
    "Verif.Props.C46_unknown_algorithm",
    "Verif.Props.C46_round_trip"
   ],
   "note": ""
  },
  {
   "property": "C47",
   "status": "proved",
   "theorems": [
    "Verif.Props.C21_C47_krawczyk_deterministic",
    "Verif.Props.C47_krawczyk_splitWithRandomizer",
    "Verif.Props.C47_krawczyk_combine",
    "Verif.Props.C47_worker",
    "Verif.Props.C21_C47_split_deterministic",
    "Verif.Props.C21_C47_splitOld_deterministic",
    "Verif.Props.C47_splitWithRandomizer_arch"
   ],
   "note": ""
  },
  {
   "property": "C48",
   "status": "proved",
   "theorems": [
    "Verif.Props.C48_no_result",
    "Verif.Props.C48_panics",
    "Verif.Props.C48_truncated",
    "Verif.Props.C48_multiple"
   ],
   "note": ""
  },
  {
   "property": "C49",
   "status": "proved",
   "theorems": [
    "Verif.Props.C49_assign_independent",
    "Verif.Props.C49_append_independent",
    "Verif.Props.C49_append_overwrites",
    "Verif.Props.C49_append_corrupts"
   ],
   "note": ""
  },
  {
   "property": "C50",
   "status": "proved",
   "theorems": [
    "Verif.Props.C50_inputs_unchanged",
    "Verif.Props.C50_results_never_change",
    "Verif.Props.C50_results_private",
    "Verif.Props.C50_splitP_inputs_unchanged",
    "Verif.Props.C50_splitP_results_never_change"
   ],
   "note": ""
  },
  {
   "property": "C51",
   "status": "proved",
   "theorems": [
    "Verif.Props.C51_fused"
   ],
   "note": ""
  },
  {
   "property": "C52",
   "status": "proved",
   "theorems": [
    "Verif.Props.C52_stripped_shares",
    "Verif.Props.C52_frame",
    "Verif.Props.C52_overwrites"
   ],
   "note": ""
  },
  {
   "property": "C53",
   "status": "proved",
   "theorems": [
    "Verif.Props.C53_capacity",
    "Verif.Props.C53_capacity_ok"
   ],
   "note": ""
  },
  {
   "property": "C54",
   "status": "proved",
   "theorems": [
    "Verif.Props.C54_history",
    "Verif.Props.C54_extend",
    "Verif.Props.C54_round_trip",
    "Verif.Props.C54_krawczyk_round_trip",
    "Verif.Props.C54_krawczyk_combine_admissible"
   ],
   "note": ""
  },
  {
   "property": "C55",
   "status": "proved",
   "theorems": [
    "Verif.Props.C55_only_ciphertext",
    "Verif.Props.C55_every_key_possible",
    "Verif.Props.C55_perfect"
   ],
   "note": ""
  },
  {
   "property": "C56",
   "status": "proved",
   "theorems": [
    "Verif.Props.C56_constructor",
    "Verif.Props.C56_stream",
    "Verif.Props.C56_key_copied",
    "Verif.Props.C56_newCSPRNG",
    "Verif.Props.C56_overlap",
    "Verif.Props.C56_blocks_differ"
   ],
   "note": ""
  },
  {
   "property": "C57",
   "status": "proved",
   "theorems": [
    "Verif.Props.C57_stream",
    "Verif.Props.C57_same_first_read"
   ],
   "note": ""
  },
  {
   "property": "C58",
   "status": "proved",
   "theorems": [
    "Verif.Props.C58_regenerated_secrecy"
   ],
   "note": ""
  },
  {
   "property": "C59",
   "status": "proved",
   "theorems": [
    "Verif.Props.C59_tampered_shards",
    "Verif.Props.C59_splitWithRandomizer_tampered_shards",
    "Verif.Props.C59_any_message"
   ],
   "note": ""
  },
  {
   "property": "C60",
   "status": "proved",
   "theorems": [
    "Verif.Props.C60_check",
    "Verif.Props.C60_measure_split",
    "Verif.Props.C60_measure_split_empty",
    "Verif.Props.C60_measure_split_empty_spins",
    "Verif.Props.C60_measure_encryption",
    "Verif.Props.C60_measure_encryption_empty_spins",
    "Verif.Props.C60_measure_encryption_silent",
    "Verif.Props.C60_main",
    "Verif.Props.C60_text",
    "Verif.Props.C60_fatal_keeps_output"
   ],
   "note": ""
  },
  {
   "property": "C61",
   "status": "proved",
   "theorems": [
    "Verif.Props.C61_calls_consume",
    "Verif.Props.C61_regenerate_draws",
    "Verif.Props.C61_draws_determine_result",
    "Verif.Props.C61_calls_consume_with_splitP"
   ],
   "note": ""
  },
  {
   "property": "C62",
   "status": "proved",
   "theorems": [
    "Verif.Props.C62_correct",
    "Verif.Props.C62_memory",
    "Verif.Props.C62_results",
    "Verif.Props.C62_round_trip",
    "Verif.Props.C62_krawczyk_round_trip",
    "Verif.Props.C62_terminates",
    "Verif.Props.C62_no_race"
   ],
   "note": ""
  },
  {
   "property": "C63",
   "status": "proved",
   "theorems": [
    "Verif.Props.C63_reveals",
    "Verif.Props.C63_usable"
   ],
   "note": ""
  },
  {
   "property": "C64",
   "status": "proved",
   "theorems": [
    "Verif.Props.C64_metadata",
    "Verif.Props.C64_splitWithRandomizer_metadata",
    "Verif.Props.C64_truncate",
    "Verif.Props.C36_C64_tags"
   ],
   "note": ""
  },
  {
   "property": "C65",
   "status": "proved",
   "theorems": [
    "Verif.Props.C65_tag_zero",
    "Verif.Props.C65_worker_krawczyk_as_shamir",
    "Verif.Props.C65_krawczyk_as_shamir",
    "Verif.Props.C65_worker_shamir_as_krawczyk",
    "Verif.Props.C65_shamir_as_krawczyk"
   ],
   "note": ""
  },
  {
   "property": "C66",
   "status": "proved",
   "theorems": [
    "Verif.Props.C66_complete_shares",
    "Verif.Props.C66_overlap",
    "Verif.Props.C66_wrong_bytes"
   ],
   "note": ""
  },
  {
   "property": "C67",
   "status": "proved",
   "theorems": [
    "Verif.Props.C67_all_returned",
    "Verif.Props.C67_bounded_use",
    "Verif.Props.C67_reuse",
    "Verif.Props.C67_program_returns",
    "Verif.Props.C67_program_bounded"
   ],
   "note": ""
  },
  {
   "property": "C68",
   "status": "proved",
   "theorems": [
    "Verif.Props.C68_sequential",
    "Verif.Props.C68_deterministic",
    "Verif.Props.C68_second_call_leaks"
   ],
   "note": ""
  },
  {
   "property": "C69",
   "status": "proved",
   "theorems": [
    "Verif.Props.C69_exact",
    "Verif.Props.C69_sum",
    "Verif.Props.C69_same",
    "Verif.Props.C69_behind",
    "Verif.Props.C69_portable",
    "Verif.Props.C69_sharp"
   ],
   "note": ""
  },
  {
   "property": "C70",
   "status": "proved",
   "theorems": [
    "Verif.Props.C70_split_recover",
    "Verif.Props.C70_split_candidates",
    "Verif.Props.C70_split_excluded",
    "Verif.Props.C70_ideal",
    "Verif.Props.C70_splitGeneric_recover",
    "Verif.Props.C70_splitGeneric_candidates",
    "Verif.Props.C70_splitWithRandomizer_recover",
    "Verif.Props.C70_splitWithRandomizer_candidates",
    "Verif.Props.C70_csprng_excluded",
    "Verif.Props.C70_seed_states",
    "Verif.Props.C70_time_seed",
    "Verif.Props.C70_time_seed_excluded",
    "Verif.Props.C70_perm",
    "Verif.Props.C70_krawczyk_same_chunk",
    "Verif.Props.C70_krawczyk_candidates",
    "Verif.Props.C70_krawczyk_excluded"
   ],
   "note": ""
  },
  {
   "property": "C71",
   "status": "proved",
   "theorems": [
    "Verif.Props.C71_bytes",
    "Verif.Props.C71_split",
    "Verif.Props.C71_krawczyk",
    "Verif.Props.C71_generic_bytes",
    "Verif.Props.C71_generic_split"
   ],
   "note": ""
  },
  {
   "property": "C72",
   "status": "proved",
   "theorems": [
    "Verif.Props.C72_permutation",
    "Verif.Props.C72_csprng_stream",
    "Verif.Props.C72_csprng_blocks_differ",
    "Verif.Props.C72_randomizer_stream",
    "Verif.Props.C72_output_feedback",
    "Verif.Props.C72_period"
   ],
   "note": ""
  },
  {
   "property": "C73",
   "status": "proved",
   "theorems": [
    "Verif.Props.C73_contract",
    "Verif.Props.C73_code",
    "Verif.Props.C73_round_trip",
    "Verif.Props.C73_split_data",
    "Verif.Props.C73_splitWithRandomizer_data"
   ],
   "note": ""
  },
  {
   "property": "C74",
   "status": "proved",
   "theorems": [
    "Verif.Props.C74_routines",
    "Verif.Props.C74_routines_whole",
    "Verif.Props.C74_same_results",
    "Verif.Props.C74_split_control_flow",
    "Verif.Props.C74_split",
    "Verif.Props.C74_split_secret",
    "Verif.Props.C74_no_lookups",
    "Verif.Props.C74_split_constant",
    "Verif.Props.C74_split_leak",
    "Verif.Props.C74_mult_div",
    "Verif.Props.C74_combine_control_flow",
    "Verif.Props.C74_combine",
    "Verif.Props.C74_same_results_calls",
    "Verif.Props.C74_splitWithRandomizer_control_flow",
    "Verif.Props.C74_splitWithRandomizer",
    "Verif.Props.C74_splitWithRandomizer_secret",
    "Verif.Props.C74_splitWithRandomizer_leak",
    "Verif.Props.C74_splitWithRandomizer_history",
    "Verif.Props.C74_splitGeneric_control_flow",
    "Verif.Props.C74_splitGeneric",
    "Verif.Props.C74_splitGeneric_secret",
    "Verif.Props.C74_splitGeneric_leak",
    "Verif.Props.C74_regenerate_control_flow",
    "Verif.Props.C74_regenerate",
    "Verif.Props.C74_same_results_old",
    "Verif.Props.C74_splitWithRandomizerOld_control_flow",
    "Verif.Props.C74_splitWithRandomizerOld",
    "Verif.Props.C74_splitWithRandomizerOld_secret",
    "Verif.Props.C74_splitWithRandomizerOld_leak",
    "Verif.Props.C74_same_results_splitP",
    "Verif.Props.C74_splitP_control_flow",
    "Verif.Props.C74_splitP",
    "Verif.Props.C74_splitP_secret",
    "Verif.Props.C74_splitP_leak"
   ],
   "note": ""
  },
  {
   "property": "C75",
   "status": "proved",
   "theorems": [
    "Verif.Props.C75_newWorker",
    "Verif.Props.C75_same_bytes",
    "Verif.Props.C75_tags",
    "Verif.Props.C75_same_fate",
    "Verif.Props.C75_panic_spreads",
    "Verif.Props.C75_hang_spreads",
    "Verif.Props.C75_key_exposed",
    "Verif.Props.C75_few_workers"
   ],
   "note": ""
  },
  {
   "property": "C76",
   "status": "proved",
   "theorems": [
    "Verif.Props.C76_many_calls",
    "Verif.Props.C76_something_happens"
   ],
   "note": ""
  },
  {
   "property": "C77",
   "status": "proved",
   "theorems": [
    "Verif.Props.C77_first",
    "Verif.Props.C77_first_not_zero",
    "Verif.Props.C77_last",
    "Verif.Props.C77_last_255",
    "Verif.Props.C77_key_byte"
   ],
   "note": ""
  },
  {
   "property": "C78",
   "status": "proved",
   "theorems": [
    "Verif.Props.C78_regenerate_consistent",
    "Verif.Props.C78_mixed_uniform",
    "Verif.Props.C78_splitGeneric_mixed_uniform",
    "Verif.Props.C78_regenerate_too_few_uniform"
   ],
   "note": ""
  },
  {
   "property": "C79",
   "status": "proved",
   "theorems": [
    "Verif.Props.C79_vault_two",
    "Verif.Props.C79_vault_all",
    "Verif.Props.C79_vault_convert",
    "Verif.Props.C79_split_convert",
    "Verif.Props.C79_tables_base"
   ],
   "note": "The other package is represented by a specification of its shares (Spec/Vault.lean); its code is not in /repo and is not modelled."
  },
  {
   "property": "C80",
   "status": "proved",
   "theorems": [
    "Verif.Props.C80_same_results",
    "Verif.Props.C80_lookups",
    "Verif.Props.C80_split_control_flow",
    "Verif.Props.C80_split",
    "Verif.Props.C80_split_secret",
    "Verif.Props.C80_split_key",
    "Verif.Props.C80_split_leak",
    "Verif.Props.C80_splitWithRandomizer_control_flow",
    "Verif.Props.C80_splitWithRandomizer",
    "Verif.Props.C80_splitWithRandomizer_key",
    "Verif.Props.C80_splitWithRandomizer_share_key",
    "Verif.Props.C80_splitWithRandomizer_leak",
    "Verif.Props.C80_combine"
   ],
   "note": ""
  },
  {
   "property": "C81",
   "status": "proved",
   "theorems": [
    "Verif.Props.C81_split_correctable",
    "Verif.Props.C81_split_detectable",
    "Verif.Props.C81_splitWithRandomizer_correctable",
    "Verif.Props.C81_splitWithRandomizer_detectable",
    "Verif.Props.C81_splitWithRandomizerOld_correctable",
    "Verif.Props.C81_splitWithRandomizerOld_detectable",
    "Verif.Props.C81_splitGeneric_correctable",
    "Verif.Props.C81_splitGeneric_detectable",
    "Verif.Props.C81_krawczyk_correctable",
    "Verif.Props.C81_krawczyk_detectable",
    "Verif.Props.C81_krawczyk_splitWithRandomizer_correctable",
    "Verif.Props.C81_krawczyk_splitWithRandomizer_detectable",
    "Verif.Props.C81_splitP_correctable",
    "Verif.Props.C81_regenerate_correctable",
    "Verif.Props.C81_limit_correct",
    "Verif.Props.C81_limit_detect"
   ],
   "note": ""
  },
  {
   "property": "C82",
   "status": "proved",
   "theorems": [
    "Verif.Props.C82_split",
    "Verif.Props.C82_splitWithRandomizer",
    "Verif.Props.C82_splitWithRandomizerOld",
    "Verif.Props.C82_splitGeneric",
    "Verif.Props.C82_never_wrong",
    "Verif.Props.C82_krawczyk_split",
    "Verif.Props.C82_krawczyk_splitWithRandomizer",
    "Verif.Props.C82_splitP",
    "Verif.Props.C82_splitP_narrow",
    "Verif.Props.C82_galExp"
   ],
   "note": ""
  },
  {
   "property": "C83",
   "status": "proved",
   "theorems": [
    "Verif.Props.C83_many_calls",
    "Verif.Props.C83_every_key_possible",
    "Verif.Props.C83_something_happens",
    "Verif.Props.C83_perfect"
   ],
   "note": ""
  },
  {
   "property": "C84",
   "status": "proved",
   "theorems": [
    "Verif.Props.C84_scale",
    "Verif.Props.C84_add_public",
    "Verif.Props.C84_product",
    "Verif.Props.C84_product_short",
    "Verif.Props.C84_refresh",
    "Verif.Props.C84_refresh_secrecy"
   ],
   "note": ""
  },
  {
   "property": "C85",
   "status": "proved",
   "theorems": [
    "Verif.Props.C85_bytes_secrecy",
    "Verif.Props.C85_splitGeneric_bytes_secrecy",
    "Verif.Props.C85_bytes_determine"
   ],
   "note": ""
  },
  {
   "property": "C86",
   "status": "proved",
   "theorems": [
    "Verif.Props.C86_nested_secrecy",
    "Verif.Props.C86_nested_recover",
    "Verif.Props.C86_finite"
   ],
   "note": ""
  },
  {
   "property": "C87",
   "status": "proved",
   "theorems": [
    "Verif.Props.C87_same_results",
    "Verif.Props.C87_perm_shows",
    "Verif.Props.C87_randomizer_perm_shows",
    "Verif.Props.C87_perm_result",
    "Verif.Props.C87_randomizer_perm_result",
    "Verif.Props.C87_unique_big_shows",
    "Verif.Props.C87_unique_big_determines",
    "Verif.Props.C87_few_keys",
    "Verif.Props.C87_unique_small_branches",
    "Verif.Props.C87_unique_small",
    "Verif.Props.C87_worker_key",
    "Verif.Props.C87_splitWithRandomizer"
   ],
   "note": ""
  },
  {
   "property": "C88",
   "status": "proved",
   "theorems": [
    "Verif.Props.C88_same_results",
    "Verif.Props.C88_combine",
    "Verif.Props.C88_combine_rejected",
    "Verif.Props.C88_combine_any",
    "Verif.Props.C88_split",
    "Verif.Props.C88_splitWithRandomizer",
    "Verif.Props.C88_splitGeneric",
    "Verif.Props.C88_split_rejected",
    "Verif.Props.C88_splitOld",
    "Verif.Props.C88_splitP_goroutine",
    "Verif.Props.C88_splitP",
    "Verif.Props.C88_regenerate",
    "Verif.Props.C88_krawczyk_split",
    "Verif.Props.C88_krawczyk_combine",
    "Verif.Props.C88_perm",
    "Verif.Props.C88_randomizer_perm",
    "Verif.Props.C88_unique"
   ],
   "note": ""
  }
 ]
}