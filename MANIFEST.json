{
 "claims": [
  {
   "property": "C01",
   "status": "proved",
   "theorems": [
    "Blake2.C01_blake2b"
   ],
   "note": ""
  },
  {
   "property": "C02",
   "status": "proved",
   "theorems": [
    "Blake2.C02_blake2s"
   ],
   "note": ""
  },
  {
   "property": "C03",
   "status": "proved",
   "theorems": [
    "Blake2.C03_params",
    "Blake2.C03_nonvacuous"
   ],
   "note": ""
  },
  {
   "property": "C04",
   "status": "proved",
   "theorems": [
    "Blake2.C04_update_split"
   ],
   "note": ""
  },
  {
   "property": "C05",
   "status": "proved",
   "theorems": [
    "Blake2.C05_queries_change_nothing",
    "Blake2.C05_finalize_value"
   ],
   "note": ""
  },
  {
   "property": "C06",
   "status": "proved",
   "theorems": [
    "Blake2.C06_set_last_node"
   ],
   "note": ""
  },
  {
   "property": "C07",
   "status": "partial",
   "theorems": [
    "Blake2.C07_count_partial",
    "Blake2.C07_count_release",
    "Blake2.C07_count_debug_counterexample"
   ],
   "note": "Proved without restriction for release builds. In debug builds the claim is false of the code for keyed states whose key block plus input wraps the counter (counterexample proved); C42 gives the exact behaviour."
  },
  {
   "property": "C08",
   "status": "proved",
   "theorems": [
    "Blake2.C08_histories",
    "Blake2.C08_hash",
    "Blake2.C08_compress1",
    "Blake2.C08_tree_histories",
    "Blake2.C08_tree_hash"
   ],
   "note": ""
  },
  {
   "property": "C09",
   "status": "proved",
   "theorems": [
    "Blake2.C09_update_many"
   ],
   "note": ""
  },
  {
   "property": "C10",
   "status": "proved",
   "theorems": [
    "Blake2.C10_hash_many"
   ],
   "note": ""
  },
  {
   "property": "C11",
   "status": "proved",
   "theorems": [
    "Blake2.C11_idempotent",
    "Blake2.C11_C12_batches"
   ],
   "note": ""
  },
  {
   "property": "C12",
   "status": "proved",
   "theorems": [
    "Blake2.C11_C12_batches"
   ],
   "note": ""
  },
  {
   "property": "C13",
   "status": "proved",
   "theorems": [
    "Blake2.C13_blake2bp",
    "Blake2.C13_blake2sp",
    "Blake2.C13_params"
   ],
   "note": ""
  },
  {
   "property": "C14",
   "status": "proved",
   "theorems": [
    "Blake2.C14_update_split",
    "Blake2.C33_tree_histories"
   ],
   "note": ""
  },
  {
   "property": "C15",
   "status": "proved",
   "theorems": [
    "Blake2.C15_queries_change_nothing",
    "Blake2.C15_finalize_value",
    "Blake2.C15_count",
    "Blake2.C15_count_release"
   ],
   "note": ""
  },
  {
   "property": "C16",
   "status": "proved",
   "theorems": [
    "Blake2.C16_panics_iff",
    "Blake2.C16_tree_panics_iff"
   ],
   "note": ""
  },
  {
   "property": "C17",
   "status": "proved",
   "theorems": [
    "Blake2.C17_empty",
    "Blake2.C17_padding",
    "Blake2.C17_replaced",
    "Blake2.C17_tree_empty",
    "Blake2.C17_tree_replaced"
   ],
   "note": ""
  },
  {
   "property": "C18",
   "status": "proved",
   "theorems": [
    "Blake2.C18_last_call_wins",
    "Blake2.C18_commute",
    "Blake2.C18_tree_commute",
    "Blake2.C18_tree_last_call_wins"
   ],
   "note": ""
  },
  {
   "property": "C19",
   "status": "proved",
   "theorems": [
    "Blake2.C19_domain_separation",
    "Blake2.C19_tree"
   ],
   "note": ""
  },
  {
   "property": "C20",
   "status": "proved",
   "theorems": [
    "Blake2.C20_length",
    "Blake2.C20_tree_length",
    "Blake2.C20_bounds",
    "Blake2.C20_hex",
    "Blake2.C20_equality"
   ],
   "note": ""
  },
  {
   "property": "C21",
   "status": "proved",
   "theorems": [
    "Blake2.C21_from_array",
    "Blake2.C21_as_array"
   ],
   "note": ""
  },
  {
   "property": "C22",
   "status": "proved",
   "theorems": [
    "Blake2.C22_histories",
    "Blake2.C22_tree_histories",
    "Blake2.C22_other_calls",
    "Blake2.C22_compression_loops"
   ],
   "note": ""
  },
  {
   "property": "C23",
   "status": "proved",
   "theorems": [
    "Blake2.C23_every_task_exactly_once",
    "Blake2.C23_every_pass_completes_a_job"
   ],
   "note": ""
  },
  {
   "property": "C24",
   "status": "proved",
   "theorems": [
    "Blake2.C24_write",
    "Blake2.C24_io_copy",
    "Blake2.C24_tree_write",
    "Blake2.C24_tree_io_copy"
   ],
   "note": ""
  },
  {
   "property": "C25",
   "status": "proved",
   "theorems": [
    "Blake2.C25_stdin",
    "Blake2.C25_file",
    "Blake2.C25_mmap"
   ],
   "note": ""
  },
  {
   "property": "C26",
   "status": "proved",
   "theorems": [
    "Blake2.C26_accepted_iff",
    "Blake2.C26_accepted",
    "Blake2.C26_rejected",
    "Blake2.C26_big_small",
    "Blake2.C26_plain"
   ],
   "note": ""
  },
  {
   "property": "C27",
   "status": "proved",
   "theorems": [
    "Blake2.C27_files",
    "Blake2.C27_stdin",
    "Blake2.C27_exit_status"
   ],
   "note": ""
  },
  {
   "property": "C28",
   "status": "proved",
   "theorems": [
    "Blake2.C28_simd_counters",
    "Blake2.C28_alignment_needed"
   ],
   "note": ""
  },
  {
   "property": "C29",
   "status": "proved",
   "theorems": [
    "Blake2.C29_empty_update",
    "Blake2.C29_empty_update_many",
    "Blake2.C29_tree_empty_update"
   ],
   "note": ""
  },
  {
   "property": "C30",
   "status": "proved",
   "theorems": [
    "Blake2.C30_params",
    "Blake2.C30_state",
    "Blake2.C30_job",
    "Blake2.C30_guts_job",
    "Blake2.C30_tree_params",
    "Blake2.C30_tree_state"
   ],
   "note": ""
  },
  {
   "property": "C31",
   "status": "proved",
   "theorems": [
    "Blake2.C31_detect",
    "Blake2.C31_available",
    "Blake2.C31_degree",
    "Blake2.C31_degree_is_lane_count"
   ],
   "note": ""
  },
  {
   "property": "C32",
   "status": "proved",
   "theorems": [
    "Blake2.C32_split",
    "Blake2.C32_permute",
    "Blake2.C32_hash_many_split",
    "Blake2.C32_hash_many_permute"
   ],
   "note": ""
  },
  {
   "property": "C33",
   "status": "proved",
   "theorems": [
    "Blake2.C33_histories",
    "Blake2.C33_tree_histories"
   ],
   "note": ""
  },
  {
   "property": "C34",
   "status": "proved",
   "theorems": [
    "Blake2.C34_frame",
    "Blake2.C34_clones_independent",
    "Blake2.C34_tree_frame",
    "Blake2.C34_tree_clones_independent"
   ],
   "note": ""
  },
  {
   "property": "C35",
   "status": "proved",
   "theorems": [
    "Blake2.C35_force_portable",
    "Blake2.C35_tree_force_portable"
   ],
   "note": ""
  },
  {
   "property": "C36",
   "status": "proved",
   "theorems": [
    "Blake2.C36_iv",
    "Blake2.C36_sigma_permutation",
    "Blake2.C36_sigma_rows"
   ],
   "note": ""
  },
  {
   "property": "C37",
   "status": "proved",
   "theorems": [
    "Blake2.C37_lanes",
    "Blake2.C37_batches",
    "Blake2.C37_hash_many"
   ],
   "note": ""
  },
  {
   "property": "C38",
   "status": "proved",
   "theorems": [
    "Blake2.C38_round_bijective",
    "Blake2.C38_permutation_bijective",
    "Blake2.C38_no_internal_collision",
    "Blake2.C38_simd_rounds_bijective"
   ],
   "note": ""
  },
  {
   "property": "C39",
   "status": "proved",
   "theorems": [
    "Blake2.C39_leaf_bytes",
    "Blake2.C39_injective",
    "Blake2.C39_hash_of_leaves"
   ],
   "note": ""
  },
  {
   "property": "C40",
   "status": "proved",
   "theorems": [
    "Blake2.C40_framing",
    "Blake2.C40_inputs"
   ],
   "note": ""
  },
  {
   "property": "C41",
   "status": "proved",
   "theorems": [
    "Blake2.C41_constant_time",
    "Blake2.C41_hash_eq",
    "Blake2.C41_positions"
   ],
   "note": "Branches and positions in the source; the timing of compiled code is outside the model."
  },
  {
   "property": "C42",
   "status": "proved",
   "theorems": [
    "Blake2.C42_count_exact",
    "Blake2.C42_tree_count_exact"
   ],
   "note": ""
  },
  {
   "property": "C43",
   "status": "proved",
   "theorems": [
    "Blake2.C43_collisions",
    "Blake2.C43_injective"
   ],
   "note": ""
  },
  {
   "property": "C44",
   "status": "proved",
   "theorems": [
    "Blake2.C44_tree_collisions",
    "Blake2.C44_tree_injective",
    "Blake2.C44_cross_mode",
    "Blake2.C44_cross_mode_plain"
   ],
   "note": ""
  },
  {
   "property": "C45",
   "status": "proved",
   "theorems": [
    "Blake2.C45_final_flag",
    "Blake2.C45_prefix_free",
    "Blake2.C45_no_extension"
   ],
   "note": ""
  },
  {
   "property": "C46",
   "status": "proved",
   "theorems": [
    "Blake2.C46_programs",
    "Blake2.C46_outcome",
    "Blake2.C46_platforms",
    "Blake2.C46_builds"
   ],
   "note": ""
  },
  {
   "property": "C47",
   "status": "proved",
   "theorems": [
    "Blake2.C47_no_panic",
    "Blake2.C47_update_many",
    "Blake2.C47_hash_many",
    "Blake2.C47_torn_state",
    "Blake2.C47_torn_job"
   ],
   "note": "C47_torn_state and C47_torn_job are witnesses that torn states and jobs exist; see Findings in DESIGN.md"
  },
  {
   "property": "C48",
   "status": "proved",
   "theorems": [
    "Blake2.C48_ghost",
    "Blake2.C48_hash",
    "Blake2.C48_number",
    "Blake2.C48_histories",
    "Blake2.C48_fresh",
    "Blake2.C48_hash_many",
    "Blake2.C48_tree_ghost",
    "Blake2.C48_tree_hash",
    "Blake2.C48_tree_histories"
   ],
   "note": "C48_ghost: the instrumented functions are the model with a log added"
  },
  {
   "property": "C49",
   "status": "proved",
   "theorems": [
    "Blake2.C49_hash",
    "Blake2.C49_histories",
    "Blake2.C49_hash_many",
    "Blake2.C49_tree_hash",
    "Blake2.C49_tree_histories"
   ],
   "note": ""
  },
  {
   "property": "C50",
   "status": "proved",
   "theorems": [
    "Blake2.C50_avx2",
    "Blake2.C50_passes",
    "Blake2.C50_simd",
    "Blake2.C50_limits",
    "Blake2.C50_update_many_avx2",
    "Blake2.C50_update_many_passes",
    "Blake2.C50_update_many_simd",
    "Blake2.C50_update_many_limits",
    "Blake2.C50_tree_update",
    "Blake2.C50_tree_hash",
    "Blake2.C50_tree_passes"
   ],
   "note": ""
  },
  {
   "property": "C51",
   "status": "proved",
   "theorems": [
    "Blake2.C51_rejected",
    "Blake2.C51_caught",
    "Blake2.C51_tree_rejected",
    "Blake2.C51_tree_caught"
   ],
   "note": ""
  },
  {
   "property": "C52",
   "status": "proved",
   "theorems": [
    "Blake2.C52_reference"
   ],
   "note": ""
  },
  {
   "property": "C53",
   "status": "proved",
   "theorems": [
    "Blake2.C53_blake2x",
    "Blake2.C53_out_of_range"
   ],
   "note": ""
  },
  {
   "property": "C54",
   "status": "proved",
   "theorems": [
    "Blake2.C54_fuzz_targets",
    "Blake2.C54_fuzz_hash_many",
    "Blake2.C54_fuzz_update_many",
    "Blake2.C54_against_reference",
    "Blake2.C54_exercise_compress1",
    "Blake2.C54_exercise_loops",
    "Blake2.C54_loop_tests",
    "Blake2.C54_detection",
    "Blake2.C54_random_draws",
    "Blake2.C54_random_tests"
   ],
   "note": ""
  },
  {
   "property": "C55",
   "status": "proved",
   "theorems": [
    "Blake2.C55_files",
    "Blake2.C55_stdin",
    "Blake2.C55_status_zero",
    "Blake2.C55_undisturbed"
   ],
   "note": ""
  },
  {
   "property": "C56",
   "status": "proved",
   "theorems": [
    "Blake2.C56_threads",
    "Blake2.C56_schedules",
    "Blake2.C56_answers"
   ],
   "note": ""
  },
  {
   "property": "C57",
   "status": "proved",
   "theorems": [
    "Blake2.C57_vector",
    "Blake2.C57_vectors",
    "Blake2.Kat.C57_kat_right",
    "Blake2.Kat.C57_kat"
   ],
   "note": "The vectors in /repo are compared with the specification by evaluation in the kernel; C57_vector and C57_vectors are for all files."
  },
  {
   "property": "C58",
   "status": "proved",
   "theorems": [
    "Blake2.C58_histories",
    "Blake2.C58_tree_histories",
    "Blake2.C58_one_shot",
    "Blake2.C58_tree_one_shot",
    "Blake2.C58_hash_many",
    "Blake2.C58_verify",
    "Blake2.C58_to_hex_reveals",
    "Blake2.C58_programs"
   ],
   "note": "Branches and positions in the source. C58_to_hex_reveals is the limit: to_hex does reveal the digest. C58_programs covers whole programs; there what is printed must be the same."
  },
  {
   "property": "C59",
   "status": "proved",
   "theorems": [
    "Blake2.C59_update_many",
    "Blake2.C59_hash_many"
   ],
   "note": ""
  },
  {
   "property": "C60",
   "status": "proved",
   "theorems": [
    "Blake2.C60_prefix_free",
    "Blake2.C60_tree_prefix_free",
    "Blake2.C60_histories",
    "Blake2.C60_tree_histories"
   ],
   "note": ""
  },
  {
   "property": "C61",
   "status": "proved",
   "theorems": [
    "Blake2.C61_histories",
    "Blake2.C61_tree_histories",
    "Blake2.C61_one_shot",
    "Blake2.C61_hash_many",
    "Blake2.C61_force_portable",
    "Blake2.C61_programs",
    "Blake2.C61_portable_programs"
   ],
   "note": ""
  },
  {
   "property": "C62",
   "status": "proved",
   "theorems": [
    "Blake2.C62_release_loops",
    "Blake2.C62_debug_loops",
    "Blake2.C62_same_results"
   ],
   "note": ""
  },
  {
   "property": "C63",
   "status": "proved",
   "theorems": [
    "Blake2.C63_update_state",
    "Blake2.C63_multiple_finalizes",
    "Blake2.C63_write",
    "Blake2.C63_all_parameters",
    "Blake2.C63_all_parameters_tree",
    "Blake2.C63_setter_tests",
    "Blake2.C63_hash_from",
    "Blake2.C63_test_hash_many",
    "Blake2.C63_test_update_many",
    "Blake2.C63_unit_tests",
    "Blake2.C63_cli_stdin",
    "Blake2.C63_cli_file",
    "Blake2.C63_cli_tests"
   ],
   "note": ""
  },
  {
   "property": "C64",
   "status": "proved",
   "theorems": [
    "Blake2.C64_offset_input",
    "Blake2.C64_bench_hash",
    "Blake2.C64_bench_hash_many",
    "Blake2.C64_offsets_correlated",
    "Blake2.C64_random_input",
    "Blake2.C64_bench_one",
    "Blake2.C64_bench_many"
   ],
   "note": "C64_offsets_correlated shows that the comment above the hash_many benchmarks is wrong."
  },
  {
   "property": "C65",
   "status": "proved",
   "theorems": [
    "Blake2.C65_command_line",
    "Blake2.C65_usage_error",
    "Blake2.C65_order",
    "Blake2.C65_stdin",
    "Blake2.C65_files",
    "Blake2.C65_help",
    "Blake2.C65_malformed",
    "Blake2.C65_every_option",
    "Blake2.C65_tests"
   ],
   "note": "The parser is in the crates structopt and clap, not in /repo; it is modelled after its documentation. What is proved of the code is the table of options: names, letters, types, fields."
  },
  {
   "property": "C66",
   "status": "proved",
   "theorems": [
    "Blake2.C66_one_shot",
    "Blake2.C66_chain",
    "Blake2.C66_params",
    "Blake2.C66_state",
    "Blake2.C66_tree_one_shot",
    "Blake2.C66_tree_chain",
    "Blake2.C66_tree_params",
    "Blake2.C66_update_many",
    "Blake2.C66_hash_many",
    "Blake2.C66_examples",
    "Blake2.C66_readme"
   ],
   "note": "The values in the documentation are compared with the specification by evaluation in the kernel; everything else is for all values."
  },
  {
   "property": "C67",
   "status": "proved",
   "theorems": [
    "Blake2.RunAll.C67_run_all_tests",
    "Blake2.RunAll.C67_green"
   ],
   "note": ""
  },
  {
   "property": "C68",
   "status": "proved",
   "theorems": [
    "Blake2.C68_digests",
    "Blake2.C68_loads",
    "Blake2.C68_same",
    "Blake2.C68_no_avx2",
    "Blake2.C68_bench",
    "Blake2.C68_test_vectors",
    "Blake2.C68_kat"
   ],
   "note": "C68_digests is about the C code as the build script compiles it (PERMUTE_WITH_SHUFFLES), C68_loads about each of the three ways to load a message."
  },
  {
   "property": "C69",
   "status": "proved",
   "theorems": [
    "Blake2.C69_fuzz_hash_many",
    "Blake2.C69_fuzz_update_many",
    "Blake2.C69_test_hash_many",
    "Blake2.C69_test_update_many",
    "Blake2.C69_doc_hash_many",
    "Blake2.C69_doc_update_many",
    "Blake2.C69_against_reference",
    "Blake2.C69_exercise_compress1",
    "Blake2.C69_exercise_loop",
    "Blake2.C69_detection",
    "Blake2.C69_degree"
   ],
   "note": "The tests with an arbitrary function in the place of the tested one; C54, C63 and C66 say that they pass with the real one."
  },
  {
   "property": "C70",
   "status": "proved",
   "theorems": [
    "Blake2.C70_early",
    "Blake2.C70_stands_for_key",
    "Blake2.C70_torn"
   ],
   "note": "See Findings in DESIGN.md: a release build gives away what stands for the key."
  },
  {
   "property": "C71",
   "status": "proved",
   "theorems": [
    "Blake2.C71_programs",
    "Blake2.C71_outcome",
    "Blake2.C71_hash"
   ],
   "note": "The SIMD code exists on x86 only; the standard library is followed down to integers as the target stores them."
  },
  {
   "property": "C72",
   "status": "proved",
   "theorems": [
    "Blake2.C72_programs",
    "Blake2.C72_release",
    "Blake2.C72_tree_release",
    "Blake2.C72_release_tells"
   ],
   "note": "See Findings in DESIGN.md."
  },
  {
   "property": "C73",
   "status": "proved",
   "theorems": [
    "Blake2.C73_attempts",
    "Blake2.C73_calls"
   ],
   "note": "The specification is CaughtSpec.lean. Which of the values in flight are spoilt is left open; C47 bounds and C70_torn shows what they hold."
  },
  {
   "property": "C74",
   "status": "proved",
   "theorems": [
    "Blake2.C74_call",
    "Blake2.C74_programs",
    "Blake2.C74_pieces"
   ],
   "note": "Time is the number of entries in the log of Model/Leak: turns of loops, tests, bounds checks, positions. Between two entries there is straight-line code on one block, one set of lanes or one buffer. The specification is CostSpec.lean."
  }
 ]
}