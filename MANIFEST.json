{
 "claims": [
  {
   "property": "C01",
   "status": "proved",
   "theorems": [
    "Poseidon.C01_v1_generate",
    "Poseidon.C01_generated",
    "Poseidon.C01_derived",
    "Poseidon.C01_applies"
   ],
   "note": ""
  },
  {
   "property": "C02",
   "status": "proved",
   "theorems": [
    "Poseidon.C02_instance",
    "Poseidon.C02_unoptimized",
    "Poseidon.C02_hash_1",
    "Poseidon.C02_hash_2",
    "Poseidon.C02_hash_3",
    "Poseidon.C02_hash_4",
    "Poseidon.C02_hash_5",
    "Poseidon.C02_hash_6",
    "Poseidon.C02_hash_7"
   ],
   "note": ""
  },
  {
   "property": "C03",
   "status": "proved",
   "theorems": [
    "Poseidon.C03_hash_1_total",
    "Poseidon.C03_hash_2_total",
    "Poseidon.C03_hash_3_total",
    "Poseidon.C03_hash_4_total",
    "Poseidon.C03_hash_5_total",
    "Poseidon.C03_hash_6_total",
    "Poseidon.C03_hash_7_total"
   ],
   "note": ""
  },
  {
   "property": "C04",
   "status": "proved",
   "theorems": [
    "Poseidon.C04_permutation_bijective",
    "Poseidon.C04_no_state_collision"
   ],
   "note": ""
  },
  {
   "property": "C05",
   "status": "proved",
   "theorems": [
    "Poseidon.C05_balanced",
    "Poseidon.C05_hash_1",
    "Poseidon.C05_hash_2",
    "Poseidon.C05_hash_3",
    "Poseidon.C05_hash_4",
    "Poseidon.C05_hash_5",
    "Poseidon.C05_hash_6",
    "Poseidon.C05_hash_7"
   ],
   "note": ""
  },
  {
   "property": "C06",
   "status": "proved",
   "theorems": [
    "Poseidon.C06_history_independent"
   ],
   "note": ""
  },
  {
   "property": "C07",
   "status": "proved",
   "theorems": [
    "Poseidon.C07_output_words",
    "Poseidon.C07_shipped"
   ],
   "note": ""
  },
  {
   "property": "C08",
   "status": "proved",
   "theorems": [
    "Poseidon.C08_hash_1",
    "Poseidon.C08_hash_2",
    "Poseidon.C08_hash_3",
    "Poseidon.C08_hash_4",
    "Poseidon.C08_hash_5",
    "Poseidon.C08_hash_6",
    "Poseidon.C08_hash_7",
    "Poseidon.C02_hash_1",
    "Poseidon.C02_hash_2",
    "Poseidon.C02_hash_3",
    "Poseidon.C02_hash_4",
    "Poseidon.C02_hash_5",
    "Poseidon.C02_hash_6",
    "Poseidon.C02_hash_7"
   ],
   "note": ""
  },
  {
   "property": "C09",
   "status": "proved",
   "theorems": [
    "Poseidon.C09_soundness",
    "Poseidon.C09_soundness_textbook"
   ],
   "note": ""
  },
  {
   "property": "C10",
   "status": "proved",
   "theorems": [
    "Poseidon.C10_completeness",
    "Poseidon.C10_shipped",
    "Poseidon.C10_hash_1",
    "Poseidon.C10_hash_2",
    "Poseidon.C10_hash_3",
    "Poseidon.C10_hash_4",
    "Poseidon.C10_hash_5",
    "Poseidon.C10_hash_6",
    "Poseidon.C10_hash_7"
   ],
   "note": ""
  },
  {
   "property": "C11",
   "status": "proved",
   "theorems": [
    "Poseidon.C11_setup_total",
    "Poseidon.C11_setup_same",
    "Poseidon.C11_shape_independent",
    "Poseidon.C11_shipped_setup"
   ],
   "note": ""
  },
  {
   "property": "C12",
   "status": "proved",
   "theorems": [
    "Poseidon.C12_size",
    "Poseidon.C12_sbox_cost",
    "Poseidon.C12_shipped",
    "Poseidon.C12_hash_1",
    "Poseidon.C12_hash_2",
    "Poseidon.C12_hash_3",
    "Poseidon.C12_hash_4",
    "Poseidon.C12_hash_5",
    "Poseidon.C12_hash_6",
    "Poseidon.C12_hash_7",
    "Poseidon.C12_size_no_full"
   ],
   "note": ""
  },
  {
   "property": "C13",
   "status": "proved",
   "theorems": [
    "Poseidon.C13_circuit_native",
    "Poseidon.C13_hash_1",
    "Poseidon.C13_hash_2",
    "Poseidon.C13_hash_3",
    "Poseidon.C13_hash_4",
    "Poseidon.C13_hash_5",
    "Poseidon.C13_hash_6",
    "Poseidon.C13_hash_7"
   ],
   "note": ""
  },
  {
   "property": "C14",
   "status": "proved",
   "theorems": [
    "Poseidon.C14_shipped_mds"
   ],
   "note": ""
  },
  {
   "property": "C15",
   "status": "proved",
   "theorems": [
    "Poseidon.C15_full_diffusion",
    "Poseidon.C15_single_word"
   ],
   "note": ""
  },
  {
   "property": "C16",
   "status": "proved",
   "theorems": [
    "Poseidon.C16_no_inactive_trail",
    "Poseidon.C16_generated"
   ],
   "note": ""
  },
  {
   "property": "C17",
   "status": "proved",
   "theorems": [
    "Poseidon.C17_shipped_derived",
    "Poseidon.C17_two_sided",
    "Poseidon.C17_factorization"
   ],
   "note": ""
  },
  {
   "property": "C18",
   "status": "proved",
   "theorems": [
    "Poseidon.C18_canonical",
    "Poseidon.C18_injective"
   ],
   "note": ""
  },
  {
   "property": "C19",
   "status": "proved",
   "theorems": [
    "Poseidon.C19_arc"
   ],
   "note": ""
  },
  {
   "property": "C20",
   "status": "proved",
   "theorems": [
    "Poseidon.C20_shipped"
   ],
   "note": ""
  },
  {
   "property": "C21",
   "status": "proved",
   "theorems": [
    "Poseidon.C21_new",
    "Poseidon.C21_new_elements",
    "Poseidon.C21_panics",
    "Poseidon.C21_new_from_known",
    "Poseidon.C21_mds_new"
   ],
   "note": ""
  },
  {
   "property": "C22",
   "status": "proved",
   "theorems": [
    "Poseidon.C22_set_get",
    "Poseidon.C22_row_out_of_range",
    "Poseidon.C22_column_alias"
   ],
   "note": ""
  },
  {
   "property": "C23",
   "status": "proved",
   "theorems": [
    "Poseidon.C23_transpose"
   ],
   "note": ""
  },
  {
   "property": "C24",
   "status": "proved",
   "theorems": [
    "Poseidon.C24_product",
    "Poseidon.C24_dimensions",
    "Poseidon.C24_mismatch",
    "Poseidon.C24_returns",
    "Poseidon.C24_assoc",
    "Poseidon.C24_unit",
    "Poseidon.C24_square",
    "Poseidon.C24_square_mismatch",
    "Poseidon.C24_square_returns"
   ],
   "note": ""
  },
  {
   "property": "C25",
   "status": "proved",
   "theorems": [
    "Poseidon.C25_hadamard",
    "Poseidon.C25_scale",
    "Poseidon.C25_identity"
   ],
   "note": ""
  },
  {
   "property": "C26",
   "status": "proved",
   "theorems": [
    "Poseidon.C26_determinant",
    "Poseidon.C26_leibniz",
    "Poseidon.C26_unsupported"
   ],
   "note": ""
  },
  {
   "property": "C27",
   "status": "proved",
   "theorems": [
    "Poseidon.C27_inverse",
    "Poseidon.C27_iff",
    "Poseidon.C27_one",
    "Poseidon.C27_unsupported"
   ],
   "note": ""
  },
  {
   "property": "C28",
   "status": "proved",
   "theorems": [
    "Poseidon.C28_minors",
    "Poseidon.C28_minors_one",
    "Poseidon.C28_unsupported",
    "Poseidon.C28_cofactors"
   ],
   "note": ""
  },
  {
   "property": "C29",
   "status": "partial",
   "theorems": [
    "Poseidon.C29_row_vector_panics",
    "Poseidon.C29_row_vector_out_of_range",
    "Poseidon.C29_row_vector_partial"
   ],
   "note": "False of the code: C29_row_vector_panics proves that row_vector panics on every well-formed matrix with N_ROWS != 1 and columns; C29_row_vector_partial is what remains."
  },
  {
   "property": "C30",
   "status": "proved",
   "theorems": [
    "Poseidon.C30_blocks",
    "Poseidon.C30_determined"
   ],
   "note": ""
  },
  {
   "property": "C31",
   "status": "proved",
   "theorems": [
    "Poseidon.C31_bijective",
    "Poseidon.C31_fallback",
    "Poseidon.C31_shipped"
   ],
   "note": ""
  },
  {
   "property": "C32",
   "status": "proved",
   "theorems": [
    "Poseidon.C32_table",
    "Poseidon.C32_cheapest",
    "Poseidon.C32_three"
   ],
   "note": ""
  },
  {
   "property": "C33",
   "status": "proved",
   "theorems": [
    "Poseidon.C33_decode",
    "Poseidon.C33_injective",
    "Poseidon.C33_collision"
   ],
   "note": ""
  },
  {
   "property": "C34",
   "status": "proved",
   "theorems": [
    "Poseidon.C34_messages",
    "Poseidon.C34_binding",
    "Poseidon.C34_truncation"
   ],
   "note": ""
  },
  {
   "property": "C35",
   "status": "proved",
   "theorems": [
    "Poseidon.C35_cauchy",
    "Poseidon.C35_refused"
   ],
   "note": ""
  },
  {
   "property": "C36",
   "status": "proved",
   "theorems": [
    "Poseidon.C36_factors",
    "Poseidon.C36_succeeds_iff",
    "Poseidon.C36_cauchy"
   ],
   "note": ""
  },
  {
   "property": "C37",
   "status": "proved",
   "theorems": [
    "Poseidon.C37_search",
    "Poseidon.C37_unique",
    "Poseidon.C37_v1",
    "Poseidon.C37_v1_refused",
    "Poseidon.C37_v2",
    "Poseidon.C37_v2_inverse"
   ],
   "note": ""
  },
  {
   "property": "C38",
   "status": "proved",
   "theorems": [
    "Poseidon.C38_margin"
   ],
   "note": ""
  },
  {
   "property": "C39",
   "status": "proved",
   "theorems": [
    "Poseidon.C39_rounds"
   ],
   "note": ""
  },
  {
   "property": "C40",
   "status": "proved",
   "theorems": [
    "Poseidon.C40_binomial",
    "Poseidon.C40_final",
    "Poseidon.C40_early_exit"
   ],
   "note": ""
  },
  {
   "property": "C41",
   "status": "proved",
   "theorems": [
    "Poseidon.C41_two",
    "Poseidon.C41_three",
    "Poseidon.C41_other",
    "Poseidon.C41_invertible"
   ],
   "note": ""
  },
  {
   "property": "C42",
   "status": "proved",
   "theorems": [
    "Poseidon.C42_external",
    "Poseidon.C42_det",
    "Poseidon.C42_det_four",
    "Poseidon.C42_refused"
   ],
   "note": ""
  },
  {
   "property": "C43",
   "status": "proved",
   "theorems": [
    "Poseidon.C43_blocks",
    "Poseidon.C43_float",
    "Poseidon.C43_rounds_up"
   ],
   "note": ""
  },
  {
   "property": "C44",
   "status": "proved",
   "theorems": [
    "Poseidon.C44_number",
    "Poseidon.C44_element",
    "Poseidon.C44_list",
    "Poseidon.C44_rows",
    "Poseidon.C44_empty",
    "Poseidon.C44_params",
    "Poseidon.C44_injective",
    "Poseidon.C44_file",
    "Poseidon.C44_generated",
    "Poseidon.C44_shipped"
   ],
   "note": ""
  },
  {
   "property": "C45",
   "status": "proved",
   "theorems": [
    "Poseidon.C45_widths"
   ],
   "note": ""
  },
  {
   "property": "C46",
   "status": "proved",
   "theorems": [
    "Poseidon.C46_no_partial",
    "Poseidon.C46_no_partial_unoptimized",
    "Poseidon.C46_odd_counterexample",
    "Poseidon.C46_generator_no_partial"
   ],
   "note": ""
  },
  {
   "property": "C47",
   "status": "proved",
   "theorems": [
    "Poseidon.C47_constants_panic",
    "Poseidon.C47_shipped",
    "Poseidon.C47_hash_1",
    "Poseidon.C47_hash_2",
    "Poseidon.C47_hash_3",
    "Poseidon.C47_hash_4",
    "Poseidon.C47_hash_5",
    "Poseidon.C47_hash_6",
    "Poseidon.C47_hash_7"
   ],
   "note": ""
  },
  {
   "property": "C48",
   "status": "proved",
   "theorems": [
    "Poseidon.C48_stream",
    "Poseidon.C48_v2_prefix"
   ],
   "note": ""
  },
  {
   "property": "C49",
   "status": "proved",
   "theorems": [
    "Poseidon.C49_full_rounds",
    "Poseidon.C49_closed_form"
   ],
   "note": ""
  },
  {
   "property": "C50",
   "status": "proved",
   "theorems": [
    "Poseidon.C50_succeeds_iff",
    "Poseidon.C50_sizes"
   ],
   "note": ""
  },
  {
   "property": "C51",
   "status": "proved",
   "theorems": [
    "Poseidon.C51_textbook",
    "Poseidon.C51_bijective",
    "Poseidon.C51_inverse_panics"
   ],
   "note": ""
  },
  {
   "property": "C52",
   "status": "proved",
   "theorems": [
    "Poseidon.C52_four",
    "Poseidon.C52_two",
    "Poseidon.C52_three",
    "Poseidon.C52_external_not_mds",
    "Poseidon.C52_shipped"
   ],
   "note": ""
  },
  {
   "property": "C53",
   "status": "proved",
   "theorems": [
    "Poseidon.C53_internal"
   ],
   "note": ""
  },
  {
   "property": "C54",
   "status": "proved",
   "theorems": [
    "Poseidon.C54_not_cheaper",
    "Poseidon.C54_same",
    "Poseidon.C54_rounds",
    "Poseidon.C54_generate"
   ],
   "note": ""
  },
  {
   "property": "C55",
   "status": "proved",
   "theorems": [
    "Poseidon.C55_v2_compile",
    "Poseidon.C55_todo",
    "Poseidon.C55_empty"
   ],
   "note": ""
  },
  {
   "property": "C56",
   "status": "proved",
   "theorems": [
    "Poseidon.C56_power",
    "Poseidon.C56_v2",
    "Poseidon.C56_inverse",
    "Poseidon.C56_result"
   ],
   "note": ""
  },
  {
   "property": "C57",
   "status": "proved",
   "theorems": [
    "Poseidon.C57_monotone_v1",
    "Poseidon.C57_monotone_v2",
    "Poseidon.C57_result_v1",
    "Poseidon.C57_result_v2"
   ],
   "note": ""
  },
  {
   "property": "C58",
   "status": "proved",
   "theorems": [
    "Poseidon.C58_monotone_v1",
    "Poseidon.C58_monotone_v2",
    "Poseidon.C58_v2_not_cheaper"
   ],
   "note": ""
  },
  {
   "property": "C59",
   "status": "proved",
   "theorems": [
    "Poseidon.C59_accepted_field",
    "Poseidon.C59_same",
    "Poseidon.C59_repository",
    "Poseidon.C59_small_field"
   ],
   "note": ""
  },
  {
   "property": "C60",
   "status": "proved",
   "theorems": [
    "Poseidon.C60_appends",
    "Poseidon.C60_restricts"
   ],
   "note": ""
  },
  {
   "property": "C61",
   "status": "proved",
   "theorems": [
    "Poseidon.C61_exactly_one",
    "Poseidon.C61_no_free_witness"
   ],
   "note": ""
  },
  {
   "property": "C62",
   "status": "proved",
   "theorems": [
    "Poseidon.C62_sound",
    "Poseidon.C62_complete",
    "Poseidon.C62_setup",
    "Poseidon.C62_same",
    "Poseidon.C62_size",
    "Poseidon.C62_unique",
    "Poseidon.C62_language"
   ],
   "note": ""
  },
  {
   "property": "C63",
   "status": "proved",
   "theorems": [
    "Poseidon.C63_sound",
    "Poseidon.C63_complete",
    "Poseidon.C63_setup",
    "Poseidon.C63_size",
    "Poseidon.C63_inverse"
   ],
   "note": ""
  },
  {
   "property": "C64",
   "status": "proved",
   "theorems": [
    "Poseidon.C64_choice",
    "Poseidon.C64_cost",
    "Poseidon.C64_not_cheapest",
    "Poseidon.C64_shipped"
   ],
   "note": ""
  },
  {
   "property": "C65",
   "status": "proved",
   "theorems": [
    "Poseidon.C65_original",
    "Poseidon.C65_optimized",
    "Poseidon.C65_constants",
    "Poseidon.C65_mds",
    "Poseidon.C65_instance",
    "Poseidon.C65_hash_2",
    "Poseidon.C65_matrices",
    "Poseidon.C65_equivalent_constants"
   ],
   "note": ""
  },
  {
   "property": "C66",
   "status": "proved",
   "theorems": [
    "Poseidon.C66_optimized",
    "Poseidon.C66_optimized_inverse",
    "Poseidon.C66_unoptimized",
    "Poseidon.C66_unoptimized_inverse",
    "Poseidon.C66_one_word",
    "Poseidon.C66_difference",
    "Poseidon.C66_circuit",
    "Poseidon.C66_circuit_setup",
    "Poseidon.C66_circuit_inverse"
   ],
   "note": ""
  },
  {
   "property": "C67",
   "status": "proved",
   "theorems": [
    "Poseidon.C67_optimized",
    "Poseidon.C67_portable",
    "Poseidon.C67_unoptimized",
    "Poseidon.C67_circuit",
    "Poseidon.C67_shipped",
    "Poseidon.C67_access_debug",
    "Poseidon.C67_access_release",
    "Poseidon.C67_alias",
    "Poseidon.C67_new",
    "Poseidon.C67_new_exact"
   ],
   "note": ""
  },
  {
   "property": "C68",
   "status": "proved",
   "theorems": [
    "Poseidon.C68_generated",
    "Poseidon.C68_shipped",
    "Poseidon.C68_sbox",
    "Poseidon.C68_sbox_inverse",
    "Poseidon.C68_sbox_shipped",
    "Poseidon.C68_sbox_generated"
   ],
   "note": ""
  },
  {
   "property": "C69",
   "status": "proved",
   "theorems": [
    "Poseidon.C69_table7",
    "Poseidon.C69_table8",
    "Poseidon.C69_table9",
    "Poseidon.C69_table7_v2",
    "Poseidon.C69_table8_v2",
    "Poseidon.C69_independent"
   ],
   "note": ""
  },
  {
   "property": "C70",
   "status": "proved",
   "theorems": [
    "Poseidon.C70_agree",
    "Poseidon.C70_value",
    "Poseidon.C70_libraries",
    "Poseidon.C70_shipped"
   ],
   "note": ""
  },
  {
   "property": "C71",
   "status": "proved",
   "theorems": [
    "Poseidon.C71_test1_iff",
    "Poseidon.C71_test2_iff",
    "Poseidon.C71_test3_iff",
    "Poseidon.C71_shipped",
    "Poseidon.C71_generated",
    "Poseidon.C71_rejected"
   ],
   "note": ""
  },
  {
   "property": "C72",
   "status": "proved",
   "theorems": [
    "Poseidon.C72_degree",
    "Poseidon.C72_interpolation",
    "Poseidon.C72_preimages",
    "Poseidon.C72_image",
    "Poseidon.C72_hash_1",
    "Poseidon.C72_hash_2",
    "Poseidon.C72_hash_3",
    "Poseidon.C72_hash_4",
    "Poseidon.C72_hash_5",
    "Poseidon.C72_hash_6",
    "Poseidon.C72_hash_7",
    "Poseidon.C72_generated"
   ],
   "note": ""
  },
  {
   "property": "C73",
   "status": "proved",
   "theorems": [
    "Poseidon.C73_positions",
    "Poseidon.C73_one_word",
    "Poseidon.C73_domain_1",
    "Poseidon.C73_domain_2",
    "Poseidon.C73_domain_3",
    "Poseidon.C73_domain_4",
    "Poseidon.C73_domain_5",
    "Poseidon.C73_domain_6",
    "Poseidon.C73_domain_7",
    "Poseidon.C73_swap_2",
    "Poseidon.C73_swap_3",
    "Poseidon.C73_swap_4",
    "Poseidon.C73_swap_5",
    "Poseidon.C73_swap_6",
    "Poseidon.C73_swap_7",
    "Poseidon.C73_arity"
   ],
   "note": ""
  },
  {
   "property": "C74",
   "status": "proved",
   "theorems": [
    "Poseidon.C74_drawn",
    "Poseidon.C74_counts",
    "Poseidon.C74_distance"
   ],
   "note": ""
  },
  {
   "property": "C75",
   "status": "proved",
   "theorems": [
    "Poseidon.C75_messages",
    "Poseidon.C75_shipped"
   ],
   "note": ""
  },
  {
   "property": "C76",
   "status": "proved",
   "theorems": [
    "Poseidon.C76_log2",
    "Poseidon.C76_v1",
    "Poseidon.C76_v2",
    "Poseidon.C76_generated",
    "Poseidon.C76_portable",
    "Poseidon.C76_shipped",
    "Poseidon.C76_alpha"
   ],
   "note": ""
  },
  {
   "property": "C77",
   "status": "proved",
   "theorems": [
    "Poseidon.C77_own_modulus",
    "Poseidon.C77_not_checked",
    "Poseidon.C77_still_poseidon",
    "Poseidon.C77_exponent",
    "Poseidon.C77_collisions",
    "Poseidon.C77_bijective_iff",
    "Poseidon.C77_wrong_modulus"
   ],
   "note": ""
  },
  {
   "property": "C78",
   "status": "proved",
   "theorems": [
    "Poseidon.C78_v1_returns_iff",
    "Poseidon.C78_v1_sizes",
    "Poseidon.C78_v1_hash",
    "Poseidon.C78_v2_returns_iff",
    "Poseidon.C78_v2_exists",
    "Poseidon.C78_v2_no_limit"
   ],
   "note": ""
  },
  {
   "property": "C79",
   "status": "proved",
   "theorems": [
    "Poseidon.C79_eigenpolynomial",
    "Poseidon.C79_root_void",
    "Poseidon.C79_root_extraction",
    "Poseidon.C79_root_intended"
   ],
   "note": ""
  },
  {
   "property": "C80",
   "status": "proved",
   "theorems": [
    "Poseidon.C80_result",
    "Poseidon.C80_data_independent",
    "Poseidon.C80_shipped",
    "Poseidon.C80_inverse",
    "Poseidon.C80_cost",
    "Poseidon.C80_cost_unoptimized",
    "Poseidon.C80_saving",
    "Poseidon.C80_cost_shipped"
   ],
   "note": ""
  },
  {
   "property": "C81",
   "status": "proved",
   "theorems": [
    "Poseidon.C81_unoptimized",
    "Poseidon.C81_optimized",
    "Poseidon.C81_generator",
    "Poseidon.C81_simple",
    "Poseidon.C81_simple_textbook",
    "Poseidon.C81_mds",
    "Poseidon.C81_x3",
    "Poseidon.C81_x5"
   ],
   "note": ""
  },
  {
   "property": "C82",
   "status": "proved",
   "theorems": [
    "Poseidon.C82_start",
    "Poseidon.C82_start_injective",
    "Poseidon.C82_bits",
    "Poseidon.C82_constants_binary",
    "Poseidon.C82_constants",
    "Poseidon.C82_script",
    "Poseidon.C82_returns",
    "Poseidon.C82_never",
    "Poseidon.C82_reproduced"
   ],
   "note": ""
  },
  {
   "property": "C83",
   "status": "proved",
   "theorems": [
    "Poseidon.C83_returns",
    "Poseidon.C83_raises",
    "Poseidon.C83_mds",
    "Poseidon.C83_trail",
    "Poseidon.C83_optimized",
    "Poseidon.C83_optimized_branch",
    "Poseidon.C83_optimized_det",
    "Poseidon.C83_optimized_trail",
    "Poseidon.C83_run",
    "Poseidon.C83_not_shipped",
    "Poseidon.C83_inputs",
    "Poseidon.C83_constants_shared",
    "Poseidon.C83_rounds",
    "Poseidon.C83_rounds_paper",
    "Poseidon.C83_rounds_minimum"
   ],
   "note": ""
  },
  {
   "property": "C84",
   "status": "proved",
   "theorems": [
    "Poseidon.C84_extends",
    "Poseidon.C84_exponent",
    "Poseidon.C84_bls377",
    "Poseidon.C84_constraints",
    "Poseidon.C84_bls381",
    "Poseidon.C84_one_fewer",
    "Poseidon.C84_one_fewer_exact",
    "Poseidon.C84_table7",
    "Poseidon.C84_table8",
    "Poseidon.C84_errors",
    "Poseidon.C84_size",
    "Poseidon.C84_output",
    "Poseidon.C84_inverse_value",
    "Poseidon.C84_inverse_agree",
    "Poseidon.C84_table9"
   ],
   "note": "The script reads logarithms as floats: theorems hold for every library accurate to 2^-40; those for the inverse exponent also need log(4,2) = 2, log(8,2) = 3 (table 9: log(16,2) = 4), and table 9 that a modulus smaller than the security level is not within 2^(n-20) of 2^n. Tables 7 and 8 allow one partial round less than printed in the paper where the modulus has no more bits than the security level. C84_one_fewer is the difference between generator and script."
  },
  {
   "property": "C85",
   "status": "proved",
   "theorems": [
    "Poseidon.C85_matrices",
    "Poseidon.C85_refines",
    "Poseidon.C85_sound",
    "Poseidon.C85_sound_shipped",
    "Poseidon.C85_complete",
    "Poseidon.C85_complete_shipped",
    "Poseidon.C85_unique",
    "Poseidon.C85_preimage_matrices",
    "Poseidon.C85_preimage_same",
    "Poseidon.C85_preimage_prover",
    "Poseidon.C85_preimage_language",
    "Poseidon.C85_preimage_extract"
   ],
   "note": ""
  },
  {
   "property": "C86",
   "status": "proved",
   "theorems": [
    "Poseidon.C86_lengths",
    "Poseidon.C86_forced",
    "Poseidon.C86_shape"
   ],
   "note": ""
  },
  {
   "property": "C87",
   "status": "proved",
   "theorems": [
    "Poseidon.C87_setup",
    "Poseidon.C87_setup_fails",
    "Poseidon.C87_complete",
    "Poseidon.C87_debug",
    "Poseidon.C87_rejects",
    "Poseidon.C87_other_inputs",
    "Poseidon.C87_arity",
    "Poseidon.C87_happy_path",
    "Poseidon.C87_unhappy_path"
   ],
   "note": ""
  },
  {
   "property": "C88",
   "status": "proved",
   "theorems": [
    "Poseidon.C88_zero_knowledge",
    "Poseidon.C88_indistinguishable",
    "Poseidon.C88_forge",
    "Poseidon.C88_malleable"
   ],
   "note": ""
  },
  {
   "property": "C89",
   "status": "proved",
   "theorems": [
    "Poseidon.C89_knowledge",
    "Poseidon.C89_sound",
    "Poseidon.C89_honest"
   ],
   "note": ""
  },
  {
   "property": "C90",
   "status": "proved",
   "theorems": [
    "Poseidon.C90_reads",
    "Poseidon.C90_valid",
    "Poseidon.C90_roundtrip",
    "Poseidon.C90_injective",
    "Poseidon.C90_prefix",
    "Poseidon.C90_cut",
    "Poseidon.C90_other_files",
    "Poseidon.C90_point1",
    "Poseidon.C90_point2",
    "Poseidon.C90_sizes",
    "Poseidon.C90_generated",
    "Poseidon.C90_happy_path",
    "Poseidon.C90_shipped",
    "Poseidon.C90_shipped_shape"
   ],
   "note": ""
  },
  {
   "property": "C91",
   "status": "proved",
   "theorems": [
    "Poseidon.C91_prefix",
    "Poseidon.C91_no_mixture",
    "Poseidon.C91_each",
    "Poseidon.C91_complete",
    "Poseidon.C91_silent",
    "Poseidon.C91_ok",
    "Poseidon.C91_reported"
   ],
   "note": ""
  },
  {
   "property": "C92",
   "status": "proved",
   "theorems": [
    "Poseidon.C92_consistent",
    "Poseidon.C92_uniform",
    "Poseidon.C92_inverse",
    "Poseidon.C92_rare",
    "Poseidon.C92_small"
   ],
   "note": ""
  },
  {
   "property": "C93",
   "status": "proved",
   "theorems": [
    "Poseidon.C93_same",
    "Poseidon.C93_array",
    "Poseidon.C93_arrays",
    "Poseidon.C93_transpose",
    "Poseidon.C93_known",
    "Poseidon.C93_rounds",
    "Poseidon.C93_messages"
   ],
   "note": ""
  },
  {
   "property": "C94",
   "status": "proved",
   "theorems": [
    "Poseidon.C94_every_call",
    "Poseidon.C94_output_words",
    "Poseidon.C94_never_blocked",
    "Poseidon.C94_ends",
    "Poseidon.C94_shipped",
    "Poseidon.C94_left_unoptimized",
    "Poseidon.C94_left_zero",
    "Poseidon.C94_borrow_needed"
   ],
   "note": ""
  },
  {
   "property": "C95",
   "status": "proved",
   "theorems": [
    "Poseidon.C95_language",
    "Poseidon.C95_unique",
    "Poseidon.C95_runs",
    "Poseidon.C95_prover",
    "Poseidon.C95_same",
    "Poseidon.C95_size",
    "Poseidon.C95_inside",
    "Poseidon.C95_constants",
    "Poseidon.C95_preimage",
    "Poseidon.C95_chain",
    "Poseidon.C95_path"
   ],
   "note": ""
  },
  {
   "property": "C96",
   "status": "proved",
   "theorems": [
    "Poseidon.C96_matrices",
    "Poseidon.C96_setup",
    "Poseidon.C96_setup_fails",
    "Poseidon.C96_complete",
    "Poseidon.C96_debug",
    "Poseidon.C96_rejects",
    "Poseidon.C96_arity",
    "Poseidon.C96_zero_knowledge",
    "Poseidon.C96_indistinguishable",
    "Poseidon.C96_knowledge",
    "Poseidon.C96_sound",
    "Poseidon.C96_honest",
    "Poseidon.C96_preimage",
    "Poseidon.C96_chain",
    "Poseidon.C96_path"
   ],
   "note": ""
  },
  {
   "property": "C97",
   "status": "proved",
   "theorems": [
    "Poseidon.C97_unusable",
    "Poseidon.C97_together",
    "Poseidon.C97_happy_path",
    "Poseidon.C97_unhappy_path",
    "Poseidon.C97_last",
    "Poseidon.C97_ends",
    "Poseidon.C97_lost"
   ],
   "note": ""
  },
  {
   "property": "C98",
   "status": "proved",
   "theorems": [
    "Poseidon.C98_bytes",
    "Poseidon.C98_alone",
    "Poseidon.C98_other_key",
    "Poseidon.C98_two_generators"
   ],
   "note": ""
  },
  {
   "property": "C99",
   "status": "proved",
   "theorems": [
    "Poseidon.C99_instance",
    "Poseidon.C99_hash_1",
    "Poseidon.C99_hash_2",
    "Poseidon.C99_hash_3",
    "Poseidon.C99_hash_4",
    "Poseidon.C99_hash_5",
    "Poseidon.C99_hash_6",
    "Poseidon.C99_hash_7",
    "Poseidon.C99_sum",
    "Poseidon.C99_curve",
    "Poseidon.C99_line",
    "Poseidon.C99_generated"
   ],
   "note": ""
  },
  {
   "property": "C100",
   "status": "proved",
   "theorems": [
    "Poseidon.C100_any_time",
    "Poseidon.C100_gap",
    "Poseidon.C100_spliced_key",
    "Poseidon.C100_nobody"
   ],
   "note": ""
  },
  {
   "property": "C101",
   "status": "proved",
   "theorems": [
    "Poseidon.C101_circuit",
    "Poseidon.C101_proofs",
    "Poseidon.C101_debug",
    "Poseidon.C101_hidden",
    "Poseidon.C101_binding"
   ],
   "note": ""
  },
  {
   "property": "C102",
   "status": "proved",
   "theorems": [
    "Poseidon.C102_polynomial",
    "Poseidon.C102_words",
    "Poseidon.C102_instance",
    "Poseidon.C102_hash_1",
    "Poseidon.C102_hash_2",
    "Poseidon.C102_hash_3",
    "Poseidon.C102_hash_4",
    "Poseidon.C102_hash_5",
    "Poseidon.C102_hash_6",
    "Poseidon.C102_hash_7",
    "Poseidon.C102_generated"
   ],
   "note": ""
  },
  {
   "property": "C103",
   "status": "proved",
   "theorems": [
    "Poseidon.C103_prefix",
    "Poseidon.C103_each",
    "Poseidon.C103_one_run",
    "Poseidon.C103_not_durable",
    "Poseidon.C103_mixed"
   ],
   "note": ""
  },
  {
   "property": "C104",
   "status": "proved",
   "theorems": [
    "Poseidon.C104_alone",
    "Poseidon.C104_history",
    "Poseidon.C104_any_time",
    "Poseidon.C104_bytes",
    "Poseidon.C104_two_generators",
    "Poseidon.C104_failed_run"
   ],
   "note": ""
  },
  {
   "property": "C105",
   "status": "proved",
   "theorems": [
    "Poseidon.C105_state",
    "Poseidon.C105_instance",
    "Poseidon.C105_hash_1",
    "Poseidon.C105_hash_2",
    "Poseidon.C105_hash_3",
    "Poseidon.C105_hash_4",
    "Poseidon.C105_hash_5",
    "Poseidon.C105_hash_6",
    "Poseidon.C105_hash_7",
    "Poseidon.C105_generated"
   ],
   "note": ""
  },
  {
   "property": "C106",
   "status": "proved",
   "theorems": [
    "Poseidon.C106_instance",
    "Poseidon.C106_hash_1",
    "Poseidon.C106_hash_2",
    "Poseidon.C106_hash_3",
    "Poseidon.C106_hash_4",
    "Poseidon.C106_hash_5",
    "Poseidon.C106_hash_6",
    "Poseidon.C106_hash_7",
    "Poseidon.C106_small"
   ],
   "note": ""
  },
  {
   "property": "C107",
   "status": "proved",
   "theorems": [
    "Poseidon.C107_preimage",
    "Poseidon.C107_collision",
    "Poseidon.C107_second_preimage",
    "Poseidon.C107_mode",
    "Poseidon.C107_numbers",
    "Poseidon.C107_one_question"
   ],
   "note": ""
  },
  {
   "property": "C108",
   "status": "proved",
   "theorems": [
    "Poseidon.C108_hiding",
    "Poseidon.C108_commitment",
    "Poseidon.C108_numbers",
    "Poseidon.C108_unblinded"
   ],
   "note": ""
  },
  {
   "property": "C109",
   "status": "proved",
   "theorems": [
    "Poseidon.C109_binding",
    "Poseidon.C109_numbers",
    "Poseidon.C109_roots"
   ],
   "note": ""
  },
  {
   "property": "C110",
   "status": "proved",
   "theorems": [
    "Poseidon.C110_unforgeable",
    "Poseidon.C110_numbers"
   ],
   "note": ""
  },
  {
   "property": "C111",
   "status": "proved",
   "theorems": [
    "Poseidon.C111_random_function",
    "Poseidon.C111_numbers",
    "Poseidon.C111_needed"
   ],
   "note": ""
  },
  {
   "property": "C112",
   "status": "proved",
   "theorems": [
    "Poseidon.C112_no_row_superfluous",
    "Poseidon.C112_each_row",
    "Poseidon.C112_preimage_circuit"
   ],
   "note": ""
  },
  {
   "property": "C113",
   "status": "proved",
   "theorems": [
    "Poseidon.C113_sound",
    "Poseidon.C113_extend",
    "Poseidon.C113_runs",
    "Poseidon.C113_prover",
    "Poseidon.C113_size",
    "Poseidon.C113_same",
    "Poseidon.C113_extra_words",
    "Poseidon.C113_hash",
    "Poseidon.C113_sponge"
   ],
   "note": ""
  },
  {
   "property": "C114",
   "status": "proved",
   "theorems": [
    "Poseidon.C114_returns",
    "Poseidon.C114_unoptimized",
    "Poseidon.C114_uniform",
    "Poseidon.C114_uniform_state",
    "Poseidon.C114_difference",
    "Poseidon.C114_collision",
    "Poseidon.C114_state_difference",
    "Poseidon.C114_trail",
    "Poseidon.C114_shipped_uniform",
    "Poseidon.C114_shipped_difference",
    "Poseidon.C114_shipped_collision",
    "Poseidon.C114_shipped_state_difference",
    "Poseidon.C114_shipped_trail",
    "Poseidon.C114_shipped_table"
   ],
   "note": ""
  },
  {
   "property": "C115",
   "status": "proved",
   "theorems": [
    "Poseidon.C115_sound",
    "Poseidon.C115_sound_optimized",
    "Poseidon.C115_parameters",
    "Poseidon.C115_extend",
    "Poseidon.C115_runs",
    "Poseidon.C115_prover",
    "Poseidon.C115_size",
    "Poseidon.C115_same",
    "Poseidon.C115_cs",
    "Poseidon.C115_words"
   ],
   "note": ""
  },
  {
   "property": "C116",
   "status": "proved",
   "theorems": [
    "Poseidon.C116_results",
    "Poseidon.C116_same_work",
    "Poseidon.C116_cost"
   ],
   "note": ""
  },
  {
   "property": "C117",
   "status": "proved",
   "theorems": [
    "Poseidon.C117_includes",
    "Poseidon.C117_bytes",
    "Poseidon.C117_first_run",
    "Poseidon.C117_nobody",
    "Poseidon.C117_zeros"
   ],
   "note": ""
  },
  {
   "property": "C118",
   "status": "proved",
   "theorems": [
    "Poseidon.C118_outcome",
    "Poseidon.C118_outcome_generated",
    "Poseidon.C118_tables",
    "Poseidon.C118_tables_panic",
    "Poseidon.C118_tables_generated",
    "Poseidon.C118_inputs",
    "Poseidon.C118_inputs_generated"
   ],
   "note": ""
  },
  {
   "property": "C119",
   "status": "proved",
   "theorems": [
    "Poseidon.C119_difference",
    "Poseidon.C119_collision",
    "Poseidon.C119_state_difference",
    "Poseidon.C119_trail",
    "Poseidon.C119_state",
    "Poseidon.C119_digest"
   ],
   "note": ""
  },
  {
   "property": "C120",
   "status": "proved",
   "theorems": [
    "Poseidon.C120_state",
    "Poseidon.C120_constant",
    "Poseidon.C120_optimized",
    "Poseidon.C120_unread",
    "Poseidon.C120_values",
    "Poseidon.C120_optimized_values",
    "Poseidon.C120_circuit"
   ],
   "note": ""
  },
  {
   "property": "C121",
   "status": "proved",
   "theorems": [
    "Poseidon.C121_weaker",
    "Poseidon.C121_generated",
    "Poseidon.C121_rounds"
   ],
   "note": ""
  },
  {
   "property": "C122",
   "status": "proved",
   "theorems": [
    "Poseidon.C122_v",
    "Poseidon.C122_w_hat",
    "Poseidon.C122_m_i",
    "Poseidon.C122_m_00",
    "Poseidon.C122_m_00_inputs",
    "Poseidon.C122_unread",
    "Poseidon.C122_mds",
    "Poseidon.C122_mds_inputs",
    "Poseidon.C122_circuit",
    "Poseidon.C122_circuit_unread"
   ],
   "note": ""
  },
  {
   "property": "C123",
   "status": "proved",
   "theorems": [
    "Poseidon.C123_same",
    "Poseidon.C123_count",
    "Poseidon.C123_hashes",
    "Poseidon.C123_optimized",
    "Poseidon.C123_optimized_hashes",
    "Poseidon.C123_test",
    "Poseidon.C123_optimized_test"
   ],
   "note": ""
  }
 ]
}