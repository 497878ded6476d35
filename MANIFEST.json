{
 "claims": [
  {
   "property": "C01",
   "status": "proved",
   "theorems": [
    "Pemv.c01_lenient_hex",
    "Pemv.c01_only_digits_matter",
    "Pemv.c01_insert_noise",
    "Pemv.c01_length"
   ],
   "note": ""
  },
  {
   "property": "C02",
   "status": "proved",
   "theorems": [
    "Pemv.c02_strict_hex",
    "Pemv.c02_strict_hex_iff",
    "Pemv.c02_rejects_non_ascii"
   ],
   "note": ""
  },
  {
   "property": "C03",
   "status": "proved",
   "theorems": [
    "Pemv.c03_round_trip",
    "Pemv.c03_injective"
   ],
   "note": ""
  },
  {
   "property": "C04",
   "status": "proved",
   "theorems": [
    "Pemv.c04_u32",
    "Pemv.c04_u64"
   ],
   "note": ""
  },
  {
   "property": "C05",
   "status": "proved",
   "theorems": [
    "Pemv.c05_trim",
    "Pemv.c05_trim_idempotent",
    "Pemv.c05_trim_keeps"
   ],
   "note": ""
  },
  {
   "property": "C06",
   "status": "proved",
   "theorems": [
    "Pemv.c06_num_dec_digits",
    "Pemv.c06_num_dec_digits_bounds",
    "Pemv.c06_amounts_aligned",
    "Pemv.c06_amount_lines"
   ],
   "note": ""
  },
  {
   "property": "C07",
   "status": "proved",
   "theorems": [
    "Pemv.c07_u16",
    "Pemv.c07_otherwise_invalid"
   ],
   "note": ""
  },
  {
   "property": "C08",
   "status": "proved",
   "theorems": [
    "Pemv.c08_bytes",
    "Pemv.c08_text",
    "Pemv.c08_ber_nodes",
    "Pemv.c08_ingenico_nodes",
    "Pemv.c08_masks_are_a_set",
    "Pemv.c08_no_masks"
   ],
   "note": ""
  },
  {
   "property": "C09",
   "status": "proved",
   "theorems": [
    "Pemv.c09_no_children",
    "Pemv.c09_never_interpreted",
    "Pemv.c09_name",
    "Pemv.c09_shown",
    "Pemv.c09_depends_on_tag_only"
   ],
   "note": ""
  },
  {
   "property": "C10",
   "status": "proved",
   "theorems": [
    "Pemv.c10_language",
    "Pemv.c10_acceptance",
    "Pemv.c10_unique",
    "Pemv.c10_reported"
   ],
   "note": ""
  },
  {
   "property": "C11",
   "status": "proved",
   "theorems": [
    "Pemv.c11_round_trip",
    "Pemv.c11_injective"
   ],
   "note": ""
  },
  {
   "property": "C12",
   "status": "proved",
   "theorems": [
    "Pemv.c12_exact_cover"
   ],
   "note": ""
  },
  {
   "property": "C13",
   "status": "proved",
   "theorems": [
    "Pemv.c13_compositional",
    "Pemv.c13_append",
    "Pemv.c13_iff"
   ],
   "note": ""
  },
  {
   "property": "C14",
   "status": "proved",
   "theorems": [
    "Pemv.c14_truncation"
   ],
   "note": ""
  },
  {
   "property": "C15",
   "status": "proved",
   "theorems": [
    "Pemv.c15_kinds",
    "Pemv.c15_unsupported",
    "Pemv.c15_non_compliant"
   ],
   "note": ""
  },
  {
   "property": "C16",
   "status": "proved",
   "theorems": [
    "Pemv.c16_returns",
    "Pemv.c16_fits_64",
    "Pemv.c16_returns_64",
    "Pemv.c16_build_modes_agree",
    "Pemv.c16_panics_on_32_bit"
   ],
   "note": ""
  },
  {
   "property": "C17",
   "status": "proved",
   "theorems": [
    "Pemv.c17_children",
    "Pemv.c17_isolated"
   ],
   "note": ""
  },
  {
   "property": "C18",
   "status": "proved",
   "theorems": [
    "Pemv.c18_bounds",
    "Pemv.c18_shrinks",
    "Pemv.c18_stack",
    "Pemv.c18_deep",
    "Pemv.c18_stored",
    "Pemv.c18_quadratic"
   ],
   "note": ""
  },
  {
   "property": "C19",
   "status": "proved",
   "theorems": [
    "Pemv.c19_metadata",
    "Pemv.c19_nodes",
    "Pemv.c19_nodes_ingenico"
   ],
   "note": ""
  },
  {
   "property": "C20",
   "status": "partial",
   "theorems": [
    "Pemv.c20_false",
    "Pemv.c20_length_form_partial",
    "Pemv.c20_rejects"
   ],
   "note": "The property is false of the code (c20_false: a long-form zero length is rejected at the end of a block only); c20_length_form_partial proves it for every block not ending so, c20_rejects shows that the exception is exact."
  },
  {
   "property": "C21",
   "status": "proved",
   "theorems": [
    "Pemv.c21_language",
    "Pemv.c21_unique"
   ],
   "note": ""
  },
  {
   "property": "C22",
   "status": "proved",
   "theorems": [
    "Pemv.c22_round_trip"
   ],
   "note": ""
  },
  {
   "property": "C23",
   "status": "proved",
   "theorems": [
    "Pemv.c23_separator"
   ],
   "note": ""
  },
  {
   "property": "C24",
   "status": "proved",
   "theorems": [
    "Pemv.c24_skips_other_types",
    "Pemv.c24_skips_last"
   ],
   "note": ""
  },
  {
   "property": "C25",
   "status": "proved",
   "theorems": [
    "Pemv.c25_case_and_padding",
    "Pemv.c25_hex_letter_mask"
   ],
   "note": ""
  },
  {
   "property": "C26",
   "status": "proved",
   "theorems": [
    "Pemv.c26_returns",
    "Pemv.c26_returns_64",
    "Pemv.c26_panics_on_32_bit"
   ],
   "note": ""
  },
  {
   "property": "C27",
   "status": "partial",
   "theorems": [
    "Pemv.c27_false",
    "Pemv.c27_even_partial",
    "Pemv.c27_odd"
   ],
   "note": "The property is false of the code for odd digit counts (c27_false, and c27_odd for every odd field); c27_even_partial proves it for every even digit count."
  },
  {
   "property": "C28",
   "status": "proved",
   "theorems": [
    "Pemv.c28_kinds",
    "Pemv.c28_non_ascii",
    "Pemv.c28_unsupported"
   ],
   "note": ""
  },
  {
   "property": "C29",
   "status": "proved",
   "theorems": [
    "Pemv.c29_agrees",
    "Pemv.c29_languages"
   ],
   "note": ""
  },
  {
   "property": "C30",
   "status": "proved",
   "theorems": [
    "Pemv.c30_no_colon"
   ],
   "note": ""
  },
  {
   "property": "C31",
   "status": "partial",
   "theorems": [
    "Pemv.c31_false",
    "Pemv.c31_rejected_iff",
    "Pemv.c31_empty_block_iff",
    "Pemv.c31_rejects_partial"
   ],
   "note": "The property is false of the code (c31_false: 'zz' is an empty BER-TLV block); c31_rejected_iff and c31_empty_block_iff characterise it exactly, c31_rejects_partial proves it for texts with at least two hex digits."
  },
  {
   "property": "C32",
   "status": "proved",
   "theorems": [
    "Pemv.c32_lossless",
    "Pemv.c32_tag",
    "Pemv.c32_injective"
   ],
   "note": ""
  },
  {
   "property": "C33",
   "status": "proved",
   "theorems": [
    "Pemv.c33_name",
    "Pemv.c33_named_iff",
    "Pemv.c33_variants",
    "Pemv.c33_all_levels"
   ],
   "note": ""
  },
  {
   "property": "C34",
   "status": "proved",
   "theorems": [
    "Pemv.c34_ok_iff",
    "Pemv.c34_first_error",
    "Pemv.c34_returns"
   ],
   "note": ""
  },
  {
   "property": "C35",
   "status": "proved",
   "theorems": [
    "Pemv.c35_acceptable",
    "Pemv.c35_masked",
    "Pemv.c35_others"
   ],
   "note": ""
  },
  {
   "property": "C36",
   "status": "partial",
   "theorems": [
    "Pemv.c36_false",
    "Pemv.c36_fails",
    "Pemv.c36_tolerated_partial"
   ],
   "note": "The property is false of the code for 9F35 and 9F39 (c36_false, and c36_fails for every unlisted code of either); c36_tolerated_partial proves it for the other tags with an open code table."
  },
  {
   "property": "C37",
   "status": "proved",
   "theorems": [
    "Pemv.c37_identify",
    "Pemv.c37_empty",
    "Pemv.c37_agrees_ber",
    "Pemv.c37_agrees_ingenico",
    "Pemv.c37_well_formed",
    "Pemv.c37_names_distinct"
   ],
   "note": ""
  },
  {
   "property": "C38",
   "status": "proved",
   "theorems": [
    "Pemv.c38_ascending",
    "Pemv.c38_level",
    "Pemv.c38_tags",
    "Pemv.c38_sorted",
    "Pemv.c38_idempotent"
   ],
   "note": ""
  },
  {
   "property": "C39",
   "status": "proved",
   "theorems": [
    "Pemv.c39_algorithm",
    "Pemv.c39_order_of_recursion",
    "Pemv.c39_rearranged",
    "Pemv.c39_distinct_needed"
   ],
   "note": ""
  },
  {
   "property": "C40",
   "status": "proved",
   "theorems": [
    "Pemv.c40_wrong_length",
    "Pemv.c40_counts",
    "Pemv.c40_accepted",
    "Pemv.c40_total",
    "Pemv.c40_cci",
    "Pemv.c40_errors",
    "Pemv.c40_cvm_results"
   ],
   "note": ""
  },
  {
   "property": "C41",
   "status": "proved",
   "theorems": [
    "Pemv.c41_reserved",
    "Pemv.c41_cvm_results"
   ],
   "note": ""
  },
  {
   "property": "C42",
   "status": "proved",
   "theorems": [
    "Pemv.c42_representation",
    "Pemv.c42_injective",
    "Pemv.c42_reparse"
   ],
   "note": ""
  },
  {
   "property": "C43",
   "status": "partial",
   "theorems": [
    "Pemv.c43_cv_rule_partial",
    "Pemv.c43_cvm_results_partial",
    "Pemv.c43_unlisted_fails",
    "Pemv.c43_unlisted_results_fails",
    "Pemv.c43_cv_rule_exact_partial",
    "Pemv.c43_cvm_results_exact_partial"
   ],
   "note": "The property is false of the code for unlisted CV methods and conditions, whose code is lost (c43_unlisted_fails, c43_unlisted_results_fails); c43_cv_rule_partial and c43_cvm_results_partial prove it for all listed codes, c43_cv_rule_exact_partial and c43_cvm_results_exact_partial that it holds for no others."
  },
  {
   "property": "C44",
   "status": "proved",
   "theorems": [
    "Pemv.c44_items",
    "Pemv.c44_nothing_else",
    "Pemv.c44_flags",
    "Pemv.c44_cvm_results"
   ],
   "note": ""
  },
  {
   "property": "C45",
   "status": "proved",
   "theorems": [
    "Pemv.c45_ranges",
    "Pemv.c45_well_formed",
    "Pemv.c45_cvm_results"
   ],
   "note": ""
  },
  {
   "property": "C46",
   "status": "proved",
   "theorems": [
    "Pemv.c46_drawing",
    "Pemv.c46_cvm_results",
    "Pemv.c46_columns"
   ],
   "note": ""
  },
  {
   "property": "C47",
   "status": "proved",
   "theorems": [
    "Pemv.c47_unambiguous",
    "Pemv.c47_selected",
    "Pemv.c47_round_trip",
    "Pemv.c47_response_codes"
   ],
   "note": ""
  },
  {
   "property": "C48",
   "status": "proved",
   "theorems": [
    "Pemv.c48_bytes",
    "Pemv.c48_length",
    "Pemv.c48_digits",
    "Pemv.c48_chart",
    "Pemv.c48_reserved"
   ],
   "note": ""
  },
  {
   "property": "C49",
   "status": "proved",
   "theorems": [
    "Pemv.c49_accepted",
    "Pemv.c49_rejected",
    "Pemv.c49_append_rule"
   ],
   "note": ""
  },
  {
   "property": "C50",
   "status": "proved",
   "theorems": [
    "Pemv.c50_accepted",
    "Pemv.c50_breakdown"
   ],
   "note": ""
  },
  {
   "property": "C51",
   "status": "proved",
   "theorems": [
    "Pemv.c51_accepted",
    "Pemv.c51_rejected",
    "Pemv.c51_lossless"
   ],
   "note": ""
  },
  {
   "property": "C52",
   "status": "proved",
   "theorems": [
    "Pemv.c52_is_tvr",
    "Pemv.c52_defaults"
   ],
   "note": ""
  },
  {
   "property": "C53",
   "status": "proved",
   "theorems": [
    "Pemv.c53_dump",
    "Pemv.c53_read_back",
    "Pemv.c53_text_column",
    "Pemv.c53_inline"
   ],
   "note": ""
  },
  {
   "property": "C54",
   "status": "proved",
   "theorems": [
    "Pemv.c54_output",
    "Pemv.c54_errors",
    "Pemv.c54_bytes"
   ],
   "note": ""
  },
  {
   "property": "C55",
   "status": "partial",
   "theorems": [
    "Pemv.c55_indentation_partial",
    "Pemv.c55_restarts",
    "Pemv.c55_panics",
    "Pemv.c55_exact",
    "Pemv.c55_false"
   ],
   "note": "The property is false of the code (c55_false: a text of at most 3100 characters; c55_panics and c55_restarts say what happens for every deep block, and c55_exact that with overflow checks the whole document is shown if and only if no line has to be indented by more than 255); c55_indentation_partial proves it for blocks nested at most 254 levels deep."
  },
  {
   "property": "C56",
   "status": "proved",
   "theorems": [
    "Pemv.c56_amounts"
   ],
   "note": ""
  },
  {
   "property": "C57",
   "status": "proved",
   "theorems": [
    "Pemv.c57_error_alone",
    "Pemv.c57_output_alone",
    "Pemv.c57_outcome",
    "Pemv.c57_exclusive",
    "Pemv.c57_panic"
   ],
   "note": ""
  },
  {
   "property": "C58",
   "status": "proved",
   "theorems": [
    "Pemv.c58_first_option",
    "Pemv.c58_selected",
    "Pemv.c58_help",
    "Pemv.c58_hex",
    "Pemv.c58_service_code",
    "Pemv.c58_ber",
    "Pemv.c58_ingenico",
    "Pemv.c58_auto",
    "Pemv.c58_encoded"
   ],
   "note": ""
  },
  {
   "property": "C59",
   "status": "proved",
   "theorems": [
    "Pemv.c59_digits",
    "Pemv.c59_noise"
   ],
   "note": ""
  },
  {
   "property": "C60",
   "status": "proved",
   "theorems": [
    "Pemv.c60_in_force",
    "Pemv.c60_otherwise_panics",
    "Pemv.c60_levels",
    "Pemv.c60_defaults_ignored",
    "Pemv.c60_other_profiles"
   ],
   "note": ""
  },
  {
   "property": "C61",
   "status": "proved",
   "theorems": [
    "Pemv.c61_preference",
    "Pemv.c61_output"
   ],
   "note": ""
  },
  {
   "property": "C62",
   "status": "proved",
   "theorems": [
    "Pemv.c62_names",
    "Pemv.c62_otherwise",
    "Pemv.c62_round_trip",
    "Pemv.c62_terminal"
   ],
   "note": ""
  },
  {
   "property": "C63",
   "status": "proved",
   "theorems": [
    "Pemv.c63_transaction_type",
    "Pemv.c63_terminal_type",
    "Pemv.c63_pos_entry_mode",
    "Pemv.c63_errors",
    "Pemv.c63_listed",
    "Pemv.c63_response_code",
    "Pemv.c63_response_code_listed",
    "Pemv.c63_response_code_errors"
   ],
   "note": ""
  },
  {
   "property": "C64",
   "status": "proved",
   "theorems": [
    "Pemv.c64_decoded",
    "Pemv.c64_only"
   ],
   "note": ""
  },
  {
   "property": "C65",
   "status": "proved",
   "theorems": [
    "Pemv.c65_dictionary"
   ],
   "note": ""
  },
  {
   "property": "C66",
   "status": "proved",
   "theorems": [
    "Pemv.c66_issuer_action_codes",
    "Pemv.c66_colours",
    "Pemv.c66_shown",
    "Pemv.c66_cvm_results"
   ],
   "note": ""
  },
  {
   "property": "C67",
   "status": "proved",
   "theorems": [
    "Pemv.c67_explanations",
    "Pemv.c67_cvm_results",
    "Pemv.c67_labelled"
   ],
   "note": ""
  },
  {
   "property": "C68",
   "status": "proved",
   "theorems": [
    "Pemv.c68_restored"
   ],
   "note": ""
  },
  {
   "property": "C69",
   "status": "proved",
   "theorems": [
    "Pemv.c69_unique",
    "Pemv.c69_names"
   ],
   "note": ""
  },
  {
   "property": "C70",
   "status": "proved",
   "theorems": [
    "Pemv.c70_runs",
    "Pemv.c70_inconsistent",
    "Pemv.c70_ends",
    "Pemv.c70_no_arguments",
    "Pemv.c70_no_panic"
   ],
   "note": ""
  },
  {
   "property": "C71",
   "status": "proved",
   "theorems": [
    "Pemv.c71_by_tag"
   ],
   "note": ""
  },
  {
   "property": "C72",
   "status": "proved",
   "theorems": [
    "Pemv.c72_defaults",
    "Pemv.c72_declared"
   ],
   "note": ""
  },
  {
   "property": "C73",
   "status": "proved",
   "theorems": [
    "Pemv.c73_formats",
    "Pemv.c73_auto_ingenico",
    "Pemv.c73_auto_ber",
    "Pemv.c73_auto_decides"
   ],
   "note": ""
  },
  {
   "property": "C74",
   "status": "proved",
   "theorems": [
    "Pemv.c74_read_back",
    "Pemv.c74_unsorted"
   ],
   "note": ""
  },
  {
   "property": "C75",
   "status": "proved",
   "theorems": [
    "Pemv.c75_concatenation",
    "Pemv.c75_error"
   ],
   "note": ""
  },
  {
   "property": "C76",
   "status": "proved",
   "theorems": [
    "Pemv.c76_distinct"
   ],
   "note": ""
  },
  {
   "property": "C77",
   "status": "proved",
   "theorems": [
    "Pemv.c77_masks",
    "Pemv.c77_order"
   ],
   "note": ""
  },
  {
   "property": "C78",
   "status": "proved",
   "theorems": [
    "Pemv.c78_ber",
    "Pemv.c78_ingenico",
    "Pemv.c78_shown"
   ],
   "note": ""
  },
  {
   "property": "C79",
   "status": "proved",
   "theorems": [
    "Pemv.c79_hex",
    "Pemv.c79_service_code"
   ],
   "note": ""
  },
  {
   "property": "C80",
   "status": "proved",
   "theorems": [
    "Pemv.c80_lines",
    "Pemv.c80_panicking",
    "Pemv.c80_tags"
   ],
   "note": ""
  },
  {
   "property": "C81",
   "status": "proved",
   "theorems": [
    "Pemv.c81_run",
    "Pemv.c81_single",
    "Pemv.c81_blocks",
    "Pemv.c81_characters",
    "Pemv.c81_block_characters",
    "Pemv.c81_width",
    "Pemv.c81_reached"
   ],
   "note": ""
  },
  {
   "property": "C82",
   "status": "proved",
   "theorems": [
    "Pemv.c82_success",
    "Pemv.c82_same_text",
    "Pemv.c82_no_escapes",
    "Pemv.c82_when_coloured",
    "Pemv.c82_pipe"
   ],
   "note": ""
  },
  {
   "property": "C83",
   "status": "proved",
   "theorems": [
    "Pemv.c83_agree",
    "Pemv.c83_same_mode",
    "Pemv.c83_checks",
    "Pemv.c83_short",
    "Pemv.c83_32_bit_differs"
   ],
   "note": ""
  },
  {
   "property": "C84",
   "status": "proved",
   "theorems": [
    "Pemv.c84_template",
    "Pemv.c84_opaque",
    "Pemv.c84_error"
   ],
   "note": ""
  },
  {
   "property": "C85",
   "status": "proved",
   "theorems": [
    "Pemv.c85_equivalence",
    "Pemv.c85_equality",
    "Pemv.c85_order",
    "Pemv.c85_lawful",
    "Pemv.c85_equal_tied",
    "Pemv.c85_tied_unequal",
    "Pemv.c85_sorted"
   ],
   "note": ""
  },
  {
   "property": "C86",
   "status": "proved",
   "theorems": [
    "Pemv.c86_debug",
    "Pemv.c86_release",
    "Pemv.c86_complete",
    "Pemv.c86_no_directories",
    "Pemv.c86_environment_wins"
   ],
   "note": ""
  },
  {
   "property": "C87",
   "status": "partial",
   "theorems": [
    "Pemv.c87_missing_value_partial",
    "Pemv.c87_refuted",
    "Pemv.c87_colour_needs_value"
   ],
   "note": "The property is false of the code for --colour (c87_refuted, and c87_colour_needs_value for every command line); c87_missing_value_partial proves it for all other options with a declared missing value."
  },
  {
   "property": "C88",
   "status": "proved",
   "theorems": [
    "Pemv.c88_styles",
    "Pemv.c88_attached",
    "Pemv.c88_only",
    "Pemv.c88_stray",
    "Pemv.c88_after_dashes",
    "Pemv.c88_hyphen",
    "Pemv.c88_help",
    "Pemv.c88_unknown",
    "Pemv.c88_empty"
   ],
   "note": ""
  },
  {
   "property": "C89",
   "status": "proved",
   "theorems": [
    "Pemv.c89_determined",
    "Pemv.c89_surroundings",
    "Pemv.c89_five_variables",
    "Pemv.c89_profile_case",
    "Pemv.c89_in_force"
   ],
   "note": ""
  },
  {
   "property": "C90",
   "status": "proved",
   "theorems": [
    "Pemv.c90_ends",
    "Pemv.c90_proper",
    "Pemv.c90_causes",
    "Pemv.c90_bad_file"
   ],
   "note": ""
  },
  {
   "property": "C91",
   "status": "proved",
   "theorems": [
    "Pemv.c91_same",
    "Pemv.c91_ber",
    "Pemv.c91_ingenico",
    "Pemv.c91_auto",
    "Pemv.c91_detection",
    "Pemv.c91_reached"
   ],
   "note": ""
  },
  {
   "property": "C92",
   "status": "proved",
   "theorems": [
    "Pemv.c92_arrives",
    "Pemv.c92_stays",
    "Pemv.c92_leaves",
    "Pemv.c92_buffering",
    "Pemv.c92_buffer",
    "Pemv.c92_writes"
   ],
   "note": ""
  },
  {
   "property": "C93",
   "status": "partial",
   "theorems": [
    "Pemv.c93_ber_partial",
    "Pemv.c93_ingenico_partial",
    "Pemv.c93_auto_partial",
    "Pemv.c93_detection",
    "Pemv.c93_template",
    "Pemv.c93_given_away",
    "Pemv.c93_refuted"
   ],
   "note": "The property is false of the code inside templates (c93_refuted; c93_given_away shows that every difference inside a template is visible). c93_ber_partial, c93_ingenico_partial and c93_auto_partial prove it for masked values outside templates, c93_template that only the size and the bytes of a template give the contents away. It is also false when the format is detected and records are followed by something that is not a record (c93_detection): the text is then read as BER-TLV, digits of lengths included. c93_auto_partial covers complete records, and BER-TLV in all texts that are not made of records."
  },
  {
   "property": "C94",
   "status": "partial",
   "theorems": [
    "Pemv.c94_status_partial",
    "Pemv.c94_help",
    "Pemv.c94_data_errors",
    "Pemv.c94_meaning",
    "Pemv.c94_refuted"
   ],
   "note": "The property is false of the code for errors in the data (c94_refuted; c94_data_errors for every such run). c94_status_partial and c94_help prove the rest, c94_meaning what can be concluded from a status."
  },
  {
   "property": "C95",
   "status": "proved",
   "theorems": [
    "Pemv.c95_lines",
    "Pemv.c95_order",
    "Pemv.c95_records",
    "Pemv.c95_rejected",
    "Pemv.c95_records_rejected",
    "Pemv.c95_determined",
    "Pemv.c95_already"
   ],
   "note": ""
  },
  {
   "property": "C96",
   "status": "proved",
   "theorems": [
    "Pemv.c96_object",
    "Pemv.c96_record",
    "Pemv.c96_within",
    "Pemv.c96_record_within"
   ],
   "note": ""
  },
  {
   "property": "C97",
   "status": "proved",
   "theorems": [
    "Pemv.c97_only",
    "Pemv.c97_each",
    "Pemv.c97_never"
   ],
   "note": ""
  },
  {
   "property": "C98",
   "status": "proved",
   "theorems": [
    "Pemv.c98_service_code",
    "Pemv.c98_cvr",
    "Pemv.c98_iad",
    "Pemv.c98_never",
    "Pemv.c98_blocks"
   ],
   "note": ""
  },
  {
   "property": "C99",
   "status": "proved",
   "theorems": [
    "Pemv.c99_answers",
    "Pemv.c99_determined",
    "Pemv.c99_read",
    "Pemv.c99_only",
    "Pemv.c99_process"
   ],
   "note": ""
  },
  {
   "property": "C100",
   "status": "proved",
   "theorems": [
    "Pemv.c100_truncation",
    "Pemv.c100_run",
    "Pemv.c100_compositional",
    "Pemv.c100_concatenation",
    "Pemv.c100_error"
   ],
   "note": ""
  },
  {
   "property": "C101",
   "status": "partial",
   "theorems": [
    "Pemv.c101_ber",
    "Pemv.c101_false",
    "Pemv.c101_detected_partial",
    "Pemv.c101_accepted",
    "Pemv.c101_general",
    "Pemv.c101_exact"
   ],
   "note": "The property is false of the code for Ingenico records (c101_false). c101_ber proves it for BER-TLV without colons; c101_detected_partial for records written like BER-TLV objects that are cut between their second and their last digit; c101_exact says exactly which cuts of such records are not noticed, c101_general exactly which cuts of any records."
  },
  {
   "property": "C102",
   "status": "proved",
   "theorems": [
    "Pemv.c102_ber",
    "Pemv.c102_ingenico",
    "Pemv.c102_modulo",
    "Pemv.c102_without_checks",
    "Pemv.c102_not_ascii",
    "Pemv.c102_wrong_length_accepted",
    "Pemv.c102_run"
   ],
   "note": ""
  },
  {
   "property": "C103",
   "status": "proved",
   "theorems": [
    "Pemv.c103_round_trip",
    "Pemv.c103_built_in",
    "Pemv.c103_same_settings",
    "Pemv.c103_merged",
    "Pemv.c103_written",
    "Pemv.c103_colour_names",
    "Pemv.c103_types"
   ],
   "note": ""
  },
  {
   "property": "C104",
   "status": "proved",
   "theorems": [
    "Pemv.c104_option",
    "Pemv.c104_method",
    "Pemv.c104_condition",
    "Pemv.c104_code",
    "Pemv.c104_injective",
    "Pemv.c104_rule",
    "Pemv.c104_shown",
    "Pemv.c104_format"
   ],
   "note": ""
  },
  {
   "property": "C105",
   "status": "proved",
   "theorems": [
    "Pemv.c105_pass",
    "Pemv.c105_unique",
    "Pemv.c105_display",
    "Pemv.c105_flag_types",
    "Pemv.c105_exact",
    "Pemv.c105_complete",
    "Pemv.c105_same",
    "Pemv.c105_byte_count",
    "Pemv.c105_blind",
    "Pemv.c105_blind_number"
   ],
   "note": ""
  },
  {
   "property": "C106",
   "status": "proved",
   "theorems": [
    "Pemv.c106_text",
    "Pemv.c106_never_runs",
    "Pemv.c106_rest",
    "Pemv.c106_after",
    "Pemv.c106_help"
   ],
   "note": ""
  },
  {
   "property": "C107",
   "status": "proved",
   "theorems": [
    "Pemv.c107_documented",
    "Pemv.c107_names",
    "Pemv.c107_headings",
    "Pemv.c107_quoted",
    "Pemv.c107_tags",
    "Pemv.c107_tag_shown",
    "Pemv.c107_words",
    "Pemv.c107_part",
    "Pemv.c107_action_codes",
    "Pemv.c107_inverse",
    "Pemv.c107_repeated",
    "Pemv.c107_ansi",
    "Pemv.c107_ignored",
    "Pemv.c107_placeholder",
    "Pemv.c107_single_byte"
   ],
   "note": ""
  },
  {
   "property": "C108",
   "status": "partial",
   "theorems": [
    "Pemv.c108_refused",
    "Pemv.c108_success_iff",
    "Pemv.c108_released_partial",
    "Pemv.c108_unreleased",
    "Pemv.c108_status",
    "Pemv.c108_gated",
    "Pemv.c108_only_adds",
    "Pemv.c108_manifest",
    "Pemv.c108_left_behind",
    "Pemv.c108_again",
    "Pemv.c108_third_line",
    "Pemv.c108_says",
    "Pemv.c108_this_version",
    "Pemv.c108_next_version"
   ],
   "note": "The property is false of the script if the commit fails (c108_unreleased, for every such run). c108_released_partial proves it for runs in which the commit is made; c108_success_iff, c108_status and c108_gated say exactly when success is announced and what the status means."
  },
  {
   "property": "C109",
   "status": "proved",
   "theorems": [
    "Pemv.c109_ber",
    "Pemv.c109_ingenico",
    "Pemv.c109_auto",
    "Pemv.c109_enough",
    "Pemv.c109_reached",
    "Pemv.c109_hidden",
    "Pemv.c109_levels"
   ],
   "note": ""
  },
  {
   "property": "C110",
   "status": "proved",
   "theorems": [
    "Pemv.c110_seen",
    "Pemv.c110_columns",
    "Pemv.c110_whole",
    "Pemv.c110_value",
    "Pemv.c110_service_code",
    "Pemv.c110_whole_refuted",
    "Pemv.c110_template"
   ],
   "note": ""
  },
  {
   "property": "C111",
   "status": "proved",
   "theorems": [
    "Pemv.c111_alike",
    "Pemv.c111_same",
    "Pemv.c111_holds",
    "Pemv.c111_detected"
   ],
   "note": ""
  },
  {
   "property": "C112",
   "status": "proved",
   "theorems": [
    "Pemv.c112_colours",
    "Pemv.c112_only",
    "Pemv.c112_anywhere"
   ],
   "note": ""
  },
  {
   "property": "C113",
   "status": "partial",
   "theorems": [
    "Pemv.c113_passes",
    "Pemv.c113_alarm",
    "Pemv.c113_false",
    "Pemv.c113_fails_partial"
   ],
   "note": "The property is false of the check (c113_false: public and indented statements, line ends of Windows, unreadable files); c113_fails_partial proves it without these, c113_passes says exactly when it passes, c113_alarm that there are no false alarms."
  },
  {
   "property": "C114",
   "status": "proved",
   "theorems": [
    "Pemv.c114_group",
    "Pemv.c114_listed",
    "Pemv.c114_sections",
    "Pemv.c114_line",
    "Pemv.c114_silent",
    "Pemv.c114_release",
    "Pemv.c114_whole",
    "Pemv.c114_notes",
    "Pemv.c114_stable",
    "Pemv.c114_lines",
    "Pemv.c114_version",
    "Pemv.c114_false"
   ],
   "note": ""
  },
  {
   "property": "C115",
   "status": "proved",
   "theorems": [
    "Pemv.c115_values",
    "Pemv.c115_values_false",
    "Pemv.c115_settings_only",
    "Pemv.c115_question",
    "Pemv.c115_constructed",
    "Pemv.c115_as_primitive",
    "Pemv.c115_empty",
    "Pemv.c115_amounts_false",
    "Pemv.c115_tags"
   ],
   "note": ""
  },
  {
   "property": "C116",
   "status": "proved",
   "theorems": [
    "Pemv.c116_exact",
    "Pemv.c116_clean",
    "Pemv.c116_commit",
    "Pemv.c116_private",
    "Pemv.c116_false",
    "Pemv.c116_refuses",
    "Pemv.c116_release",
    "Pemv.c116_build",
    "Pemv.c116_build_elsewhere",
    "Pemv.c116_files"
   ],
   "note": ""
  },
  {
   "property": "C117",
   "status": "proved",
   "theorems": [
    "Pemv.c117_programs",
    "Pemv.c117_artifacts",
    "Pemv.c117_integrity",
    "Pemv.c117_use",
    "Pemv.c117_lints",
    "Pemv.c117_false",
    "Pemv.c117_script"
   ],
   "note": ""
  }
 ]
}