import Verif.Props.Alarms
import Verif.Props.Alike
import Verif.Props.Announced
import Verif.Props.Argv
import Verif.Props.Auto
import Verif.Props.Ber
import Verif.Props.Bitflags
import Verif.Props.Breaks
import Verif.Props.Build
import Verif.Props.Builds
import Verif.Props.Calls
import Verif.Props.Changelog
import Verif.Props.Ci
import Verif.Props.Cli
import Verif.Props.Codes
import Verif.Props.Complaints
import Verif.Props.Complete
import Verif.Props.Config
import Verif.Props.Conversions
import Verif.Props.Copied
import Verif.Props.Cut
import Verif.Props.Display
import Verif.Props.Drawing
import Verif.Props.Ends
import Verif.Props.Exact
import Verif.Props.Help
import Verif.Props.Ignore
import Verif.Props.Ingenico
import Verif.Props.Lines
import Verif.Props.Masked
import Verif.Props.Masking
import Verif.Props.Narrow
import Verif.Props.Nested
import Verif.Props.Objects
import Verif.Props.Order
import Verif.Props.OsArgs
import Verif.Props.Process
import Verif.Props.Provider
import Verif.Props.Rearranged
import Verif.Props.Release
import Verif.Props.Reserved
import Verif.Props.Run
import Verif.Props.Sort
import Verif.Props.Status
import Verif.Props.Stored
import Verif.Props.Stream
import Verif.Props.Terminal
import Verif.Props.Testing
import Verif.Props.Util
import Verif.Props.Values
import Verif.Props.Whole
import Verif.Props.Work
import Verif.Props.Workflow
import Verif.Props.World

/-! Axioms of every property theorem (generated by tools/gen_manifest.py). -/

#print axioms Pemv.c01_lenient_hex
#print axioms Pemv.c01_only_digits_matter
#print axioms Pemv.c01_insert_noise
#print axioms Pemv.c01_length
#print axioms Pemv.c02_strict_hex
#print axioms Pemv.c02_strict_hex_iff
#print axioms Pemv.c02_rejects_non_ascii
#print axioms Pemv.c03_round_trip
#print axioms Pemv.c03_injective
#print axioms Pemv.c04_u32
#print axioms Pemv.c04_u64
#print axioms Pemv.c05_trim
#print axioms Pemv.c05_trim_idempotent
#print axioms Pemv.c05_trim_keeps
#print axioms Pemv.c06_num_dec_digits
#print axioms Pemv.c06_num_dec_digits_bounds
#print axioms Pemv.c06_amounts_aligned
#print axioms Pemv.c06_amount_lines
#print axioms Pemv.c07_u16
#print axioms Pemv.c07_otherwise_invalid
#print axioms Pemv.c08_bytes
#print axioms Pemv.c08_text
#print axioms Pemv.c08_ber_nodes
#print axioms Pemv.c08_ingenico_nodes
#print axioms Pemv.c08_masks_are_a_set
#print axioms Pemv.c08_no_masks
#print axioms Pemv.c09_no_children
#print axioms Pemv.c09_never_interpreted
#print axioms Pemv.c09_name
#print axioms Pemv.c09_shown
#print axioms Pemv.c09_depends_on_tag_only
#print axioms Pemv.c10_language
#print axioms Pemv.c10_acceptance
#print axioms Pemv.c10_unique
#print axioms Pemv.c10_reported
#print axioms Pemv.c11_round_trip
#print axioms Pemv.c11_injective
#print axioms Pemv.c12_exact_cover
#print axioms Pemv.c13_compositional
#print axioms Pemv.c13_append
#print axioms Pemv.c13_iff
#print axioms Pemv.c14_truncation
#print axioms Pemv.c15_kinds
#print axioms Pemv.c15_unsupported
#print axioms Pemv.c15_non_compliant
#print axioms Pemv.c16_returns
#print axioms Pemv.c16_fits_64
#print axioms Pemv.c16_returns_64
#print axioms Pemv.c16_build_modes_agree
#print axioms Pemv.c16_panics_on_32_bit
#print axioms Pemv.c17_children
#print axioms Pemv.c17_isolated
#print axioms Pemv.c18_bounds
#print axioms Pemv.c18_shrinks
#print axioms Pemv.c18_stack
#print axioms Pemv.c18_deep
#print axioms Pemv.c18_stored
#print axioms Pemv.c18_quadratic
#print axioms Pemv.c19_metadata
#print axioms Pemv.c19_nodes
#print axioms Pemv.c19_nodes_ingenico
#print axioms Pemv.c20_false
#print axioms Pemv.c20_length_form_partial
#print axioms Pemv.c20_rejects
#print axioms Pemv.c21_language
#print axioms Pemv.c21_unique
#print axioms Pemv.c22_round_trip
#print axioms Pemv.c23_separator
#print axioms Pemv.c24_skips_other_types
#print axioms Pemv.c24_skips_last
#print axioms Pemv.c25_case_and_padding
#print axioms Pemv.c25_hex_letter_mask
#print axioms Pemv.c26_returns
#print axioms Pemv.c26_returns_64
#print axioms Pemv.c26_panics_on_32_bit
#print axioms Pemv.c27_false
#print axioms Pemv.c27_even_partial
#print axioms Pemv.c27_odd
#print axioms Pemv.c28_kinds
#print axioms Pemv.c28_non_ascii
#print axioms Pemv.c28_unsupported
#print axioms Pemv.c29_agrees
#print axioms Pemv.c29_languages
#print axioms Pemv.c30_no_colon
#print axioms Pemv.c31_false
#print axioms Pemv.c31_rejected_iff
#print axioms Pemv.c31_empty_block_iff
#print axioms Pemv.c31_rejects_partial
#print axioms Pemv.c32_lossless
#print axioms Pemv.c32_tag
#print axioms Pemv.c32_injective
#print axioms Pemv.c33_name
#print axioms Pemv.c33_named_iff
#print axioms Pemv.c33_variants
#print axioms Pemv.c33_all_levels
#print axioms Pemv.c34_ok_iff
#print axioms Pemv.c34_first_error
#print axioms Pemv.c34_returns
#print axioms Pemv.c35_acceptable
#print axioms Pemv.c35_masked
#print axioms Pemv.c35_others
#print axioms Pemv.c36_false
#print axioms Pemv.c36_fails
#print axioms Pemv.c36_tolerated_partial
#print axioms Pemv.c37_identify
#print axioms Pemv.c37_empty
#print axioms Pemv.c37_agrees_ber
#print axioms Pemv.c37_agrees_ingenico
#print axioms Pemv.c37_well_formed
#print axioms Pemv.c37_names_distinct
#print axioms Pemv.c38_ascending
#print axioms Pemv.c38_level
#print axioms Pemv.c38_tags
#print axioms Pemv.c38_sorted
#print axioms Pemv.c38_idempotent
#print axioms Pemv.c39_algorithm
#print axioms Pemv.c39_order_of_recursion
#print axioms Pemv.c39_rearranged
#print axioms Pemv.c39_distinct_needed
#print axioms Pemv.c40_wrong_length
#print axioms Pemv.c40_counts
#print axioms Pemv.c40_accepted
#print axioms Pemv.c40_total
#print axioms Pemv.c40_cci
#print axioms Pemv.c40_errors
#print axioms Pemv.c40_cvm_results
#print axioms Pemv.c41_reserved
#print axioms Pemv.c41_cvm_results
#print axioms Pemv.c42_representation
#print axioms Pemv.c42_injective
#print axioms Pemv.c42_reparse
#print axioms Pemv.c43_cv_rule_partial
#print axioms Pemv.c43_cvm_results_partial
#print axioms Pemv.c43_unlisted_fails
#print axioms Pemv.c43_unlisted_results_fails
#print axioms Pemv.c43_cv_rule_exact_partial
#print axioms Pemv.c43_cvm_results_exact_partial
#print axioms Pemv.c44_items
#print axioms Pemv.c44_nothing_else
#print axioms Pemv.c44_flags
#print axioms Pemv.c44_cvm_results
#print axioms Pemv.c45_ranges
#print axioms Pemv.c45_well_formed
#print axioms Pemv.c45_cvm_results
#print axioms Pemv.c46_drawing
#print axioms Pemv.c46_cvm_results
#print axioms Pemv.c46_columns
#print axioms Pemv.c47_unambiguous
#print axioms Pemv.c47_selected
#print axioms Pemv.c47_round_trip
#print axioms Pemv.c47_response_codes
#print axioms Pemv.c48_bytes
#print axioms Pemv.c48_length
#print axioms Pemv.c48_digits
#print axioms Pemv.c48_chart
#print axioms Pemv.c48_reserved
#print axioms Pemv.c49_accepted
#print axioms Pemv.c49_rejected
#print axioms Pemv.c49_append_rule
#print axioms Pemv.c50_accepted
#print axioms Pemv.c50_breakdown
#print axioms Pemv.c51_accepted
#print axioms Pemv.c51_rejected
#print axioms Pemv.c51_lossless
#print axioms Pemv.c52_is_tvr
#print axioms Pemv.c52_defaults
#print axioms Pemv.c53_dump
#print axioms Pemv.c53_read_back
#print axioms Pemv.c53_text_column
#print axioms Pemv.c53_inline
#print axioms Pemv.c54_output
#print axioms Pemv.c54_errors
#print axioms Pemv.c54_bytes
#print axioms Pemv.c55_indentation_partial
#print axioms Pemv.c55_restarts
#print axioms Pemv.c55_panics
#print axioms Pemv.c55_exact
#print axioms Pemv.c55_false
#print axioms Pemv.c56_amounts
#print axioms Pemv.c57_error_alone
#print axioms Pemv.c57_output_alone
#print axioms Pemv.c57_outcome
#print axioms Pemv.c57_exclusive
#print axioms Pemv.c57_panic
#print axioms Pemv.c58_first_option
#print axioms Pemv.c58_selected
#print axioms Pemv.c58_help
#print axioms Pemv.c58_hex
#print axioms Pemv.c58_service_code
#print axioms Pemv.c58_ber
#print axioms Pemv.c58_ingenico
#print axioms Pemv.c58_auto
#print axioms Pemv.c58_encoded
#print axioms Pemv.c59_digits
#print axioms Pemv.c59_noise
#print axioms Pemv.c60_in_force
#print axioms Pemv.c60_otherwise_panics
#print axioms Pemv.c60_levels
#print axioms Pemv.c60_defaults_ignored
#print axioms Pemv.c60_other_profiles
#print axioms Pemv.c61_preference
#print axioms Pemv.c61_output
#print axioms Pemv.c62_names
#print axioms Pemv.c62_otherwise
#print axioms Pemv.c62_round_trip
#print axioms Pemv.c62_terminal
#print axioms Pemv.c63_transaction_type
#print axioms Pemv.c63_terminal_type
#print axioms Pemv.c63_pos_entry_mode
#print axioms Pemv.c63_errors
#print axioms Pemv.c63_listed
#print axioms Pemv.c63_response_code
#print axioms Pemv.c63_response_code_listed
#print axioms Pemv.c63_response_code_errors
#print axioms Pemv.c64_decoded
#print axioms Pemv.c64_only
#print axioms Pemv.c65_dictionary
#print axioms Pemv.c66_issuer_action_codes
#print axioms Pemv.c66_colours
#print axioms Pemv.c66_shown
#print axioms Pemv.c66_cvm_results
#print axioms Pemv.c67_explanations
#print axioms Pemv.c67_cvm_results
#print axioms Pemv.c67_labelled
#print axioms Pemv.c68_restored
#print axioms Pemv.c69_unique
#print axioms Pemv.c69_names
#print axioms Pemv.c70_runs
#print axioms Pemv.c70_inconsistent
#print axioms Pemv.c70_ends
#print axioms Pemv.c70_no_arguments
#print axioms Pemv.c70_no_panic
#print axioms Pemv.c71_by_tag
#print axioms Pemv.c72_defaults
#print axioms Pemv.c72_declared
#print axioms Pemv.c73_formats
#print axioms Pemv.c73_auto_ingenico
#print axioms Pemv.c73_auto_ber
#print axioms Pemv.c73_auto_decides
#print axioms Pemv.c74_read_back
#print axioms Pemv.c74_unsorted
#print axioms Pemv.c75_concatenation
#print axioms Pemv.c75_error
#print axioms Pemv.c76_distinct
#print axioms Pemv.c77_masks
#print axioms Pemv.c77_order
#print axioms Pemv.c78_ber
#print axioms Pemv.c78_ingenico
#print axioms Pemv.c78_shown
#print axioms Pemv.c79_hex
#print axioms Pemv.c79_service_code
#print axioms Pemv.c80_lines
#print axioms Pemv.c80_panicking
#print axioms Pemv.c80_tags
#print axioms Pemv.c81_run
#print axioms Pemv.c81_single
#print axioms Pemv.c81_blocks
#print axioms Pemv.c81_characters
#print axioms Pemv.c81_block_characters
#print axioms Pemv.c81_width
#print axioms Pemv.c81_reached
#print axioms Pemv.c82_success
#print axioms Pemv.c82_same_text
#print axioms Pemv.c82_no_escapes
#print axioms Pemv.c82_when_coloured
#print axioms Pemv.c82_pipe
#print axioms Pemv.c83_agree
#print axioms Pemv.c83_same_mode
#print axioms Pemv.c83_checks
#print axioms Pemv.c83_short
#print axioms Pemv.c83_32_bit_differs
#print axioms Pemv.c84_template
#print axioms Pemv.c84_opaque
#print axioms Pemv.c84_error
#print axioms Pemv.c85_equivalence
#print axioms Pemv.c85_equality
#print axioms Pemv.c85_order
#print axioms Pemv.c85_lawful
#print axioms Pemv.c85_equal_tied
#print axioms Pemv.c85_tied_unequal
#print axioms Pemv.c85_sorted
#print axioms Pemv.c86_debug
#print axioms Pemv.c86_release
#print axioms Pemv.c86_complete
#print axioms Pemv.c86_no_directories
#print axioms Pemv.c86_environment_wins
#print axioms Pemv.c87_missing_value_partial
#print axioms Pemv.c87_refuted
#print axioms Pemv.c87_colour_needs_value
#print axioms Pemv.c88_styles
#print axioms Pemv.c88_attached
#print axioms Pemv.c88_only
#print axioms Pemv.c88_stray
#print axioms Pemv.c88_after_dashes
#print axioms Pemv.c88_hyphen
#print axioms Pemv.c88_help
#print axioms Pemv.c88_unknown
#print axioms Pemv.c88_empty
#print axioms Pemv.c89_determined
#print axioms Pemv.c89_surroundings
#print axioms Pemv.c89_five_variables
#print axioms Pemv.c89_profile_case
#print axioms Pemv.c89_in_force
#print axioms Pemv.c90_ends
#print axioms Pemv.c90_proper
#print axioms Pemv.c90_causes
#print axioms Pemv.c90_bad_file
#print axioms Pemv.c91_same
#print axioms Pemv.c91_ber
#print axioms Pemv.c91_ingenico
#print axioms Pemv.c91_auto
#print axioms Pemv.c91_detection
#print axioms Pemv.c91_reached
#print axioms Pemv.c92_arrives
#print axioms Pemv.c92_stays
#print axioms Pemv.c92_leaves
#print axioms Pemv.c92_buffering
#print axioms Pemv.c92_buffer
#print axioms Pemv.c92_writes
#print axioms Pemv.c93_ber_partial
#print axioms Pemv.c93_ingenico_partial
#print axioms Pemv.c93_auto_partial
#print axioms Pemv.c93_detection
#print axioms Pemv.c93_template
#print axioms Pemv.c93_given_away
#print axioms Pemv.c93_refuted
#print axioms Pemv.c94_status_partial
#print axioms Pemv.c94_help
#print axioms Pemv.c94_data_errors
#print axioms Pemv.c94_meaning
#print axioms Pemv.c94_refuted
#print axioms Pemv.c95_lines
#print axioms Pemv.c95_order
#print axioms Pemv.c95_records
#print axioms Pemv.c95_rejected
#print axioms Pemv.c95_records_rejected
#print axioms Pemv.c95_determined
#print axioms Pemv.c95_already
#print axioms Pemv.c96_object
#print axioms Pemv.c96_record
#print axioms Pemv.c96_within
#print axioms Pemv.c96_record_within
#print axioms Pemv.c97_only
#print axioms Pemv.c97_each
#print axioms Pemv.c97_never
#print axioms Pemv.c98_service_code
#print axioms Pemv.c98_cvr
#print axioms Pemv.c98_iad
#print axioms Pemv.c98_never
#print axioms Pemv.c98_blocks
#print axioms Pemv.c99_answers
#print axioms Pemv.c99_determined
#print axioms Pemv.c99_read
#print axioms Pemv.c99_only
#print axioms Pemv.c99_process
#print axioms Pemv.c100_truncation
#print axioms Pemv.c100_run
#print axioms Pemv.c100_compositional
#print axioms Pemv.c100_concatenation
#print axioms Pemv.c100_error
#print axioms Pemv.c101_ber
#print axioms Pemv.c101_false
#print axioms Pemv.c101_detected_partial
#print axioms Pemv.c101_accepted
#print axioms Pemv.c101_general
#print axioms Pemv.c101_exact
#print axioms Pemv.c102_ber
#print axioms Pemv.c102_ingenico
#print axioms Pemv.c102_modulo
#print axioms Pemv.c102_without_checks
#print axioms Pemv.c102_not_ascii
#print axioms Pemv.c102_wrong_length_accepted
#print axioms Pemv.c102_run
#print axioms Pemv.c103_round_trip
#print axioms Pemv.c103_built_in
#print axioms Pemv.c103_same_settings
#print axioms Pemv.c103_merged
#print axioms Pemv.c103_written
#print axioms Pemv.c103_colour_names
#print axioms Pemv.c103_types
#print axioms Pemv.c104_option
#print axioms Pemv.c104_method
#print axioms Pemv.c104_condition
#print axioms Pemv.c104_code
#print axioms Pemv.c104_injective
#print axioms Pemv.c104_rule
#print axioms Pemv.c104_shown
#print axioms Pemv.c104_format
#print axioms Pemv.c105_pass
#print axioms Pemv.c105_unique
#print axioms Pemv.c105_display
#print axioms Pemv.c105_flag_types
#print axioms Pemv.c105_exact
#print axioms Pemv.c105_complete
#print axioms Pemv.c105_same
#print axioms Pemv.c105_byte_count
#print axioms Pemv.c105_blind
#print axioms Pemv.c105_blind_number
#print axioms Pemv.c106_text
#print axioms Pemv.c106_never_runs
#print axioms Pemv.c106_rest
#print axioms Pemv.c106_after
#print axioms Pemv.c106_help
#print axioms Pemv.c107_documented
#print axioms Pemv.c107_names
#print axioms Pemv.c107_headings
#print axioms Pemv.c107_quoted
#print axioms Pemv.c107_tags
#print axioms Pemv.c107_tag_shown
#print axioms Pemv.c107_words
#print axioms Pemv.c107_part
#print axioms Pemv.c107_action_codes
#print axioms Pemv.c107_inverse
#print axioms Pemv.c107_repeated
#print axioms Pemv.c107_ansi
#print axioms Pemv.c107_ignored
#print axioms Pemv.c107_placeholder
#print axioms Pemv.c107_single_byte
#print axioms Pemv.c108_refused
#print axioms Pemv.c108_success_iff
#print axioms Pemv.c108_released_partial
#print axioms Pemv.c108_unreleased
#print axioms Pemv.c108_status
#print axioms Pemv.c108_gated
#print axioms Pemv.c108_only_adds
#print axioms Pemv.c108_manifest
#print axioms Pemv.c108_left_behind
#print axioms Pemv.c108_again
#print axioms Pemv.c108_third_line
#print axioms Pemv.c108_says
#print axioms Pemv.c108_this_version
#print axioms Pemv.c108_next_version
#print axioms Pemv.c109_ber
#print axioms Pemv.c109_ingenico
#print axioms Pemv.c109_auto
#print axioms Pemv.c109_enough
#print axioms Pemv.c109_reached
#print axioms Pemv.c109_hidden
#print axioms Pemv.c109_levels
#print axioms Pemv.c110_seen
#print axioms Pemv.c110_columns
#print axioms Pemv.c110_whole
#print axioms Pemv.c110_value
#print axioms Pemv.c110_service_code
#print axioms Pemv.c110_whole_refuted
#print axioms Pemv.c110_template
#print axioms Pemv.c111_alike
#print axioms Pemv.c111_same
#print axioms Pemv.c111_holds
#print axioms Pemv.c111_detected
#print axioms Pemv.c112_colours
#print axioms Pemv.c112_only
#print axioms Pemv.c112_anywhere
#print axioms Pemv.c113_passes
#print axioms Pemv.c113_alarm
#print axioms Pemv.c113_false
#print axioms Pemv.c113_fails_partial
#print axioms Pemv.c114_group
#print axioms Pemv.c114_listed
#print axioms Pemv.c114_sections
#print axioms Pemv.c114_line
#print axioms Pemv.c114_silent
#print axioms Pemv.c114_release
#print axioms Pemv.c114_whole
#print axioms Pemv.c114_notes
#print axioms Pemv.c114_stable
#print axioms Pemv.c114_lines
#print axioms Pemv.c114_version
#print axioms Pemv.c114_false
#print axioms Pemv.c115_values
#print axioms Pemv.c115_values_false
#print axioms Pemv.c115_settings_only
#print axioms Pemv.c115_question
#print axioms Pemv.c115_constructed
#print axioms Pemv.c115_as_primitive
#print axioms Pemv.c115_empty
#print axioms Pemv.c115_amounts_false
#print axioms Pemv.c115_tags
#print axioms Pemv.c116_exact
#print axioms Pemv.c116_clean
#print axioms Pemv.c116_commit
#print axioms Pemv.c116_private
#print axioms Pemv.c116_false
#print axioms Pemv.c116_refuses
#print axioms Pemv.c116_release
#print axioms Pemv.c116_build
#print axioms Pemv.c116_build_elsewhere
#print axioms Pemv.c116_files
#print axioms Pemv.c117_programs
#print axioms Pemv.c117_artifacts
#print axioms Pemv.c117_integrity
#print axioms Pemv.c117_use
#print axioms Pemv.c117_lints
#print axioms Pemv.c117_false
#print axioms Pemv.c117_script
