{
 "C20": {
  "status": "partial",
  "note": "The property is false of the code (c20_false: a long-form zero length is rejected at the end of a block only); c20_length_form_partial proves it for every block not ending so, c20_rejects shows that the exception is exact."
 },
 "C27": {
  "status": "partial",
  "note": "The property is false of the code for odd digit counts (c27_false, and c27_odd for every odd field); c27_even_partial proves it for every even digit count."
 },
 "C31": {
  "status": "partial",
  "note": "The property is false of the code (c31_false: 'zz' is an empty BER-TLV block); c31_rejected_iff and c31_empty_block_iff characterise it exactly, c31_rejects_partial proves it for texts with at least two hex digits."
 },
 "C43": {
  "status": "partial",
  "note": "The property is false of the code for unlisted CV methods and conditions, whose code is lost (c43_unlisted_fails, c43_unlisted_results_fails); c43_cv_rule_partial and c43_cvm_results_partial prove it for all listed codes, c43_cv_rule_exact_partial and c43_cvm_results_exact_partial that it holds for no others."
 },
 "C36": {
  "status": "partial",
  "note": "The property is false of the code for 9F35 and 9F39 (c36_false, and c36_fails for every unlisted code of either); c36_tolerated_partial proves it for the other tags with an open code table."
 },
 "C55": {
  "status": "partial",
  "note": "The property is false of the code (c55_false: a text of at most 3100 characters; c55_panics and c55_restarts say what happens for every deep block, and c55_exact that with overflow checks the whole document is shown if and only if no line has to be indented by more than 255); c55_indentation_partial proves it for blocks nested at most 254 levels deep."
 },
 "C87": {
  "status": "partial",
  "note": "The property is false of the code for --colour (c87_refuted, and c87_colour_needs_value for every command line); c87_missing_value_partial proves it for all other options with a declared missing value."
 },
 "C93": {
  "status": "partial",
  "note": "The property is false of the code inside templates (c93_refuted; c93_given_away shows that every difference inside a template is visible). c93_ber_partial, c93_ingenico_partial and c93_auto_partial prove it for masked values outside templates, c93_template that only the size and the bytes of a template give the contents away. It is also false when the format is detected and records are followed by something that is not a record (c93_detection): the text is then read as BER-TLV, digits of lengths included. c93_auto_partial covers complete records, and BER-TLV in all texts that are not made of records."
 },
 "C94": {
  "status": "partial",
  "note": "The property is false of the code for errors in the data (c94_refuted; c94_data_errors for every such run). c94_status_partial and c94_help prove the rest, c94_meaning what can be concluded from a status."
 },
 "C101": {
  "status": "partial",
  "note": "The property is false of the code for Ingenico records (c101_false). c101_ber proves it for BER-TLV without colons; c101_detected_partial for records written like BER-TLV objects that are cut between their second and their last digit; c101_exact says exactly which cuts of such records are not noticed, c101_general exactly which cuts of any records."
 },
 "C108": {
  "status": "partial",
  "note": "The property is false of the script if the commit fails (c108_unreleased, for every such run). c108_released_partial proves it for runs in which the commit is made; c108_success_iff, c108_status and c108_gated say exactly when success is announced and what the status means."
 },
 "C113": {
  "status": "partial",
  "note": "The property is false of the check (c113_false: public and indented statements, line ends of Windows, unreadable files); c113_fails_partial proves it without these, c113_passes says exactly when it passes, c113_alarm that there are no false alarms."
 }
}