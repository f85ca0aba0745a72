{
 "claims": [
  {
   "property": "C01",
   "status": "proved",
   "theorems": [
    "Texted.C01_panic_anywhere",
    "Texted.C01_program_anywhere",
    "Texted.C01_panic_iff",
    "Texted.C01_hazard_free",
    "Texted.C01_safe_form",
    "Texted.C01_false_empty_text",
    "Texted.C01_false_stale_mark",
    "Texted.C01_false_negative_count",
    "Texted.C01_program_exact"
   ],
   "note": "The unconditional claim is refuted (C01_false_*). C01_panic_iff: one call inside the buffer; C01_panic_anywhere: one call wherever point is; C01_program_exact, C01_program_anywhere: whole programs, the latter without any assumption; C01_safe_form: a syntactic criterion."
  },
  {
   "property": "C02",
   "status": "proved",
   "theorems": [
    "Texted.C02_brings_back",
    "Texted.C02_leaves_iff",
    "Texted.C02_hazard_free",
    "Texted.C02_false_below",
    "Texted.C02_false_above",
    "Texted.C02_program_exact"
   ],
   "note": "The unconditional claim is refuted (C02_false_*). C02_leaves_iff: one call; C02_program_exact: whole programs, as an equivalence. C02_brings_back: what brings point back."
  },
  {
   "property": "C03",
   "status": "proved",
   "theorems": [
    "Texted.C03_insert_splices",
    "Texted.C03_insert_insert",
    "Texted.C03_insert_prepends",
    "Texted.C03_insert_appends"
   ],
   "note": ""
  },
  {
   "property": "C04",
   "status": "proved",
   "theorems": [
    "Texted.C04_delete_region",
    "Texted.C04_delete_region_symmetric",
    "Texted.C04_delete_region_complement",
    "Texted.C04_min_int_counterexample"
   ],
   "note": ""
  },
  {
   "property": "C05",
   "status": "proved",
   "theorems": [
    "Texted.C05_replace_region",
    "Texted.C05_replace_region_empty"
   ],
   "note": ""
  },
  {
   "property": "C06",
   "status": "proved",
   "theorems": [
    "Texted.C06_search_forward_success",
    "Texted.C06_search_forward_failure"
   ],
   "note": ""
  },
  {
   "property": "C07",
   "status": "proved",
   "theorems": [
    "Texted.C07_search_backward_success",
    "Texted.C07_search_backward_failure"
   ],
   "note": ""
  },
  {
   "property": "C08",
   "status": "proved",
   "theorems": [
    "Texted.C08_search_records_match",
    "Texted.C08_replace_valid_match",
    "Texted.C08_search_then_replace",
    "Texted.C08_literal_match_is_pattern",
    "Texted.C08_replace_without_search"
   ],
   "note": ""
  },
  {
   "property": "C09",
   "status": "proved",
   "theorems": [
    "Texted.C09_match_only_set_by_searches",
    "Texted.C09_match_survives_motion",
    "Texted.C09_replaces_recorded_positions",
    "Texted.C09_false_second_replace",
    "Texted.C09_false_insert_between"
   ],
   "note": "The naive expectation is refuted (C09_false_*); the exact behaviour is proved."
  },
  {
   "property": "C10",
   "status": "proved",
   "theorems": [
    "Texted.C10_goto_char",
    "Texted.C10_goto_char_exact",
    "Texted.C10_goto_char_point"
   ],
   "note": ""
  },
  {
   "property": "C11",
   "status": "proved",
   "theorems": [
    "Texted.C11_goto_line",
    "Texted.C11_line_number"
   ],
   "note": ""
  },
  {
   "property": "C12",
   "status": "proved",
   "theorems": [
    "Texted.C12_beginning_of_line",
    "Texted.C12_after_final_newline",
    "Texted.C12_empty_buffer",
    "Texted.C12_false_after_final_newline",
    "Texted.C12_false_empty_buffer"
   ],
   "note": "The naive expectation is refuted (C12_false_*); all in-range points are covered by C12_beginning_of_line, C12_after_final_newline, C12_empty_buffer."
  },
  {
   "property": "C13",
   "status": "proved",
   "theorems": [
    "Texted.C13_end_of_line",
    "Texted.C13_end_of_line_idempotent"
   ],
   "note": ""
  },
  {
   "property": "C14",
   "status": "proved",
   "theorems": [
    "Texted.C14_forward_char",
    "Texted.C14_backward_char",
    "Texted.C14_inverse",
    "Texted.C14_overflow_counterexample",
    "Texted.C14_backward_char_no_upper_clamp"
   ],
   "note": ""
  },
  {
   "property": "C15",
   "status": "proved",
   "theorems": [
    "Texted.C15_forward_word",
    "Texted.C15_backward_word",
    "Texted.C15_next_word_end_unique"
   ],
   "note": ""
  },
  {
   "property": "C16",
   "status": "proved",
   "theorems": [
    "Texted.C16_kill_word",
    "Texted.C16_kill_word_as_region"
   ],
   "note": ""
  },
  {
   "property": "C17",
   "status": "proved",
   "theorems": [
    "Texted.C17_backward_kill_word_exact",
    "Texted.C17_backward_kill_word_at_end",
    "Texted.C17_false",
    "Texted.C17_false_count_zero"
   ],
   "note": "The documented behaviour is refuted except at the end of the buffer (C17_false*); the exact behaviour is proved for every in-range buffer."
  },
  {
   "property": "C18",
   "status": "proved",
   "theorems": [
    "Texted.C18_mark_line",
    "Texted.C18_mark_line_delete_region",
    "Texted.C18_delete_line_whole_lines"
   ],
   "note": ""
  },
  {
   "property": "C19",
   "status": "proved",
   "theorems": [
    "Texted.C19_kill_line_not_on_newline",
    "Texted.C19_kill_line_exact",
    "Texted.C19_false",
    "Texted.C19_kill_line_n",
    "Texted.C19_kill_line_at_end"
   ],
   "note": "The naive expectation is refuted when point is on a newline (C19_false); the exact behaviour is proved for all in-range points and counts."
  },
  {
   "property": "C20",
   "status": "proved",
   "theorems": [
    "Texted.C20_word_run_unique",
    "Texted.C20_mark_word",
    "Texted.C20_mark_word_off_word",
    "Texted.C20_mark_word_touching"
   ],
   "note": ""
  },
  {
   "property": "C21",
   "status": "proved",
   "theorems": [
    "Texted.C21_slice_unique",
    "Texted.C21_buffer_substring",
    "Texted.C21_buffer_substring_to_end",
    "Texted.C21_whole_buffer",
    "Texted.C21_adjacent_slices",
    "Texted.C21_substring2",
    "Texted.C21_substring3",
    "Texted.C21_never_panics",
    "Texted.C21_min_int_counterexample"
   ],
   "note": ""
  },
  {
   "property": "C22",
   "status": "proved",
   "theorems": [
    "Texted.C22_queries_read_only"
   ],
   "note": ""
  },
  {
   "property": "C23",
   "status": "proved",
   "theorems": [
    "Texted.C23_text_unchanged",
    "Texted.C23_editors_edit",
    "Texted.C23_mark_unchanged"
   ],
   "note": ""
  },
  {
   "property": "C24",
   "status": "proved",
   "theorems": [
    "Texted.C24_failure_changes_nothing"
   ],
   "note": ""
  },
  {
   "property": "C25",
   "status": "proved",
   "theorems": [
    "Texted.C25_sequential",
    "Texted.C25_empty",
    "Texted.C25_first_error",
    "Texted.C25_success",
    "Texted.C25_error_text"
   ],
   "note": ""
  },
  {
   "property": "C26",
   "status": "proved",
   "theorems": [
    "Texted.C26_big_step",
    "Texted.C26_big_step_args",
    "Texted.C26_evaluation_order",
    "Texted.C26_unknown_function_first"
   ],
   "note": ""
  },
  {
   "property": "C27",
   "status": "proved",
   "theorems": [
    "Texted.C27_trace_is_transparent",
    "Texted.C27_trace_events",
    "Texted.C27_trace_length"
   ],
   "note": ""
  },
  {
   "property": "C28",
   "status": "proved",
   "theorems": [
    "Texted.C28_success",
    "Texted.C28_failure",
    "Texted.C28_syntax_error_anywhere",
    "Texted.C28_formats_alike",
    "Texted.C28_unknown_format",
    "Texted.C28_json_and_sexp_agree"
   ],
   "note": ""
  },
  {
   "property": "C29",
   "status": "proved",
   "theorems": [
    "Texted.C29_outcomes",
    "Texted.C29_outcomes_format",
    "Texted.C29_failure_untouched",
    "Texted.C29_other_files",
    "Texted.C29_success",
    "Texted.C29_success_happens",
    "Texted.C29_failed_write_loses"
   ],
   "note": ""
  },
  {
   "property": "C30",
   "status": "proved",
   "theorems": [
    "Texted.C30_one_result_each",
    "Texted.C30_independent",
    "Texted.C30_independent_format",
    "Texted.C30_results",
    "Texted.C30_all_good_edited",
    "Texted.C30_panic_stops_all"
   ],
   "note": ""
  },
  {
   "property": "C31",
   "status": "proved",
   "theorems": [
    "Texted.C31_original_survives",
    "Texted.C31_success",
    "Texted.C31_without_backup",
    "Texted.C31_false_named_twice",
    "Texted.C31_false_collision"
   ],
   "note": ""
  },
  {
   "property": "C32",
   "status": "proved",
   "theorems": [
    "Texted.C32_dry_run_writes_nothing",
    "Texted.C32_dry_run_ignores_script"
   ],
   "note": ""
  },
  {
   "property": "C33",
   "status": "proved",
   "theorems": [
    "Texted.C33_only_output_written",
    "Texted.C33_no_output_no_write",
    "Texted.C33_expressions_write_nothing",
    "Texted.C33_in_place_scope",
    "Texted.C33_result_delivered"
   ],
   "note": ""
  },
  {
   "property": "C34",
   "status": "proved",
   "theorems": [
    "Texted.C34_refused",
    "Texted.C34_reason",
    "Texted.C34_refused_runs",
    "Texted.C34_no_destination",
    "Texted.C34_only_refusals"
   ],
   "note": ""
  },
  {
   "property": "C35",
   "status": "proved",
   "theorems": [
    "Texted.C35_sexp_roundtrip",
    "Texted.C35_line_roundtrip",
    "Texted.C35_false_without_plain_symbols",
    "Texted.C35_false_without_lists"
   ],
   "note": ""
  },
  {
   "property": "C36",
   "status": "proved",
   "theorems": [
    "Texted.C36_shell_roundtrip",
    "Texted.C36_writer_refuses",
    "Texted.C36_false_empty_command"
   ],
   "note": "An empty command is written as an empty line and read back as nothing (C36_false_empty_command); all other shell-expressible programs round-trip and everything else is refused."
  },
  {
   "property": "C37",
   "status": "proved",
   "theorems": [
    "Texted.C37_back",
    "Texted.C37_forth",
    "Texted.C37_symbol_argument",
    "Texted.C37_text",
    "Texted.C37_text_array"
   ],
   "note": "Trees and texts; symbols in argument position come back as strings (C37_symbol_argument). JSON decoding error texts are not modelled."
  },
  {
   "property": "C38",
   "status": "proved",
   "theorems": [
    "Texted.C38_shell_and_sexp_agree",
    "Texted.C38_three_syntaxes"
   ],
   "note": ""
  },
  {
   "property": "C39",
   "status": "proved",
   "theorems": [
    "Texted.C39_semicolon_is_newline",
    "Texted.C39_semicolon_in_literal",
    "Texted.C39_commands_on_one_line",
    "Texted.C39_false_inside_literal"
   ],
   "note": ""
  },
  {
   "property": "C40",
   "status": "proved",
   "theorems": [
    "Texted.C40_literal_exact",
    "Texted.C40_bad_literal",
    "Texted.C40_every_literal_in_script",
    "Texted.C40_literal_with_tail_is_a_symbol",
    "Texted.C40_quote_roundtrip",
    "Texted.C40_literal_in_script"
   ],
   "note": "unquote_iff (Lemmas/Literal) proves strconv.Unquote for double quotes equivalent to the literal grammar of Spec/Literal."
  },
  {
   "property": "C41",
   "status": "proved",
   "theorems": [
    "Texted.C41_tokens_keep_text",
    "Texted.C41_shell_uses_every_token",
    "Texted.C41_false_after_paren",
    "Texted.C41_paren_exact",
    "Texted.C41_false_example"
   ],
   "note": "The naive expectation is refuted for commands that start with '(' (C41_false_*); exact: C41_paren_exact, C41_shell_uses_every_token."
  },
  {
   "property": "C42",
   "status": "proved",
   "theorems": [
    "Texted.C42_parser_is_grammar",
    "Texted.C42_unambiguous",
    "Texted.C42_total",
    "Texted.C42_sexp_total",
    "Texted.C42_instructions_are_lists",
    "Texted.C42_unterminated_string",
    "Texted.C42_balanced",
    "Texted.C42_argument"
   ],
   "note": ""
  },
  {
   "property": "C43",
   "status": "proved",
   "theorems": [
    "Texted.C43_validate",
    "Texted.C43_commandTree",
    "Texted.C43_commands",
    "Texted.C43_parse",
    "Texted.C43_reason",
    "Texted.C43_refused",
    "Texted.C43_text",
    "Texted.C43_unique",
    "Texted.C43_strings"
   ],
   "note": ""
  },
  {
   "property": "C44",
   "status": "proved",
   "theorems": [
    "Texted.C44_equal_iff",
    "Texted.C44_equivalence",
    "Texted.C44_nan"
   ],
   "note": ""
  },
  {
   "property": "C45",
   "status": "proved",
   "theorems": [
    "Texted.C45_stops_at_first_failing_round",
    "Texted.C45_still_running",
    "Texted.C45_once",
    "Texted.C45_report",
    "Texted.C45_refusals",
    "Texted.C45_never_answers",
    "Texted.C45_one_file",
    "Texted.C45_replace_all",
    "Texted.C45_other_files_left_unfinished"
   ],
   "note": ""
  },
  {
   "property": "C46",
   "status": "proved",
   "theorems": [
    "Texted.C46_touches_nothing",
    "Texted.C46_buffer",
    "Texted.C46_buffer_error",
    "Texted.C46_expression",
    "Texted.C46_modes_agree",
    "Texted.C46_refusals"
   ],
   "note": ""
  },
  {
   "property": "C47",
   "status": "proved",
   "theorems": [
    "Texted.C47_upcase_ascii",
    "Texted.C47_downcase_ascii",
    "Texted.C47_case_laws_ascii",
    "Texted.C47_upcase_runes",
    "Texted.C47_capitalize_ascii",
    "Texted.C47_capitalize_exact",
    "Texted.C47_capitalize_false"
   ],
   "note": "Unicode case tables are a parameter. The naive expectation for capitalize is refuted (C47_capitalize_false); exact: C47_capitalize_exact."
  },
  {
   "property": "C48",
   "status": "proved",
   "theorems": [
    "Texted.C48_concat",
    "Texted.C48_concat_rejects",
    "Texted.C48_length_concat",
    "Texted.C48_substring_recovers"
   ],
   "note": ""
  },
  {
   "property": "C49",
   "status": "proved",
   "theorems": [
    "Texted.C49_looking_at",
    "Texted.C49_looking_at_end",
    "Texted.C49_looking_at_literal_fallback",
    "Texted.C49_looking_back_exact",
    "Texted.C49_looking_back_literal_fallback",
    "Texted.C49_looking_back_sound",
    "Texted.C49_looking_back_false"
   ],
   "note": "For every regexp engine meeting the contract. Completeness of looking-back is refuted (C49_looking_back_false); exact: C49_looking_back_exact."
  },
  {
   "property": "C50",
   "status": "proved",
   "theorems": [
    "Texted.C50_return_to_mark",
    "Texted.C50_exchange_involution",
    "Texted.C50_region_bounds"
   ],
   "note": ""
  },
  {
   "property": "C51",
   "status": "proved",
   "theorems": [
    "Texted.C51_delete_char",
    "Texted.C51_delete_backward_char",
    "Texted.C51_forward_then_delete_backward",
    "Texted.C51_negative_duplicates",
    "Texted.C51_negative_panics"
   ],
   "note": ""
  },
  {
   "property": "C52",
   "status": "proved",
   "theorems": [
    "Texted.C52_edits_are_local",
    "Texted.C52_length",
    "Texted.C52_before_point_survives",
    "Texted.C52_after_point_survives",
    "Texted.C52_negative_delete_char"
   ],
   "note": ""
  },
  {
   "property": "C53",
   "status": "proved",
   "theorems": [
    "Texted.C53_long_line_rejected",
    "Texted.C53_long_line_error",
    "Texted.C53_short_lines"
   ],
   "note": ""
  },
  {
   "property": "C54",
   "status": "proved",
   "theorems": [
    "Texted.C54_registry",
    "Texted.C54_lookup",
    "Texted.C54_all",
    "Texted.C54_all_deterministic",
    "Texted.C54_by_category",
    "Texted.C54_by_category_deterministic",
    "Texted.C54_categories",
    "Texted.C54_categories_deterministic",
    "Texted.C54_tool_deterministic",
    "Texted.C54_command_deterministic",
    "Texted.C54_suggestions",
    "Texted.C54_verbose_sections",
    "Texted.C54_verbose_order"
   ],
   "note": ""
  },
  {
   "property": "C55",
   "status": "proved",
   "theorems": [
    "Texted.C55_documented_iff_defined",
    "Texted.C55_cross_references"
   ],
   "note": ""
  },
  {
   "property": "C56",
   "status": "proved",
   "theorems": [
    "Texted.C56_reason",
    "Texted.C56_verdict",
    "Texted.C56_failure_explained",
    "Texted.C56_tracing",
    "Texted.C56_reaches_a_verdict",
    "Texted.C56_any_error_will_do",
    "Texted.C56_parse_errors_cannot_be_expected",
    "Texted.C56_empty_output_is_not_checked",
    "Texted.C56_shown",
    "Texted.C56_mismatch",
    "Texted.C56_output_mismatch",
    "Texted.C56_shown_alike"
   ],
   "note": ""
  },
  {
   "property": "C57",
   "status": "proved",
   "theorems": [
    "Texted.C57_as_if_alone",
    "Texted.C57_like_one_after_the_other",
    "Texted.C57_edit_file_requests",
    "Texted.C57_lost_update",
    "Texted.C57_mixed_text"
   ],
   "note": ""
  },
  {
   "property": "C58",
   "status": "proved",
   "theorems": [
    "Texted.C58_success",
    "Texted.C58_stops_at_first_error",
    "Texted.C58_files",
    "Texted.C58_like_one_script",
    "Texted.C58_one_line_each",
    "Texted.C58_json_blank_line",
    "Texted.C58_quiet_prints_nothing",
    "Texted.C58_quiet_success"
   ],
   "note": ""
  },
  {
   "property": "C59",
   "status": "proved",
   "theorems": [
    "Texted.C59_current_column_exact",
    "Texted.C59_at_end",
    "Texted.C59_off_by_one",
    "Texted.C59_false"
   ],
   "note": "The documented value is refuted (C59_false); the exact value is proved for every in-range point."
  },
  {
   "property": "C60",
   "status": "proved",
   "theorems": [
    "Texted.C60_sizes",
    "Texted.C60_exact"
   ],
   "note": ""
  },
  {
   "property": "C61",
   "status": "proved",
   "theorems": [
    "Texted.C61_single_refused",
    "Texted.C61_many_refused",
    "Texted.C61_empty_refused",
    "Texted.C61_readme"
   ],
   "note": "A negative result: refusal proved for every program. C37_text_array gives the form that works."
  },
  {
   "property": "C62",
   "status": "proved",
   "theorems": [
    "Texted.C62_in_place",
    "Texted.C62_every_moment",
    "Texted.C62_happens",
    "Texted.C62_runs_through"
   ],
   "note": ""
  },
  {
   "property": "C63",
   "status": "proved",
   "theorems": [
    "Texted.C63_misuse_refused",
    "Texted.C63_concat",
    "Texted.C63_documented_use"
   ],
   "note": ""
  },
  {
   "property": "C64",
   "status": "proved",
   "theorems": [
    "Texted.C64_reasons",
    "Texted.C64_directory",
    "Texted.C64_plain",
    "Texted.C64_summary_and_exit",
    "Texted.C64_exit_status",
    "Texted.C64_flags_only_affect_output",
    "Texted.C64_verbose_has_no_effect",
    "Texted.C64_report",
    "Texted.C64_no_files",
    "Texted.C64_bad_pattern",
    "Texted.C64_base_name",
    "Texted.C64_trace"
   ],
   "note": ""
  },
  {
   "property": "C65",
   "status": "proved",
   "theorems": [
    "Texted.C65_effects",
    "Texted.C65_point_and_mark",
    "Texted.C65_set_mark_command_reads_back",
    "Texted.C65_mark_whole_buffer_in_steps",
    "Texted.C65_region_is_whole_buffer",
    "Texted.C65_delete_whole_buffer",
    "Texted.C65_replace_whole_buffer",
    "Texted.C65_false_replace_empty_buffer",
    "Texted.C65_region_to_boundary",
    "Texted.C65_false_mark_follows_text"
   ],
   "note": "Naive expectations refuted by C65_false_replace_empty_buffer and C65_false_mark_follows_text."
  },
  {
   "property": "C66",
   "status": "proved",
   "theorems": [
    "Texted.C66_string_match",
    "Texted.C66_string_match_literal_fallback",
    "Texted.C66_re_search_forward",
    "Texted.C66_re_search_backward",
    "Texted.C66_invalid_pattern",
    "Texted.C66_replace_regexp_in_string",
    "Texted.C66_replace_with_references",
    "Texted.C66_references_total",
    "Texted.C66_dollar_doubled",
    "Texted.C66_replace_nothing",
    "Texted.C66_false_closest_match",
    "Texted.C66_false_line_anchor",
    "Texted.C66_false_literal_replacement"
   ],
   "note": "The engine is a parameter with the contract EngineFor (Spec/Regexp.lean); a real engine meeting the contract (reExt) is the witness. Expansion of $ in replacements is modelled (Model/Expand.lean); the rule for references is stated for ASCII replacements, as Go's table of letters is a parameter. Naive expectations are refuted (C66_false_*)."
  },
  {
   "property": "C67",
   "status": "proved",
   "theorems": [
    "Texted.C67_json_refused",
    "Texted.C67_json_lines",
    "Texted.C67_json_input",
    "Texted.C67_json_unique",
    "Texted.C67_json_output",
    "Texted.C67_invalid_format",
    "Texted.C67_outcome",
    "Texted.C67_sexp_same_program",
    "Texted.C67_sexp_idempotent",
    "Texted.C67_sexp_same_effect",
    "Texted.C67_false_long_line",
    "Texted.C67_false_json_to_sexp",
    "Texted.C67_json_same_program",
    "Texted.C67_json_idempotent",
    "Texted.C67_json_writer_refuses",
    "Texted.C67_shell_same_program",
    "Texted.C67_false_shell_space",
    "Texted.C67_shell_partial_output",
    "Texted.C67_json_partial_output",
    "Texted.C67_output_before_error",
    "Texted.C67_shell_text"
   ],
   "note": "Numbers are printed and read back exactly (no contract needed); strconv.Quote's table of printable runes is a parameter. Naive expectations are refuted by C67_false_*."
  },
  {
   "property": "C68",
   "status": "proved",
   "theorems": [
    "Texted.C68_exact",
    "Texted.C68_second_reading",
    "Texted.C68_accepted",
    "Texted.C68_commas_split",
    "Texted.C68_include_split",
    "Texted.C68_plain",
    "Texted.C68_quoted",
    "Texted.C68_string_literals_refused",
    "Texted.C68_refusal_message",
    "Texted.C68_only_first_line",
    "Texted.C68_false_readme",
    "Texted.C68_empty",
    "Texted.C68_refused",
    "Texted.C68_record_or_refused"
   ],
   "note": "pflag's StringSlice and the encoding/csv reader and writer (default settings) are modelled from their documented source; the position in csv error texts is left out. C68_exact: readAsCSV is equivalent to the declarative records of Spec/CommandLine."
  },
  {
   "property": "C69",
   "status": "proved",
   "theorems": [
    "Texted.C69_number_word",
    "Texted.C69_symbol_word",
    "Texted.C69_unique",
    "Texted.C69_too_great",
    "Texted.C69_exponent_exact",
    "Texted.C69_inf_and_nan_are_numbers",
    "Texted.C69_plain_name"
   ],
   "note": "strconv.ParseFloat is modelled on exact numbers (Model/Number, Model/F64) and proved equivalent to Spec/Number (which texts) and Spec/Float (nearest float64 as a statement about rationals). Exponents with more digits than needed saturate as in Go: digits after the exponent has reached 10000 are ignored; the specification says so, and C69_exponent_exact shows that this changes nothing below 100000."
  },
  {
   "property": "C70",
   "status": "proved",
   "theorems": [
    "Texted.C70_false_extension",
    "Texted.C70_shorthand",
    "Texted.C70_one_format",
    "Texted.C70_unknown",
    "Texted.C70_meaning",
    "Texted.C70_sexp_is_shell"
   ],
   "note": ""
  },
  {
   "property": "C71",
   "status": "proved",
   "theorems": [
    "Texted.C71_unique",
    "Texted.C71_one_meaning",
    "Texted.C71_has_meaning",
    "Texted.C71_meaning",
    "Texted.C71_help",
    "Texted.C71_refused",
    "Texted.C71_any_order",
    "Texted.C71_dashes",
    "Texted.C71_script_as_is",
    "Texted.C71_false_several_scripts",
    "Texted.C71_unknown_option",
    "Texted.C71_everyday",
    "Texted.C71_switches",
    "Texted.C71_values",
    "Texted.C71_no_other_option",
    "Texted.C71_false_synopsis",
    "Texted.C71_parse",
    "Texted.C71_parse_refused",
    "Texted.C71_test",
    "Texted.C71_test_refused",
    "Texted.C71_doc",
    "Texted.C71_readme",
    "Texted.C71_readable_or_refused",
    "Texted.C71_refusal",
    "Texted.C71_refusal_complete",
    "Texted.C71_parse_refusal",
    "Texted.C71_doc_refusal",
    "Texted.C71_unknown_option_text",
    "Texted.C71_bad_switch",
    "Texted.C71_missing_script"
   ],
   "note": "pflag v1.0.6's FlagSet.Parse is modelled from its documented source and proved equivalent to the declarative grammar Spec/CommandLine; cobra's choice of the subcommand, completion and the texts of help and usage are not modelled."
  },
  {
   "property": "C72",
   "status": "proved",
   "theorems": [
    "Texted.C72_reply_json",
    "Texted.C72_request",
    "Texted.C72_request_eval",
    "Texted.C72_names",
    "Texted.C72_unknown_tool",
    "Texted.C72_edit_once",
    "Texted.C72_edit_loop",
    "Texted.C72_edit_refused",
    "Texted.C72_edit_error_mark",
    "Texted.C72_eval_buffer",
    "Texted.C72_eval_expression",
    "Texted.C72_eval_refused",
    "Texted.C72_reads_only",
    "Texted.C72_doc",
    "Texted.C72_reply",
    "Texted.C72_reply_utf8",
    "Texted.C72_wrong_types",
    "Texted.C72_false_reply",
    "Texted.C72_crash"
   ],
   "note": "mcp-go v0.31.0's accessors (GetString, RequireString, GetBool, RequireStringSlice) are modelled from their documented behaviour on decoded JSON; no theorem depends on the wording of its errors. Transport, other messages and the envelope of the answer are not modelled."
  },
  {
   "property": "C73",
   "status": "proved",
   "theorems": [
    "Texted.C73_no_new_bytes",
    "Texted.C73_ascii_call",
    "Texted.C73_ascii",
    "Texted.C73_ascii_utf8",
    "Texted.C73_edit_files",
    "Texted.C73_command_line",
    "Texted.C73_ascii_any_moment",
    "Texted.C73_search_and_replace",
    "Texted.C73_false_failed_write",
    "Texted.C73_script_strings",
    "Texted.C73_ascii_script_strings",
    "Texted.C73_json_strings",
    "Texted.C73_script",
    "Texted.C73_edit_file",
    "Texted.C73_ascii_script",
    "Texted.C73_false_byte_escape",
    "Texted.C73_call",
    "Texted.C73_program",
    "Texted.C73_tidy_program",
    "Texted.C73_classes",
    "Texted.C73_excluded",
    "Texted.C73_false_stale_mark",
    "Texted.C73_false_stale_match",
    "Texted.C73_false_empty_line"
   ],
   "note": "The regular expression engine is a parameter; TextExt says it reports positions between characters of UTF-8 text (proved for the engine of Lemmas/ReExt). The ASCII theorems need nothing of it."
  },
  {
   "property": "C74",
   "status": "proved",
   "theorems": [
    "Texted.C74_command",
    "Texted.C74_tool",
    "Texted.C74_tool_leaves_out",
    "Texted.C74_listed_exists",
    "Texted.C74_list",
    "Texted.C74_list_verbose",
    "Texted.C74_tool_list",
    "Texted.C74_tool_list_verbose",
    "Texted.C74_tool_unknown_category",
    "Texted.C74_heading",
    "Texted.C74_sections",
    "Texted.C74_categories"
   ],
   "note": "strings.Title (headings of the verbose list) is a parameter. C74_tool_leaves_out is a finding: the tool does not tell which parameters are optional."
  },
  {
   "property": "C75",
   "status": "proved",
   "theorems": [
    "Texted.C75_whole",
    "Texted.C75_special",
    "Texted.C75_shortest",
    "Texted.C75_json",
    "Texted.C75_unique",
    "Texted.C75_last_digit",
    "Texted.C75_examples"
   ],
   "note": "Which float64 a text is read as is C69. A number that is exactly 2^63 is left open: whether it is printed with all digits depends on what int(x) gives outside the range of int, which Go leaves to the implementation."
  },
  {
   "property": "C76",
   "status": "proved",
   "theorems": [
    "Texted.C76_exact",
    "Texted.C76_unknown_exact",
    "Texted.C76_root_exact",
    "Texted.C76_edit",
    "Texted.C76_others",
    "Texted.C76_options_before",
    "Texted.C76_unknown_refused",
    "Texted.C76_only_edit_writes",
    "Texted.C76_false_switch_before",
    "Texted.C76_help"
   ],
   "note": "cobra's choice of the subcommand modelled from cobra v1.9.1 (Model/Main). C76_exact, C76_unknown_exact and C76_root_exact are the three cases as equivalences; C76_false_switch_before refutes the naive expectation."
  },
  {
   "property": "C77",
   "status": "proved",
   "theorems": [
    "Texted.C77_file_fails",
    "Texted.C77_exact",
    "Texted.C77_unambiguous",
    "Texted.C77_early_end",
    "Texted.C77_ordinary",
    "Texted.C77_input_lang",
    "Texted.C77_line_ends",
    "Texted.C77_file_passes"
   ],
   "note": "encoding/xml (Go 1.24, strict mode) modelled in Model/Xml from its source as known, token by token; grammar in Spec/Xml. C77_exact is an equivalence, so also what is refused is settled. Parameters: the tables of non-ASCII name characters, and whether the contents of a <?xml ...?> declaration are acceptable. The repository's 67 test files are read by the model in Vectors.lean."
  },
  {
   "property": "C78",
   "status": "proved",
   "theorems": [
    "Texted.C78_verbose",
    "Texted.C78_quiet",
    "Texted.C78_quiet_is_silent",
    "Texted.C78_in_place",
    "Texted.C78_dry_run_in_place",
    "Texted.C78_result",
    "Texted.C78_dry_run",
    "Texted.C78_error",
    "Texted.C78_quiet_hides_reasons",
    "Texted.C78_verbose_mixes"
   ],
   "note": "The same process model as C62 (Model/EditCmd, every system call may fail, every print may be cut short). C78_verbose and C78_quiet by a simulation that ignores prints (Lemmas/Prints). In place: distinct file names and no backup name among them, as for C62. With -e the flag --quiet does change the run: see C58. C78_error: the text of the error of a failing run tells which file or step failed."
  },
  {
   "property": "C79",
   "status": "proved",
   "theorems": [
    "Texted.C79_replace",
    "Texted.C79_insert_after",
    "Texted.C79_insert",
    "Texted.C79_insert_line",
    "Texted.C79_delete_line",
    "Texted.C79_command_line",
    "Texted.C79_any_moment",
    "Texted.C79_happens",
    "Texted.C79_to_stdout",
    "Texted.C79_search_and_replace",
    "Texted.C79_backup",
    "Texted.C79_dry_run",
    "Texted.C79_words",
    "Texted.C79_script"
   ],
   "note": "Composed from the other models (command line, parser, evaluator, builtins, process with failing system calls). OLD and NEW in C79_search_and_replace are characters that need no escape; C79_replace is the general form (any string literal). Script below 65536 bytes (C53)."
  },
  {
   "property": "C80",
   "status": "proved",
   "theorems": [
    "Texted.C80_misuse",
    "Texted.C80_documented_use",
    "Texted.C80_concat",
    "Texted.C80_every_error",
    "Texted.C80_script_error",
    "Texted.C80_json_script_error"
   ],
   "note": "Spec/Errors lists the messages; C80_every_error is an induction over the instruction. What regexp.Compile says of a bad expression is a parameter of the model."
  },
  {
   "property": "C81",
   "status": "proved",
   "theorems": [
    "Texted.C81_replace_everything",
    "Texted.C81_insert_above",
    "Texted.C81_replace_from_to",
    "Texted.C81_delete_from_line_to",
    "Texted.C81_delete_lines",
    "Texted.C81_regexp_replace",
    "Texted.C81_replace_word",
    "Texted.C81_replace_whole_word",
    "Texted.C81_replace_word_at",
    "Texted.C81_false_word_at_end",
    "Texted.C81_false_spec_example",
    "Texted.C81_false_comments",
    "Texted.C81_false_single_quotes",
    "Texted.C81_false_json_command"
   ],
   "note": "Texts below 2^53 bytes where lines are counted or forward-char is used. Finding: the README's word recipe replaces the whole text if the word is its end (mark-word does nothing there and the mark is at 1)."
  },
  {
   "property": "C82",
   "status": "proved",
   "theorems": [
    "Texted.C82_integer_part",
    "Texted.C82_has_integer_part",
    "Texted.C82_call",
    "Texted.C82_script"
   ],
   "note": "For numbers whose integer part does not fit in 64 bits Go leaves the conversion to the machine; it is a parameter of the model (`Ext`)."
  },
  {
   "property": "C83",
   "status": "proved",
   "theorems": [
    "Texted.C83_bracket_never_runs",
    "Texted.C83_json_never_runs",
    "Texted.C83_false_json",
    "Texted.C83_rehearsal",
    "Texted.C83_replace_line",
    "Texted.C83_delete_between",
    "Texted.C83_search_backward_first",
    "Texted.C83_malformed_regexp",
    "Texted.C83_position",
    "Texted.C83_strings",
    "Texted.C83_length",
    "Texted.C83_false_position",
    "Texted.C83_false_value_extraction",
    "Texted.C83_false_position_finding",
    "Texted.C83_false_regexp_literal",
    "Texted.C83_categories"
   ],
   "note": "Findings: no JSON script ever succeeds with the tools although the descriptions offer the syntax; several documented examples fail (match-beginning, line-number-at-pos with an argument, single backslashes in strings); `search-forward …; point` is the position behind the match."
  },
  {
   "property": "C84",
   "status": "proved",
   "theorems": [
    "Texted.C84_only_declared",
    "Texted.C84_required",
    "Texted.C84_optional",
    "Texted.C84_edit_follows",
    "Texted.C84_eval_follows",
    "Texted.C84_doc_follows",
    "Texted.C84_edit_values",
    "Texted.C84_doc_errors",
    "Texted.C84_false_follows",
    "Texted.C84_false_types"
   ],
   "note": "How mcp-go turns the options into the JSON schema is modelled from its documentation."
  },
  {
   "property": "C85",
   "status": "proved",
   "theorems": [
    "Texted.C85_functions",
    "Texted.C85_not_implemented",
    "Texted.C85_only_existing",
    "Texted.C85_parameters",
    "Texted.C85_false_count",
    "Texted.C85_false_length",
    "Texted.C85_false_mark_word",
    "Texted.C85_false_examples"
   ],
   "note": "The reference gives no types; they are taken from the parameter names (Spec/Reference)."
  },
  {
   "property": "C86",
   "status": "proved",
   "theorems": [
    "Texted.C86_one_file",
    "Texted.C86_one_by_one",
    "Texted.C86_independent",
    "Texted.C86_same_file",
    "Texted.C86_dry_run",
    "Texted.C86_only_output",
    "Texted.C86_in_place_scope",
    "Texted.C86_in_place",
    "Texted.C86_original_survives",
    "Texted.C86_false_backup_link",
    "Texted.C86_output",
    "Texted.C86_concurrent"
   ],
   "note": "Where a name leads is any function, fixed during the run (no program of the repository makes links). C86_one_file and C86_one_by_one are exact (both directions) for every naming. C86_in_place and C86_original_survives assume that the files and backups are different files; C86_false_backup_link shows that this is needed. The condition does not involve the script file."
  },
  {
   "property": "C87",
   "status": "proved",
   "theorems": [
    "Texted.C87_edit_file",
    "Texted.C87_edit_files",
    "Texted.C87_in_place",
    "Texted.C87_original_survives",
    "Texted.C87_dry_run",
    "Texted.C87_no_output",
    "Texted.C87_from_a_moment",
    "Texted.C87_failing_script",
    "Texted.C87_false_lost_update",
    "Texted.C87_false_stale_backup"
   ],
   "note": "The others are any relation on worlds; they may act between any two steps of the program, also inside a write. os.ReadFile is one step. Links are not combined with this (C86 is separate). The two negative results are facts about the code, proved by exhibiting runs."
  },
  {
   "property": "C88",
   "status": "proved",
   "theorems": [
    "Texted.C88_nothing_changes",
    "Texted.C88_len",
    "Texted.C88_get",
    "Texted.C88_first",
    "Texted.C88_rest",
    "Texted.C88_append",
    "Texted.C88_new_list",
    "Texted.C88_append_independent",
    "Texted.C88_false_rest_copies",
    "Texted.C88_false_new_list_copies",
    "Texted.C88_go_append",
    "Texted.C88_false_append_twice",
    "Texted.C88_equal"
   ],
   "note": "Memory is modelled for the list functions and Equal; the rest of the model uses trees. Values in cycles (made by assignments) stand for no tree and are outside C88_equal."
  },
  {
   "property": "C89",
   "status": "proved",
   "theorems": [
    "Texted.C89_runs",
    "Texted.C89_redefinition",
    "Texted.C89_observer",
    "Texted.C89_no_state",
    "Texted.C89_only_names",
    "Texted.C89_missing",
    "Texted.C89_invariant",
    "Texted.C89_read_only"
   ],
   "note": "The functions and callbacks are arbitrary total functions; functions that return the nil interface or do not end are not modelled."
  },
  {
   "property": "C90",
   "status": "proved",
   "theorems": [
    "Texted.C90_exclusion",
    "Texted.C90_linearizable",
    "Texted.C90_registrations",
    "Texted.C90_registry",
    "Texted.C90_count",
    "Texted.C90_no_deadlock",
    "Texted.C90_terminates",
    "Texted.C90_all_return",
    "Texted.C90_writer_comes_in"
   ],
   "note": "Assumed: sync.RWMutex (a writer announces itself, then waits for the readers that are in) and that ranging over an unchanged map visits each entry once. Not modelled: callers that change the slices inside a FunctionDoc they got (they share memory with the registry)."
  },
  {
   "property": "C91",
   "status": "proved",
   "theorems": [
    "Texted.C91_runs_are_runs",
    "Texted.C91_modes_kept",
    "Texted.C91_new_files",
    "Texted.C91_write_protected",
    "Texted.C91_edit_file",
    "Texted.C91_edit_files",
    "Texted.C91_in_place",
    "Texted.C91_no_backup_no_edit",
    "Texted.C91_single_file",
    "Texted.C91_permitted",
    "Texted.C91_backup",
    "Texted.C91_false_private_backup",
    "Texted.C91_digits"
   ],
   "note": "The nine permission bits; no ACLs, no set-user-id bits, no directory permissions (creating a file may fail at any time)."
  },
  {
   "property": "C92",
   "status": "proved",
   "theorems": [
    "Texted.C92_left",
    "Texted.C92_left_happens",
    "Texted.C92_recover",
    "Texted.C92_recoverable",
    "Texted.C92_false_recovery",
    "Texted.C92_false_procedure",
    "Texted.C92_scope",
    "Texted.C92_trail",
    "Texted.C92_rerun",
    "Texted.C92_again",
    "Texted.C92_twice",
    "Texted.C92_false_backup",
    "Texted.C92_repaired",
    "Texted.C92_replace_again",
    "Texted.C92_replace_recoverable"
   ],
   "note": "C92_left/C92_left_happens: exactly the three states. C92_recover, C92_recoverable, C92_repaired: telling the original. C92_false_recovery/C92_false_procedure: impossible for appending scripts. C92_scope, C92_trail, C92_rerun: histories. C92_again, C92_twice, C92_replace_again, C92_replace_recoverable: when it is safe. C92_false_backup: running again destroys the original."
  },
  {
   "property": "C93",
   "status": "proved",
   "theorems": [
    "Texted.C93_reached",
    "Texted.C93_script",
    "Texted.C93_runs",
    "Texted.C93_table",
    "Texted.C93_more",
    "Texted.C93_meaning",
    "Texted.C93_insert",
    "Texted.C93_isLetter",
    "Texted.C93_line_commands"
   ],
   "note": "C93_table: refinement of all fifty functions with a bound on loop rounds; C93_meaning, C93_more: never stuck, independent of the bound; C93_line_commands: the number of rounds of the line commands is not bounded by the text; C93_insert, C93_isLetter: the helpers; C93_reached: invariant of all histories of calls; C93_script, C93_runs: whole scripts."
  },
  {
   "property": "C94",
   "status": "proved",
   "theorems": [
    "Texted.C94_one_end",
    "Texted.C94_parse",
    "Texted.C94_grammar",
    "Texted.C94_lexer",
    "Texted.C94_json",
    "Texted.C94_json_values",
    "Texted.C94_format",
    "Texted.C94_expression",
    "Texted.C94_eval",
    "Texted.C94_errors",
    "Texted.C94_equal",
    "Texted.C94_string",
    "Texted.C94_writers",
    "Texted.C94_methods",
    "Texted.C94_script",
    "Texted.C94_roundtrip"
   ],
   "note": "C94_one_end: a call ends in one way only, whatever the bounds; C94_parse, C94_lexer, C94_json, C94_json_values, C94_format: the parsers; C94_grammar: against the grammar of scripts; C94_expression: against the rules of evaluation; C94_eval, C94_errors, C94_equal, C94_string, C94_writers, C94_methods: the rest; C94_roundtrip, C94_script: Go text to Go text."
  },
  {
   "property": "C95",
   "status": "proved",
   "theorems": [
    "Texted.C95_does",
    "Texted.C95_execute",
    "Texted.C95_files",
    "Texted.C95_edit",
    "Texted.C95_parse",
    "Texted.C95_parse_prints",
    "Texted.C95_writers",
    "Texted.C95_eval_tool",
    "Texted.C95_edit_tool",
    "Texted.C95_operations",
    "Texted.C95_script",
    "Texted.C95_edit_file_outcomes",
    "Texted.C95_edit_file_moments",
    "Texted.C95_edit_files_outcomes",
    "Texted.C95_original_survives",
    "Texted.C95_scope",
    "Texted.C95_refused",
    "Texted.C95_delivered",
    "Texted.C95_in_place",
    "Texted.C95_eval_touches_nothing"
   ],
   "note": "C95_does: what 'does what the program does' means for moments and endings; C95_execute, C95_files, C95_edit, C95_parse, C95_parse_prints, C95_writers, C95_eval_tool, C95_edit_tool: function by function; C95_operations, C95_script: together with the Go texts of C94; C95_edit_file_outcomes, C95_edit_file_moments, C95_edit_files_outcomes, C95_original_survives, C95_scope, C95_refused, C95_delivered, C95_in_place, C95_eval_touches_nothing: C29 to C34 and C46 of the Go text."
  },
  {
   "property": "C96",
   "status": "proved",
   "theorems": [
    "Texted.C96_formatValue",
    "Texted.C96_formatInstruction",
    "Texted.C96_callback",
    "Texted.C96_parseTestCase",
    "Texted.C96_parseTestFile",
    "Texted.C96_runTest",
    "Texted.C96_runTestWithTrace",
    "Texted.C96_runTestFile",
    "Texted.C96_runTestFileWithTrace",
    "Texted.C96_printTestResult",
    "Texted.C96_runTests",
    "Texted.C96_verdict",
    "Texted.C96_reaches_a_verdict",
    "Texted.C96_tracing",
    "Texted.C96_exit_status",
    "Texted.C96_flags",
    "Texted.C96_no_files"
   ],
   "note": "C96_formatValue, C96_formatInstruction, C96_callback, C96_parseTestCase, C96_parseTestFile, C96_runTest, C96_runTestWithTrace, C96_runTestFile, C96_runTestFileWithTrace, C96_printTestResult, C96_runTests: function by function, as equivalences (so the outcome exists and is unique); C96_verdict, C96_reaches_a_verdict, C96_tracing, C96_exit_status, C96_flags, C96_no_files: C56 and C64 of the Go text."
  },
  {
   "property": "C97",
   "status": "proved",
   "theorems": [
    "Texted.C97_register",
    "Texted.C97_getDocumentation",
    "Texted.C97_getAllDocumentation",
    "Texted.C97_getDocumentationByCategory",
    "Texted.C97_getCategories",
    "Texted.C97_count",
    "Texted.C97_formatFunctionDoc",
    "Texted.C97_showFunctionDoc",
    "Texted.C97_tool",
    "Texted.C97_tool_answers",
    "Texted.C97_tool_deterministic",
    "Texted.C97_command",
    "Texted.C97_command_returns"
   ],
   "note": "C97_register, C97_getDocumentation, C97_getAllDocumentation, C97_getDocumentationByCategory, C97_getCategories, C97_count: the registry, in terms of what was registered; C97_formatFunctionDoc, C97_showFunctionDoc: one function; C97_tool, C97_command: exactly the possible answers of the model; C97_tool_answers, C97_command_returns: for every order; C97_tool_deterministic: one answer without verbose."
  },
  {
   "property": "C98",
   "status": "proved",
   "theorems": [
    "Texted.C98_edit",
    "Texted.C98_parse",
    "Texted.C98_test",
    "Texted.C98_doc",
    "Texted.C98_pick",
    "Texted.C98_program",
    "Texted.C98_program_exact",
    "Texted.C98_files_untouched",
    "Texted.C98_refused",
    "Texted.C98_everyday",
    "Texted.C98_prefix",
    "Texted.C98_tools",
    "Texted.C98_server"
   ],
   "note": "C98_edit, C98_parse, C98_test, C98_doc: the commands; C98_pick: which command runs; C98_program, C98_program_exact: the whole program (actions, moments, exit status); C98_files_untouched, C98_refused, C98_everyday: consequences; C98_prefix, C98_tools, C98_server: the server. Help texts, and what cobra prints on standard error, are not modelled."
  },
  {
   "property": "C99",
   "status": "proved",
   "theorems": [
    "Texted.C99_safe",
    "Texted.C99_exact",
    "Texted.C99_program",
    "Texted.C99_execute",
    "Texted.C99_edit_file",
    "Texted.C99_edit",
    "Texted.C99_in_place",
    "Texted.C99_delivered",
    "Texted.C99_program_edit",
    "Texted.C99_real",
    "Texted.C99_edit_expressions",
    "Texted.C99_program_expressions",
    "Texted.C99_edit_file_format",
    "Texted.C99_edit_files",
    "Texted.C99_edit_files_format",
    "Texted.C99_eval_tool",
    "Texted.C99_edit_tool",
    "Texted.C99_parse",
    "Texted.C99_program_exact",
    "Texted.C99_program_parse"
   ],
   "note": "C99_safe: whatever the linked program does, the model does; C99_exact: and conversely as long as it stays in memory; C99_execute, C99_edit_file, C99_edit_file_format, C99_edit_files, C99_edit_files_format, C99_edit, C99_edit_expressions, C99_parse, C99_eval_tool, C99_edit_tool: calls that stay; C99_in_place, C99_delivered: consequences; C99_program: texted WORDS; C99_program_exact: exactly, if the call stays; C99_program_edit, C99_program_expressions, C99_program_parse: exactly, for texted edit (with a script, with -e) and texted parse; C99_real: such a program exists. `parser.ParseJSONReader` (texted parse with JSON input) keeps the meaning of the model, s-expressions are printed by one operation (C94 is about its Go text), a JSON script that is no array is not followed further."
  }
 ]
}