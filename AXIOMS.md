# Axioms per theorem (generated by tools/axioms.py)

## Classical.choice, Quot.sound, propext (457)

C01_panic_anywhere, C01_program_anywhere, C01_panic_iff, C01_hazard_free, C01_safe_form, C01_program_exact, C02_brings_back, C02_leaves_iff, C02_hazard_free, C02_program_exact, C03_insert_insert, C04_delete_region, C04_delete_region_symmetric, C04_delete_region_complement, C05_replace_region, C10_goto_char_point, C11_goto_line, C12_beginning_of_line, C12_after_final_newline, C13_end_of_line, C13_end_of_line_idempotent, C15_forward_word, C15_backward_word, C16_kill_word, C16_kill_word_as_region, C17_backward_kill_word_exact, C17_backward_kill_word_at_end, C18_mark_line, C18_mark_line_delete_region, C18_delete_line_whole_lines, C19_kill_line_not_on_newline, C19_kill_line_exact, C19_kill_line_n, C20_mark_word, C20_mark_word_off_word, C20_mark_word_touching, C21_buffer_substring, C21_buffer_substring_to_end, C21_whole_buffer, C21_substring2, C21_substring3, C28_syntax_error_anywhere, C28_json_and_sexp_agree, C30_panic_stops_all, C31_original_survives, C31_success, C31_without_backup, C32_dry_run_writes_nothing, C33_only_output_written, C33_no_output_no_write, C33_expressions_write_nothing, C33_in_place_scope, C33_result_delivered, C34_no_destination, C34_only_refusals, C35_sexp_roundtrip, C35_line_roundtrip, C36_shell_roundtrip, C37_text, C37_text_array, C38_shell_and_sexp_agree, C38_three_syntaxes, C39_semicolon_is_newline, C39_semicolon_in_literal, C39_commands_on_one_line, C40_literal_exact, C40_bad_literal, C40_every_literal_in_script, C40_quote_roundtrip, C40_literal_in_script, C41_shell_uses_every_token, C41_false_after_paren, C41_paren_exact, C42_parser_is_grammar, C42_unambiguous, C42_total, C42_sexp_total, C42_instructions_are_lists, C42_unterminated_string, C42_balanced, C42_argument, C43_reason, C43_refused, C43_text, C43_unique, C43_strings, C44_equal_iff, C44_equivalence, C45_stops_at_first_failing_round, C45_still_running, C45_once, C45_replace_all, C47_upcase_ascii, C47_downcase_ascii, C47_case_laws_ascii, C47_upcase_runes, C47_capitalize_ascii, C47_capitalize_exact, C47_capitalize_false, C48_substring_recovers, C49_looking_back_exact, C50_region_bounds, C52_edits_are_local, C52_length, C52_before_point_survives, C52_after_point_survives, C53_long_line_rejected, C53_long_line_error, C54_registry, C54_lookup, C54_all, C54_all_deterministic, C54_by_category, C54_by_category_deterministic, C54_categories, C54_categories_deterministic, C54_tool_deterministic, C54_command_deterministic, C54_suggestions, C54_verbose_sections, C55_documented_iff_defined, C56_reason, C56_reaches_a_verdict, C56_shown, C56_mismatch, C57_like_one_after_the_other, C57_edit_file_requests, C58_success, C58_stops_at_first_error, C58_files, C58_one_line_each, C58_quiet_prints_nothing, C58_quiet_success, C60_sizes, C60_exact, C61_single_refused, C61_many_refused, C62_in_place, C62_every_moment, C62_happens, C62_runs_through, C64_reasons, C64_directory, C64_plain, C64_summary_and_exit, C64_exit_status, C64_report, C64_trace, C65_point_and_mark, C65_set_mark_command_reads_back, C65_region_is_whole_buffer, C65_delete_whole_buffer, C65_replace_whole_buffer, C65_region_to_boundary, C66_re_search_forward, C66_re_search_backward, C66_replace_with_references, C66_references_total, C67_json_refused, C67_json_lines, C67_json_input, C67_json_unique, C67_json_output, C67_outcome, C67_sexp_same_program, C67_sexp_idempotent, C67_sexp_same_effect, C67_false_long_line, C67_json_same_program, C67_json_idempotent, C67_shell_same_program, C67_shell_text, C69_number_word, C69_symbol_word, C69_unique, C69_too_great, C69_plain_name, C71_unique, C71_meaning, C71_help, C71_refused, C71_any_order, C71_script_as_is, C71_false_several_scripts, C71_unknown_option, C71_everyday, C71_switches, C71_values, C71_false_synopsis, C71_parse, C71_parse_refused, C71_test, C71_test_refused, C71_doc, C71_readme, C71_readable_or_refused, C71_refusal, C71_refusal_complete, C71_parse_refusal, C71_doc_refusal, C71_unknown_option_text, C71_bad_switch, C71_missing_script, C72_reply_json, C72_request, C72_request_eval, C72_edit_once, C72_edit_loop, C72_edit_error_mark, C72_doc, C72_reply, C72_reply_utf8, C72_false_reply, C73_ascii_call, C73_ascii, C73_edit_files, C73_command_line, C73_ascii_any_moment, C73_search_and_replace, C73_false_failed_write, C73_script_strings, C73_ascii_script_strings, C73_json_strings, C73_script, C73_edit_file, C73_ascii_script, C73_false_byte_escape, C73_call, C73_program, C73_tidy_program, C73_excluded, C73_false_stale_mark, C73_false_stale_match, C73_false_empty_line, C74_command, C74_tool, C74_tool_leaves_out, C74_listed_exists, C74_list, C74_list_verbose, C74_tool_list, C74_tool_list_verbose, C74_tool_unknown_category, C74_heading, C74_sections, C75_whole, C75_shortest, C75_json, C75_unique, C75_last_digit, C76_exact, C76_unknown_exact, C76_root_exact, C76_edit, C76_others, C76_options_before, C76_unknown_refused, C76_only_edit_writes, C76_false_switch_before, C76_help, C77_file_fails, C77_exact, C77_unambiguous, C77_early_end, C77_ordinary, C77_input_lang, C77_line_ends, C77_file_passes, C78_in_place, C78_dry_run_in_place, C78_result, C78_dry_run, C78_error, C79_replace, C79_insert_after, C79_insert, C79_insert_line, C79_delete_line, C79_command_line, C79_any_moment, C79_happens, C79_to_stdout, C79_search_and_replace, C79_backup, C79_dry_run, C79_words, C79_script, C80_misuse, C80_every_error, C80_script_error, C80_json_script_error, C81_replace_everything, C81_insert_above, C81_replace_from_to, C81_delete_from_line_to, C81_delete_lines, C81_regexp_replace, C81_replace_word, C81_replace_whole_word, C81_replace_word_at, C82_integer_part, C82_has_integer_part, C82_call, C82_script, C83_bracket_never_runs, C83_json_never_runs, C83_replace_line, C83_delete_between, C83_search_backward_first, C83_malformed_regexp, C83_position, C83_strings, C83_length, C83_categories, C84_edit_follows, C84_doc_errors, C84_false_types, C85_functions, C85_not_implemented, C85_only_existing, C86_dry_run, C86_only_output, C86_in_place_scope, C86_in_place, C86_original_survives, C86_false_backup_link, C86_output, C86_concurrent, C87_in_place, C87_original_survives, C87_dry_run, C87_no_output, C87_false_stale_backup, C88_rest, C88_append_independent, C88_false_rest_copies, C88_false_new_list_copies, C88_false_append_twice, C88_equal, C90_exclusion, C90_linearizable, C90_registrations, C90_registry, C90_count, C90_no_deadlock, C90_terminates, C90_all_return, C91_in_place, C91_no_backup_no_edit, C91_single_file, C91_permitted, C91_backup, C91_false_private_backup, C92_left, C92_left_happens, C92_recover, C92_recoverable, C92_false_recovery, C92_false_procedure, C92_scope, C92_trail, C92_rerun, C92_again, C92_twice, C92_false_backup, C92_repaired, C92_replace_again, C92_replace_recoverable, C93_reached, C93_script, C93_runs, C93_table, C93_more, C93_meaning, C93_insert, C93_line_commands, C94_parse, C94_grammar, C94_lexer, C94_json, C94_json_values, C94_format, C94_expression, C94_eval, C94_errors, C94_equal, C94_string, C94_writers, C94_script, C94_roundtrip, C95_edit, C95_edit_tool, C95_operations, C95_script, C95_original_survives, C95_scope, C95_refused, C95_delivered, C95_in_place, C96_formatValue, C96_formatInstruction, C96_callback, C96_parseTestCase, C96_runTest, C96_runTestWithTrace, C96_runTestFile, C96_runTestFileWithTrace, C96_runTests, C96_verdict, C96_reaches_a_verdict, C96_tracing, C96_exit_status, C96_flags, C96_no_files, C97_getDocumentation, C97_getAllDocumentation, C97_getDocumentationByCategory, C97_getCategories, C97_count, C97_formatFunctionDoc, C97_showFunctionDoc, C97_tool, C97_tool_answers, C97_tool_deterministic, C97_command, C97_command_returns, C98_edit, C98_parse, C98_test, C98_doc, C98_program, C98_program_exact, C98_files_untouched, C98_refused, C98_everyday, C98_prefix, C98_server, C99_safe, C99_exact, C99_program, C99_execute, C99_edit_file, C99_edit, C99_in_place, C99_delivered, C99_program_edit, C99_real, C99_edit_expressions, C99_program_expressions, C99_edit_file_format, C99_edit_files, C99_edit_files_format, C99_eval_tool, C99_edit_tool, C99_parse, C99_program_exact, C99_program_parse

## Quot.sound, propext (193)

C03_insert_splices, C03_insert_appends, C05_replace_region_empty, C06_search_forward_success, C06_search_forward_failure, C07_search_backward_success, C07_search_backward_failure, C08_search_records_match, C08_replace_valid_match, C08_search_then_replace, C09_match_survives_motion, C09_replaces_recorded_positions, C10_goto_char, C10_goto_char_exact, C11_line_number, C12_empty_buffer, C12_false_after_final_newline, C14_forward_char, C14_backward_char, C14_inverse, C14_overflow_counterexample, C15_next_word_end_unique, C19_kill_line_at_end, C20_word_run_unique, C21_slice_unique, C21_adjacent_slices, C21_never_panics, C23_editors_edit, C25_sequential, C25_first_error, C25_success, C26_big_step, C26_big_step_args, C26_evaluation_order, C26_unknown_function_first, C27_trace_events, C27_trace_length, C28_success, C28_failure, C29_outcomes, C29_outcomes_format, C29_failure_untouched, C29_other_files, C29_success, C29_failed_write_loses, C30_one_result_each, C30_independent, C30_independent_format, C30_results, C30_all_good_edited, C32_dry_run_ignores_script, C34_refused, C34_refused_runs, C36_writer_refuses, C37_back, C37_forth, C37_symbol_argument, C41_tokens_keep_text, C43_validate, C43_commandTree, C43_commands, C43_parse, C45_report, C45_never_answers, C45_one_file, C46_touches_nothing, C46_buffer_error, C46_expression, C46_modes_agree, C46_refusals, C48_concat_rejects, C49_looking_at, C49_looking_at_end, C49_looking_at_literal_fallback, C49_looking_back_literal_fallback, C49_looking_back_sound, C49_looking_back_false, C51_delete_char, C51_delete_backward_char, C51_forward_then_delete_backward, C53_short_lines, C54_verbose_order, C56_verdict, C56_any_error_will_do, C56_empty_output_is_not_checked, C57_as_if_alone, C57_lost_update, C57_mixed_text, C58_like_one_script, C58_json_blank_line, C59_current_column_exact, C59_at_end, C59_off_by_one, C63_misuse_refused, C63_concat, C63_documented_use, C64_flags_only_affect_output, C64_verbose_has_no_effect, C64_bad_pattern, C64_base_name, C66_string_match, C66_string_match_literal_fallback, C66_invalid_pattern, C66_replace_regexp_in_string, C66_dollar_doubled, C66_replace_nothing, C67_json_writer_refuses, C68_exact, C68_second_reading, C68_accepted, C68_commas_split, C68_plain, C68_quoted, C68_refused, C68_record_or_refused, C69_exponent_exact, C70_false_extension, C70_shorthand, C70_sexp_is_shell, C71_one_meaning, C71_has_meaning, C72_unknown_tool, C72_edit_refused, C72_eval_buffer, C72_eval_expression, C72_eval_refused, C72_reads_only, C72_wrong_types, C73_no_new_bytes, C73_ascii_utf8, C74_categories, C78_verbose, C78_quiet, C78_quiet_is_silent, C80_documented_use, C80_concat, C83_false_json, C83_rehearsal, C84_only_declared, C84_required, C84_optional, C84_eval_follows, C84_doc_follows, C84_edit_values, C84_false_follows, C85_parameters, C86_one_file, C86_one_by_one, C86_independent, C86_same_file, C87_edit_file, C87_edit_files, C87_false_lost_update, C88_nothing_changes, C88_len, C88_get, C88_first, C88_append, C88_new_list, C88_go_append, C89_runs, C89_observer, C89_no_state, C89_only_names, C89_missing, C89_invariant, C89_read_only, C91_runs_are_runs, C91_modes_kept, C91_new_files, C91_write_protected, C91_edit_file, C91_edit_files, C91_digits, C93_isLetter, C94_one_end, C94_methods, C95_does, C95_execute, C95_files, C95_parse, C95_parse_prints, C95_writers, C95_eval_tool, C95_edit_file_outcomes, C95_edit_file_moments, C95_edit_files_outcomes, C95_eval_touches_nothing, C96_parseTestFile, C96_printTestResult, C97_register, C98_pick, C98_tools

## none (2)

C55_cross_references, C71_no_other_option

## propext (105)

C01_false_empty_text, C01_false_stale_mark, C01_false_negative_count, C02_false_below, C02_false_above, C03_insert_prepends, C04_min_int_counterexample, C08_literal_match_is_pattern, C08_replace_without_search, C09_match_only_set_by_searches, C09_false_second_replace, C09_false_insert_between, C12_false_empty_buffer, C14_backward_char_no_upper_clamp, C17_false, C17_false_count_zero, C19_false, C21_min_int_counterexample, C22_queries_read_only, C23_text_unchanged, C23_mark_unchanged, C24_failure_changes_nothing, C25_empty, C25_error_text, C27_trace_is_transparent, C28_formats_alike, C28_unknown_format, C29_success_happens, C31_false_named_twice, C31_false_collision, C34_reason, C35_false_without_plain_symbols, C35_false_without_lists, C36_false_empty_command, C39_false_inside_literal, C40_literal_with_tail_is_a_symbol, C41_false_example, C44_nan, C45_refusals, C45_other_files_left_unfinished, C46_buffer, C48_concat, C48_length_concat, C50_return_to_mark, C50_exchange_involution, C51_negative_duplicates, C51_negative_panics, C52_negative_delete_char, C56_failure_explained, C56_tracing, C56_parse_errors_cannot_be_expected, C56_output_mismatch, C56_shown_alike, C59_false, C61_empty_refused, C61_readme, C64_no_files, C65_effects, C65_mark_whole_buffer_in_steps, C65_false_replace_empty_buffer, C65_false_mark_follows_text, C66_false_closest_match, C66_false_line_anchor, C66_false_literal_replacement, C67_invalid_format, C67_false_json_to_sexp, C67_false_shell_space, C67_shell_partial_output, C67_json_partial_output, C67_output_before_error, C68_include_split, C68_string_literals_refused, C68_refusal_message, C68_only_first_line, C68_false_readme, C68_empty, C69_inf_and_nan_are_numbers, C70_one_format, C70_unknown, C70_meaning, C71_dashes, C72_names, C72_crash, C73_classes, C75_special, C75_examples, C78_quiet_hides_reasons, C78_verbose_mixes, C81_false_word_at_end, C81_false_spec_example, C81_false_comments, C81_false_single_quotes, C81_false_json_command, C83_false_position, C83_false_value_extraction, C83_false_position_finding, C83_false_regexp_literal, C85_false_count, C85_false_length, C85_false_mark_word, C85_false_examples, C87_from_a_moment, C87_failing_script, C89_redefinition, C90_writer_comes_in
