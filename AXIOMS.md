# Axioms used by each theorem

Output of `#print axioms` for every theorem named in `MANIFEST.json` (all in namespace `Dune.Props`),
grouped by the set of axioms.  No theorem uses any other axiom.

## propext

`C05_plain`, `C07_nothing_runs`, `C14_omega_hits_limit`, `C18_quote_suspends`, `C18_quote_one`, `C19_if_stop`, `C20_for_iff`, `C20_for_length`, `C20_for_first_error`, `C20_for_non_list`, `C22_call_isolated`, `C23_lexical_scope`, `C26_macro_in_caller`, `C26_macro_more`, `C28_keeps_enclosing`, `C30_argument_order`, `C31_no_enclosing`, `C45_key`, `C61_none`, `C61_name`, `C61_error`, `C65_prompt_crash`, `C77_box_corners`, `C79_fallback`, `C92_member_refuted`, `C92_pipe_refuted`, `C92_range_refuted`, `C120_color`

## propext, Quot.sound

`C01_tile`, `C02_returns`, `C02_crash`, `C05_no_escape`, `C05_idempotent`, `C05_styled`, `C16_parentheses_converse`, `C17_data_inert`, `C20_variable_stays`, `C21_block_ok`, `C21_block_stop`, `C23_call_scope`, `C24_capture_exact`, `C24_recapture`, `C25_no_self_reference`, `C25_runs_program`, `C26_macro_assigns`, `C27_curry_of_multi`, `C27_multi_of_curry`, `C27_unrestricted_false`, `C28_keeps_variables`, `C29_last_write_wins`, `C29_sorted`, `C29_is_defined`, `C30_one_command`, `C30_directory`, `C30_no_command_on_error`, `C30_argument_strings`, `C31_exported_iff`, `C30_one_command`, `C61_waiting`, `C62_unfair`, `C65_excerpts`, `C67_spaced`, `C72_cut_unique`, `C77_joinx_size`, `C77_joiny_size`, `C77_joinx_corners`, `C81_completes`, `C81_wrong`, `C81_history`, `C81_witness`, `C87_includes`, `C95_time_unique`, `C98_crash`, `C101_counts`, `C102_doubles`, `C105_output`, `C105_bounded`, `C105_hangs`, `C117_middle_refuted`, `C117_word_refuted`, `C125_start`

## propext, Classical.choice, Quot.sound

`C02_terminates`, `C03_diagnostics`, `C04_highlight`, `C04_line`, `C06_terminates`, `C06_text`, `C07_diagnostic`, `C07_touching`, `C07_success`, `C08_layout`, `C09_value`, `C09_range`, `C09_zeros`, `C09_all`, `C09_printed`, `C10_quoted`, `C11_products`, `C11_sums`, `C11_comparisons`, `C11_logic`, `C12_reads_back`, `C12_map`, `C12_float`, `C12_nul`, `C13_dropped`, `C14_total_deterministic`, `C14_evaluator_agrees`, `C15_recursion_limit_refuted`, `C15_try_does_not_help`, `C16_less_nesting`, `C16_parentheses`, `C19_if_true`, `C19_if_false`, `C19_one_branch`, `C32_add`, `C32_sub`, `C32_mul`, `C32_div`, `C33_rem`, `C33_neg`, `C34_add_str`, `C34_add_bytes`, `C34_add_list`, `C34_mul_list`, `C34_mul_str`, `C34_mul_first`, `C35_list_literal`, `C35_list_computed`, `C35_name_not_evaluated`, `C35_map_name`, `C35_other`, `C36_decides`, `C36_operands`, `C36_irreflexive`, `C36_asymmetric`, `C36_transitive`, `C36_le_transitive`, `C36_converse`, `C36_lt_le`, `C36_int`, `C36_float`, `C36_str_total`, `C36_str_lex`, `C36_unrelated`, `C37_symmetric`, `C37_reflexive`, `C37_float`, `C37_nan`, `C37_identity`, `C37_ne`, `C37_builtin`, `C37_int_float`, `C38_and`, `C38_or`, `C38_not`, `C38_no_short_circuit`, `C39_head_none`, `C39_head_refuted`, `C40_rev`, `C40_rev_rev`, `C40_rev_rev_str`, `C40_rev_text`, `C40_tail`, `C40_take_drop`, `C40_split_at`, `C40_chunk`, `C41_nth`, `C42_to`, `C42_range`, `C43_unzip_zip`, `C43_zip_unzip`, `C43_unzip_rejects`, `C44_map`, `C44_filter`, `C44_map_pure`, `C44_filter_pure`, `C44_foldl`, `C44_reduce`, `C44_foldr`, `C44_map_waits`, `C44_filter_waits`, `C44_reduce_waits`, `C45_insert`, `C45_remove`, `C45_has`, `C45_keys_values_len`, `C45_vals`, `C45_insert_lookup`, `C46_union`, `C46_intersect`, `C46_difference`, `C47_from_items_items`, `C47_items`, `C47_last_wins`, `C48_join_split`, `C48_pieces`, `C49_shift`, `C49_undo`, `C49_rot13`, `C49_negative_refuted`, `C49_overflow`, `C50_iseven`, `C50_isodd`, `C50_isodd_refuted`, `C51_pow`, `C51_pow_modulo`, `C51_large_refuted`, `C52_codes_agree`, `C52_codes_refuted`, `C53_try_ok`, `C53_try_err`, `C53_message`, `C53_try_unprintable`, `C53_try_exit`, `C54_eval`, `C54_eval_pure`, `C54_exec`, `C54_exec_value`, `C55_pipe`, `C56_at_least_two`, `C56_compose`, `C57_enabled`, `C57_level`, `C57_monotone`, `C57_suppressed`, `C57_printed`, `C57_names`, `C57_set_by_name`, `C57_lines`, `C57_one_line`, `C57_mid_line`, `C58_read`, `C58_write_read`, `C58_readAs`, `C58_append`, `C58_append_missing`, `C59_same_path`, `C59_exists`, `C59_guarded`, `C59_mv_atomic`, `C60_head`, `C60_tail`, `C60_tail_refuted`, `C61_split`, `C61_session`, `C61_once`, `C61_shown`, `C62_exclusive`, `C62_no_deadlock`, `C62_poisoned`, `C62_serial`, `C63_split`, `C63_curry_ignores`, `C63_curry_add`, `C64_ranges`, `C65_script_crash`, `C65_single`, `C65_line_start`, `C65_multi`, `C65_multi_panics`, `C65_crash`, `C65_renders`, `C66_no_panic`, `C67_grammar`, `C67_unambiguous`, `C67_text`, `C68_copy`, `C68_copy_inside`, `C68_rm`, `C68_rmdir`, `C68_mkdir`, `C68_ls_dir`, `C68_ls_other`, `C68_tests`, `C68_copy_works`, `C68_rm_works`, `C68_rmdir_works`, `C68_mkdir_works`, `C68_ls_works`, `C69_sum_exact`, `C69_sum_crash`, `C69_sum_wraps`, `C69_product_exact`, `C69_product_crash`, `C69_product_wraps`, `C69_sum_float_lost`, `C69_fact`, `C69_fact_crash`, `C69_fact_wraps`, `C69_fact_zero`, `C69_fact_negative`, `C69_abs`, `C69_abs_min`, `C69_lsh`, `C69_rsh`, `C69_lrsh`, `C69_shift_crash`, `C70_cons`, `C70_append`, `C70_tail_cons`, `C70_rev_cons`, `C70_len_list`, `C70_len_text`, `C70_insert_list`, `C70_insert_list_bad`, `C70_insert_text`, `C70_insert_text_crash`, `C70_insert_text_bad`, `C70_insert_map`, `C70_split_at_text`, `C70_split_at_crash`, `C71_print`, `C71_println`, `C71_debug`, `C71_print_nothing`, `C71_print_error`, `C71_print_closed`, `C71_report`, `C71_exit`, `C71_exit_small`, `C71_exit_default`, `C71_exit_stops`, `C71_unbind`, `C71_cd`, `C71_cd_fails`, `C71_cd_local`, `C71_str`, `C71_to_string`, `C71_int_str`, `C71_conditional`, `C71_int_text`, `C71_int_other`, `C72_trim`, `C72_trim_start`, `C72_trim_end`, `C72_is_whitespace`, `C72_tests`, `C72_replace`, `C72_replace_absent`, `C72_replace_empty`, `C72_split`, `C72_paragraphs`, `C72_words`, `C72_lines`, `C72_chars`, `C72_width`, `C73_id`, `C73_const`, `C73_flip`, `C73_flip_function`, `C73_compose`, `C73_compose_functions`, `C73_apply`, `C73_apply_no_list`, `C73_apply_evaluates_twice`, `C74_include`, `C74_import`, `C74_no_program`, `C74_parse`, `C74_eval_exec`, `C74_run_text`, `C74_quote`, `C74_set`, `C74_unset`, `C74_defined`, `C74_env`, `C74_vars`, `C74_parse_expr`, `C74_cd`, `C75_style`, `C75_dark`, `C75_dark_white`, `C75_no_argument`, `C75_strip_style`, `C75_strip_styled`, `C75_strip_clean`, `C75_strip_dark_white`, `C75_href`, `C75_strip_href`, `C75_wrap`, `C76_int`, `C76_int_empty`, `C76_choose`, `C76_choose_empty`, `C76_shuffle`, `C76_shuffle_fair`, `C76_answers`, `C77_create`, `C77_create_narrow`, `C77_create_low`, `C77_joinx`, `C77_joinx_heights`, `C77_joiny`, `C77_joiny_blank`, `C78_file`, `C78_file_error`, `C78_file_syntax`, `C78_file_missing`, `C78_exec`, `C78_exec_error`, `C78_exec_report`, `C78_file_exec`, `C78_batch`, `C78_prompt`, `C78_prelude_kept`, `C78_no_prelude`, `C78_startup`, `C79_prompt`, `C79_incomplete`, `C79_aligned`, `C80_join`, `C80_join_empty`, `C82_json`, `C82_json_missing`, `C82_json_error`, `C82_json_empty`, `C82_toml`, `C82_toml_missing`, `C82_toml_error`, `C83_write`, `C83_fails`, `C83_program`, `C83_echo_refuted`, `C83_append`, `C83_read`, `C83_feed`, `C83_chain_refuted`, `C84_write`, `C84_picture`, `C84_move_to`, `C84_move`, `C84_switches`, `C84_clear`, `C84_clear_refuted`, `C84_title`, `C84_size`, `C85_taken`, `C85_function_refuted`, `C85_char`, `C85_distinct`, `C86_upper_lower`, `C86_classes`, `C86_title`, `C86_is_title`, `C86_title_is_title`, `C86_missing`, `C87_words`, `C87_accepted`, `C87_rejected`, `C87_nested`, `C87_counts`, `C88_culprit`, `C88_none`, `C88_safe`, `C88_exact`, `C88_outside`, `C89_culprit`, `C89_keeps`, `C89_leave`, `C89_exact`, `C90_add`, `C90_mul`, `C90_div`, `C90_rem`, `C90_sub`, `C91_program`, `C91_formula`, `C91_sum`, `C92_reads_back`, `C92_exact`, `C92_paste`, `C93_tree`, `C93_depth_ignored`, `C93_unlisted`, `C93_root_crashes`, `C94_flatten`, `C94_unique`, `C94_again`, `C95_now`, `C95_date_unique`, `C95_sleep`, `C95_sleep_negative`, `C95_sleep_bad`, `C96_input`, `C96_input_error`, `C96_read`, `C96_mode`, `C97_round_int`, `C97_round_float`, `C97_function`, `C97_bad`, `C97_count`, `C97_log`, `C97_pow`, `C97_abs`, `C97_abs_value`, `C98_list`, `C98_map`, `C98_rectangle`, `C98_colours`, `C98_ints`, `C99_max`, `C99_min`, `C99_int`, `C99_unrelated`, `C100_pwd`, `C100_cd_pwd`, `C100_clear`, `C100_script_refuted`, `C101_doubles`, `C101_linear`, `C101_parens`, `C101_functions`, `C101_no_polynomial`, `C102_function_size`, `C102_hooks`, `C102_no_polynomial`, `C103_session`, `C103_max`, `C103_scope`, `C104_first`, `C104_last`, `C104_factorial`, `C105_finishes`, `C105_standstill`, `C105_cat`, `C106_ieee`, `C106_leap`, `C106_days`, `C106_weekday`, `C106_dates`, `C106_calendar`, `C106_columns`, `C106_defines`, `C107_defines`, `C107_status_refuted`, `C107_failing`, `C107_prompt`, `C107_script_refuted`, `C108_defines`, `C108_include`, `C108_use`, `C108_fails`, `C109_concat`, `C109_get`, `C109_defines`, `C110_float_factorial_refuted`, `C111_add`, `C111_sub`, `C111_mul`, `C111_div`, `C111_int`, `C111_beyond_refuted`, `C112_defines`, `C112_ssh`, `C112_scp`, `C112_option_refuted`, `C113_glob`, `C113_unreadable`, `C113_invalid_refuted`, `C113_process_directory`, `C113_cd`, `C113_sys_cd_refuted`, `C114_defines`, `C114_home`, `C115_defines`, `C115_dollar`, `C115_pattern_refuted`, `C115_twice_refuted`, `C115_fails`, `C116_constants`, `C116_double`, `C116_radians`, `C116_degrees`, `C117_end`, `C118_defines`, `C118_download`, `C118_no_key`, `C118_encoding_refuted`, `C118_ambiguous_refuted`, `C119_defines`, `C119_picture`, `C119_fits`, `C119_case_refuted`, `C119_never`, `C120_follows`, `C120_plays`, `C120_won`, `C120_stuck`, `C121_defines`, `C121_key`, `C121_city`, `C121_ready`, `C121_start`, `C121_no_function`, `C122_name`, `C122_missing`, `C122_runs`, `C122_city`, `C122_city_refuted`, `C123_windows`, `C123_elsewhere`, `C123_program`, `C123_cat_refuted`, `C124_help`, `C124_fails`, `C124_page`, `C124_silent_refuted`, `C124_curried_refuted`, `C125_dirs`, `C125_unknown_refuted`, `C125_cd_refuted`, `C126_os`, `C126_linux_refuted`, `C127_suggestion`, `C127_prelude`, `C127_stale_refuted`, `C127_constants`, `C128_defines`, `C128_cat`, `C128_flower`, `C128_flower_refuted`, `C128_wide_refuted`, `C129_widgets`, `C129_weather`, `C130_weather`, `C130_unknown`, `C131_time`
