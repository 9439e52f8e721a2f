{
 "claims": [
  {
   "property": "C01",
   "status": "proved",
   "theorems": [
    "Dune.Props.C01_tile"
   ],
   "note": ""
  },
  {
   "property": "C02",
   "status": "proved",
   "theorems": [
    "Dune.Props.C02_terminates",
    "Dune.Props.C02_returns",
    "Dune.Props.C02_crash"
   ],
   "note": ""
  },
  {
   "property": "C03",
   "status": "proved",
   "theorems": [
    "Dune.Props.C03_diagnostics"
   ],
   "note": ""
  },
  {
   "property": "C04",
   "status": "proved",
   "theorems": [
    "Dune.Props.C04_highlight",
    "Dune.Props.C04_line"
   ],
   "note": ""
  },
  {
   "property": "C05",
   "status": "proved",
   "theorems": [
    "Dune.Props.C05_no_escape",
    "Dune.Props.C05_plain",
    "Dune.Props.C05_idempotent",
    "Dune.Props.C05_styled"
   ],
   "note": ""
  },
  {
   "property": "C06",
   "status": "proved",
   "theorems": [
    "Dune.Props.C06_terminates",
    "Dune.Props.C06_text"
   ],
   "note": ""
  },
  {
   "property": "C07",
   "status": "proved",
   "theorems": [
    "Dune.Props.C07_diagnostic",
    "Dune.Props.C07_touching",
    "Dune.Props.C07_success",
    "Dune.Props.C07_nothing_runs"
   ],
   "note": ""
  },
  {
   "property": "C08",
   "status": "proved",
   "theorems": [
    "Dune.Props.C08_layout"
   ],
   "note": ""
  },
  {
   "property": "C09",
   "status": "proved",
   "theorems": [
    "Dune.Props.C09_value",
    "Dune.Props.C09_range",
    "Dune.Props.C09_zeros",
    "Dune.Props.C09_all",
    "Dune.Props.C09_printed"
   ],
   "note": ""
  },
  {
   "property": "C10",
   "status": "proved",
   "theorems": [
    "Dune.Props.C10_quoted"
   ],
   "note": ""
  },
  {
   "property": "C11",
   "status": "proved",
   "theorems": [
    "Dune.Props.C11_products",
    "Dune.Props.C11_sums",
    "Dune.Props.C11_comparisons",
    "Dune.Props.C11_logic"
   ],
   "note": ""
  },
  {
   "property": "C12",
   "status": "proved",
   "theorems": [
    "Dune.Props.C12_reads_back",
    "Dune.Props.C12_map",
    "Dune.Props.C12_float",
    "Dune.Props.C12_nul"
   ],
   "note": ""
  },
  {
   "property": "C13",
   "status": "proved",
   "theorems": [
    "Dune.Props.C13_dropped"
   ],
   "note": ""
  },
  {
   "property": "C14",
   "status": "proved",
   "theorems": [
    "Dune.Props.C14_total_deterministic",
    "Dune.Props.C14_evaluator_agrees",
    "Dune.Props.C14_omega_hits_limit"
   ],
   "note": "evaluation equals an inductive semantics with the depth counter of the code"
  },
  {
   "property": "C15",
   "status": "proved",
   "theorems": [
    "Dune.Props.C15_recursion_limit_refuted",
    "Dune.Props.C15_try_does_not_help"
   ],
   "note": ""
  },
  {
   "property": "C16",
   "status": "proved",
   "theorems": [
    "Dune.Props.C16_less_nesting",
    "Dune.Props.C16_parentheses",
    "Dune.Props.C16_parentheses_converse"
   ],
   "note": ""
  },
  {
   "property": "C17",
   "status": "proved",
   "theorems": [
    "Dune.Props.C17_data_inert"
   ],
   "note": ""
  },
  {
   "property": "C18",
   "status": "proved",
   "theorems": [
    "Dune.Props.C18_quote_suspends",
    "Dune.Props.C18_quote_one"
   ],
   "note": ""
  },
  {
   "property": "C19",
   "status": "proved",
   "theorems": [
    "Dune.Props.C19_if_true",
    "Dune.Props.C19_if_false",
    "Dune.Props.C19_if_stop",
    "Dune.Props.C19_one_branch"
   ],
   "note": ""
  },
  {
   "property": "C20",
   "status": "proved",
   "theorems": [
    "Dune.Props.C20_for_iff",
    "Dune.Props.C20_for_length",
    "Dune.Props.C20_for_first_error",
    "Dune.Props.C20_for_non_list",
    "Dune.Props.C20_variable_stays"
   ],
   "note": ""
  },
  {
   "property": "C21",
   "status": "proved",
   "theorems": [
    "Dune.Props.C21_block_ok",
    "Dune.Props.C21_block_stop"
   ],
   "note": ""
  },
  {
   "property": "C22",
   "status": "proved",
   "theorems": [
    "Dune.Props.C22_call_isolated"
   ],
   "note": ""
  },
  {
   "property": "C23",
   "status": "proved",
   "theorems": [
    "Dune.Props.C23_lexical_scope",
    "Dune.Props.C23_call_scope"
   ],
   "note": ""
  },
  {
   "property": "C24",
   "status": "proved",
   "theorems": [
    "Dune.Props.C24_capture_exact",
    "Dune.Props.C24_recapture"
   ],
   "note": ""
  },
  {
   "property": "C25",
   "status": "proved",
   "theorems": [
    "Dune.Props.C25_no_self_reference",
    "Dune.Props.C25_runs_program"
   ],
   "note": ""
  },
  {
   "property": "C26",
   "status": "proved",
   "theorems": [
    "Dune.Props.C26_macro_in_caller",
    "Dune.Props.C26_macro_more",
    "Dune.Props.C26_macro_assigns"
   ],
   "note": ""
  },
  {
   "property": "C27",
   "status": "proved",
   "theorems": [
    "Dune.Props.C27_curry_of_multi",
    "Dune.Props.C27_multi_of_curry",
    "Dune.Props.C27_unrestricted_false"
   ],
   "note": ""
  },
  {
   "property": "C28",
   "status": "proved",
   "theorems": [
    "Dune.Props.C28_keeps_variables",
    "Dune.Props.C28_keeps_enclosing"
   ],
   "note": ""
  },
  {
   "property": "C29",
   "status": "proved",
   "theorems": [
    "Dune.Props.C29_last_write_wins",
    "Dune.Props.C29_sorted",
    "Dune.Props.C29_is_defined"
   ],
   "note": ""
  },
  {
   "property": "C30",
   "status": "proved",
   "theorems": [
    "Dune.Props.C30_one_command",
    "Dune.Props.C30_directory",
    "Dune.Props.C30_no_command_on_error",
    "Dune.Props.C30_argument_strings",
    "Dune.Props.C30_argument_order"
   ],
   "note": ""
  },
  {
   "property": "C31",
   "status": "proved",
   "theorems": [
    "Dune.Props.C31_exported_iff",
    "Dune.Props.C31_no_enclosing",
    "Dune.Props.C30_one_command"
   ],
   "note": ""
  },
  {
   "property": "C32",
   "status": "proved",
   "theorems": [
    "Dune.Props.C32_add",
    "Dune.Props.C32_sub",
    "Dune.Props.C32_mul",
    "Dune.Props.C32_div"
   ],
   "note": ""
  },
  {
   "property": "C33",
   "status": "proved",
   "theorems": [
    "Dune.Props.C33_rem",
    "Dune.Props.C33_neg"
   ],
   "note": ""
  },
  {
   "property": "C34",
   "status": "proved",
   "theorems": [
    "Dune.Props.C34_add_str",
    "Dune.Props.C34_add_bytes",
    "Dune.Props.C34_add_list",
    "Dune.Props.C34_mul_list",
    "Dune.Props.C34_mul_str",
    "Dune.Props.C34_mul_first"
   ],
   "note": ""
  },
  {
   "property": "C35",
   "status": "proved",
   "theorems": [
    "Dune.Props.C35_list_literal",
    "Dune.Props.C35_list_computed",
    "Dune.Props.C35_name_not_evaluated",
    "Dune.Props.C35_map_name",
    "Dune.Props.C35_other"
   ],
   "note": ""
  },
  {
   "property": "C36",
   "status": "proved",
   "theorems": [
    "Dune.Props.C36_decides",
    "Dune.Props.C36_operands",
    "Dune.Props.C36_irreflexive",
    "Dune.Props.C36_asymmetric",
    "Dune.Props.C36_transitive",
    "Dune.Props.C36_le_transitive",
    "Dune.Props.C36_converse",
    "Dune.Props.C36_lt_le",
    "Dune.Props.C36_int",
    "Dune.Props.C36_float",
    "Dune.Props.C36_str_total",
    "Dune.Props.C36_str_lex",
    "Dune.Props.C36_unrelated"
   ],
   "note": ""
  },
  {
   "property": "C37",
   "status": "proved",
   "theorems": [
    "Dune.Props.C37_symmetric",
    "Dune.Props.C37_reflexive",
    "Dune.Props.C37_float",
    "Dune.Props.C37_nan",
    "Dune.Props.C37_identity",
    "Dune.Props.C37_ne",
    "Dune.Props.C37_builtin",
    "Dune.Props.C37_int_float"
   ],
   "note": ""
  },
  {
   "property": "C38",
   "status": "proved",
   "theorems": [
    "Dune.Props.C38_and",
    "Dune.Props.C38_or",
    "Dune.Props.C38_not",
    "Dune.Props.C38_no_short_circuit"
   ],
   "note": ""
  },
  {
   "property": "C39",
   "status": "proved",
   "theorems": [
    "Dune.Props.C39_head_none",
    "Dune.Props.C39_head_refuted"
   ],
   "note": ""
  },
  {
   "property": "C40",
   "status": "proved",
   "theorems": [
    "Dune.Props.C40_rev",
    "Dune.Props.C40_rev_rev",
    "Dune.Props.C40_rev_rev_str",
    "Dune.Props.C40_rev_text",
    "Dune.Props.C40_tail",
    "Dune.Props.C40_take_drop",
    "Dune.Props.C40_split_at",
    "Dune.Props.C40_chunk"
   ],
   "note": ""
  },
  {
   "property": "C41",
   "status": "proved",
   "theorems": [
    "Dune.Props.C41_nth"
   ],
   "note": ""
  },
  {
   "property": "C42",
   "status": "proved",
   "theorems": [
    "Dune.Props.C42_to",
    "Dune.Props.C42_range"
   ],
   "note": ""
  },
  {
   "property": "C43",
   "status": "proved",
   "theorems": [
    "Dune.Props.C43_unzip_zip",
    "Dune.Props.C43_zip_unzip",
    "Dune.Props.C43_unzip_rejects"
   ],
   "note": ""
  },
  {
   "property": "C44",
   "status": "proved",
   "theorems": [
    "Dune.Props.C44_map",
    "Dune.Props.C44_filter",
    "Dune.Props.C44_map_pure",
    "Dune.Props.C44_filter_pure",
    "Dune.Props.C44_foldl",
    "Dune.Props.C44_reduce",
    "Dune.Props.C44_foldr",
    "Dune.Props.C44_map_waits",
    "Dune.Props.C44_filter_waits",
    "Dune.Props.C44_reduce_waits"
   ],
   "note": ""
  },
  {
   "property": "C45",
   "status": "proved",
   "theorems": [
    "Dune.Props.C45_insert",
    "Dune.Props.C45_remove",
    "Dune.Props.C45_has",
    "Dune.Props.C45_key",
    "Dune.Props.C45_keys_values_len",
    "Dune.Props.C45_vals",
    "Dune.Props.C45_insert_lookup"
   ],
   "note": ""
  },
  {
   "property": "C46",
   "status": "proved",
   "theorems": [
    "Dune.Props.C46_union",
    "Dune.Props.C46_intersect",
    "Dune.Props.C46_difference"
   ],
   "note": ""
  },
  {
   "property": "C47",
   "status": "proved",
   "theorems": [
    "Dune.Props.C47_from_items_items",
    "Dune.Props.C47_items",
    "Dune.Props.C47_last_wins"
   ],
   "note": ""
  },
  {
   "property": "C48",
   "status": "proved",
   "theorems": [
    "Dune.Props.C48_join_split",
    "Dune.Props.C48_pieces"
   ],
   "note": ""
  },
  {
   "property": "C49",
   "status": "proved",
   "theorems": [
    "Dune.Props.C49_shift",
    "Dune.Props.C49_undo",
    "Dune.Props.C49_rot13",
    "Dune.Props.C49_negative_refuted",
    "Dune.Props.C49_overflow"
   ],
   "note": ""
  },
  {
   "property": "C50",
   "status": "proved",
   "theorems": [
    "Dune.Props.C50_iseven",
    "Dune.Props.C50_isodd",
    "Dune.Props.C50_isodd_refuted"
   ],
   "note": ""
  },
  {
   "property": "C51",
   "status": "proved",
   "theorems": [
    "Dune.Props.C51_pow",
    "Dune.Props.C51_pow_modulo",
    "Dune.Props.C51_large_refuted"
   ],
   "note": ""
  },
  {
   "property": "C52",
   "status": "proved",
   "theorems": [
    "Dune.Props.C52_codes_agree",
    "Dune.Props.C52_codes_refuted"
   ],
   "note": ""
  },
  {
   "property": "C53",
   "status": "proved",
   "theorems": [
    "Dune.Props.C53_try_ok",
    "Dune.Props.C53_try_err",
    "Dune.Props.C53_message",
    "Dune.Props.C53_try_unprintable",
    "Dune.Props.C53_try_exit"
   ],
   "note": ""
  },
  {
   "property": "C54",
   "status": "proved",
   "theorems": [
    "Dune.Props.C54_eval",
    "Dune.Props.C54_eval_pure",
    "Dune.Props.C54_exec",
    "Dune.Props.C54_exec_value"
   ],
   "note": ""
  },
  {
   "property": "C55",
   "status": "proved",
   "theorems": [
    "Dune.Props.C55_pipe"
   ],
   "note": ""
  },
  {
   "property": "C56",
   "status": "proved",
   "theorems": [
    "Dune.Props.C56_at_least_two",
    "Dune.Props.C56_compose"
   ],
   "note": ""
  },
  {
   "property": "C57",
   "status": "proved",
   "theorems": [
    "Dune.Props.C57_enabled",
    "Dune.Props.C57_level",
    "Dune.Props.C57_monotone",
    "Dune.Props.C57_suppressed",
    "Dune.Props.C57_printed",
    "Dune.Props.C57_names",
    "Dune.Props.C57_set_by_name",
    "Dune.Props.C57_lines",
    "Dune.Props.C57_one_line",
    "Dune.Props.C57_mid_line"
   ],
   "note": ""
  },
  {
   "property": "C58",
   "status": "proved",
   "theorems": [
    "Dune.Props.C58_read",
    "Dune.Props.C58_write_read",
    "Dune.Props.C58_readAs",
    "Dune.Props.C58_append",
    "Dune.Props.C58_append_missing"
   ],
   "note": ""
  },
  {
   "property": "C59",
   "status": "proved",
   "theorems": [
    "Dune.Props.C59_same_path",
    "Dune.Props.C59_exists",
    "Dune.Props.C59_guarded",
    "Dune.Props.C59_mv_atomic"
   ],
   "note": ""
  },
  {
   "property": "C60",
   "status": "proved",
   "theorems": [
    "Dune.Props.C60_head",
    "Dune.Props.C60_tail",
    "Dune.Props.C60_tail_refuted"
   ],
   "note": ""
  },
  {
   "property": "C61",
   "status": "proved",
   "theorems": [
    "Dune.Props.C61_split",
    "Dune.Props.C61_session",
    "Dune.Props.C61_waiting",
    "Dune.Props.C61_once",
    "Dune.Props.C61_shown",
    "Dune.Props.C61_none",
    "Dune.Props.C61_name",
    "Dune.Props.C61_error"
   ],
   "note": ""
  },
  {
   "property": "C62",
   "status": "proved",
   "theorems": [
    "Dune.Props.C62_exclusive",
    "Dune.Props.C62_no_deadlock",
    "Dune.Props.C62_poisoned",
    "Dune.Props.C62_serial",
    "Dune.Props.C62_unfair"
   ],
   "note": ""
  },
  {
   "property": "C63",
   "status": "proved",
   "theorems": [
    "Dune.Props.C63_split",
    "Dune.Props.C63_curry_ignores",
    "Dune.Props.C63_curry_add"
   ],
   "note": ""
  },
  {
   "property": "C64",
   "status": "proved",
   "theorems": [
    "Dune.Props.C64_ranges"
   ],
   "note": ""
  },
  {
   "property": "C65",
   "status": "proved",
   "theorems": [
    "Dune.Props.C65_script_crash",
    "Dune.Props.C65_prompt_crash",
    "Dune.Props.C65_single",
    "Dune.Props.C65_line_start",
    "Dune.Props.C65_multi",
    "Dune.Props.C65_multi_panics",
    "Dune.Props.C65_crash",
    "Dune.Props.C65_renders",
    "Dune.Props.C65_excerpts"
   ],
   "note": ""
  },
  {
   "property": "C66",
   "status": "proved",
   "theorems": [
    "Dune.Props.C66_no_panic"
   ],
   "note": ""
  },
  {
   "property": "C67",
   "status": "proved",
   "theorems": [
    "Dune.Props.C67_grammar",
    "Dune.Props.C67_unambiguous",
    "Dune.Props.C67_text",
    "Dune.Props.C67_spaced"
   ],
   "note": ""
  },
  {
   "property": "C68",
   "status": "proved",
   "theorems": [
    "Dune.Props.C68_copy",
    "Dune.Props.C68_copy_inside",
    "Dune.Props.C68_rm",
    "Dune.Props.C68_rmdir",
    "Dune.Props.C68_mkdir",
    "Dune.Props.C68_ls_dir",
    "Dune.Props.C68_ls_other",
    "Dune.Props.C68_tests",
    "Dune.Props.C68_copy_works",
    "Dune.Props.C68_rm_works",
    "Dune.Props.C68_rmdir_works",
    "Dune.Props.C68_mkdir_works",
    "Dune.Props.C68_ls_works"
   ],
   "note": ""
  },
  {
   "property": "C69",
   "status": "proved",
   "theorems": [
    "Dune.Props.C69_sum_exact",
    "Dune.Props.C69_sum_crash",
    "Dune.Props.C69_sum_wraps",
    "Dune.Props.C69_product_exact",
    "Dune.Props.C69_product_crash",
    "Dune.Props.C69_product_wraps",
    "Dune.Props.C69_sum_float_lost",
    "Dune.Props.C69_fact",
    "Dune.Props.C69_fact_crash",
    "Dune.Props.C69_fact_wraps",
    "Dune.Props.C69_fact_zero",
    "Dune.Props.C69_fact_negative",
    "Dune.Props.C69_abs",
    "Dune.Props.C69_abs_min",
    "Dune.Props.C69_lsh",
    "Dune.Props.C69_rsh",
    "Dune.Props.C69_lrsh",
    "Dune.Props.C69_shift_crash"
   ],
   "note": ""
  },
  {
   "property": "C70",
   "status": "proved",
   "theorems": [
    "Dune.Props.C70_cons",
    "Dune.Props.C70_append",
    "Dune.Props.C70_tail_cons",
    "Dune.Props.C70_rev_cons",
    "Dune.Props.C70_len_list",
    "Dune.Props.C70_len_text",
    "Dune.Props.C70_insert_list",
    "Dune.Props.C70_insert_list_bad",
    "Dune.Props.C70_insert_text",
    "Dune.Props.C70_insert_text_crash",
    "Dune.Props.C70_insert_text_bad",
    "Dune.Props.C70_insert_map",
    "Dune.Props.C70_split_at_text",
    "Dune.Props.C70_split_at_crash"
   ],
   "note": ""
  },
  {
   "property": "C71",
   "status": "proved",
   "theorems": [
    "Dune.Props.C71_print",
    "Dune.Props.C71_println",
    "Dune.Props.C71_debug",
    "Dune.Props.C71_print_nothing",
    "Dune.Props.C71_print_error",
    "Dune.Props.C71_print_closed",
    "Dune.Props.C71_report",
    "Dune.Props.C71_exit",
    "Dune.Props.C71_exit_small",
    "Dune.Props.C71_exit_default",
    "Dune.Props.C71_exit_stops",
    "Dune.Props.C71_unbind",
    "Dune.Props.C71_cd",
    "Dune.Props.C71_cd_fails",
    "Dune.Props.C71_cd_local",
    "Dune.Props.C71_str",
    "Dune.Props.C71_to_string",
    "Dune.Props.C71_int_str",
    "Dune.Props.C71_conditional",
    "Dune.Props.C71_int_text",
    "Dune.Props.C71_int_other"
   ],
   "note": ""
  },
  {
   "property": "C72",
   "status": "proved",
   "theorems": [
    "Dune.Props.C72_trim",
    "Dune.Props.C72_trim_start",
    "Dune.Props.C72_trim_end",
    "Dune.Props.C72_is_whitespace",
    "Dune.Props.C72_tests",
    "Dune.Props.C72_replace",
    "Dune.Props.C72_cut_unique",
    "Dune.Props.C72_replace_absent",
    "Dune.Props.C72_replace_empty",
    "Dune.Props.C72_split",
    "Dune.Props.C72_paragraphs",
    "Dune.Props.C72_words",
    "Dune.Props.C72_lines",
    "Dune.Props.C72_chars",
    "Dune.Props.C72_width"
   ],
   "note": ""
  },
  {
   "property": "C73",
   "status": "proved",
   "theorems": [
    "Dune.Props.C73_id",
    "Dune.Props.C73_const",
    "Dune.Props.C73_flip",
    "Dune.Props.C73_flip_function",
    "Dune.Props.C73_compose",
    "Dune.Props.C73_compose_functions",
    "Dune.Props.C73_apply",
    "Dune.Props.C73_apply_no_list",
    "Dune.Props.C73_apply_evaluates_twice"
   ],
   "note": ""
  },
  {
   "property": "C74",
   "status": "proved",
   "theorems": [
    "Dune.Props.C74_include",
    "Dune.Props.C74_import",
    "Dune.Props.C74_no_program",
    "Dune.Props.C74_parse",
    "Dune.Props.C74_eval_exec",
    "Dune.Props.C74_run_text",
    "Dune.Props.C74_quote",
    "Dune.Props.C74_set",
    "Dune.Props.C74_unset",
    "Dune.Props.C74_defined",
    "Dune.Props.C74_env",
    "Dune.Props.C74_vars",
    "Dune.Props.C74_parse_expr",
    "Dune.Props.C74_cd"
   ],
   "note": ""
  },
  {
   "property": "C75",
   "status": "proved",
   "theorems": [
    "Dune.Props.C75_style",
    "Dune.Props.C75_dark",
    "Dune.Props.C75_dark_white",
    "Dune.Props.C75_no_argument",
    "Dune.Props.C75_strip_style",
    "Dune.Props.C75_strip_styled",
    "Dune.Props.C75_strip_clean",
    "Dune.Props.C75_strip_dark_white",
    "Dune.Props.C75_href",
    "Dune.Props.C75_strip_href",
    "Dune.Props.C75_wrap"
   ],
   "note": ""
  },
  {
   "property": "C76",
   "status": "proved",
   "theorems": [
    "Dune.Props.C76_int",
    "Dune.Props.C76_int_empty",
    "Dune.Props.C76_choose",
    "Dune.Props.C76_choose_empty",
    "Dune.Props.C76_shuffle",
    "Dune.Props.C76_shuffle_fair",
    "Dune.Props.C76_answers"
   ],
   "note": ""
  },
  {
   "property": "C77",
   "status": "proved",
   "theorems": [
    "Dune.Props.C77_create",
    "Dune.Props.C77_create_narrow",
    "Dune.Props.C77_create_low",
    "Dune.Props.C77_joinx",
    "Dune.Props.C77_joinx_size",
    "Dune.Props.C77_joinx_heights",
    "Dune.Props.C77_joiny",
    "Dune.Props.C77_joiny_size",
    "Dune.Props.C77_joiny_blank",
    "Dune.Props.C77_box_corners",
    "Dune.Props.C77_joinx_corners"
   ],
   "note": ""
  },
  {
   "property": "C78",
   "status": "proved",
   "theorems": [
    "Dune.Props.C78_file",
    "Dune.Props.C78_file_error",
    "Dune.Props.C78_file_syntax",
    "Dune.Props.C78_file_missing",
    "Dune.Props.C78_exec",
    "Dune.Props.C78_exec_error",
    "Dune.Props.C78_exec_report",
    "Dune.Props.C78_file_exec",
    "Dune.Props.C78_batch",
    "Dune.Props.C78_prompt",
    "Dune.Props.C78_prelude_kept",
    "Dune.Props.C78_no_prelude",
    "Dune.Props.C78_startup"
   ],
   "note": ""
  },
  {
   "property": "C79",
   "status": "proved",
   "theorems": [
    "Dune.Props.C79_prompt",
    "Dune.Props.C79_incomplete",
    "Dune.Props.C79_aligned",
    "Dune.Props.C79_fallback"
   ],
   "note": ""
  },
  {
   "property": "C80",
   "status": "proved",
   "theorems": [
    "Dune.Props.C80_join",
    "Dune.Props.C80_join_empty"
   ],
   "note": ""
  },
  {
   "property": "C81",
   "status": "proved",
   "theorems": [
    "Dune.Props.C81_completes",
    "Dune.Props.C81_wrong",
    "Dune.Props.C81_history",
    "Dune.Props.C81_witness"
   ],
   "note": ""
  },
  {
   "property": "C82",
   "status": "proved",
   "theorems": [
    "Dune.Props.C82_json",
    "Dune.Props.C82_json_missing",
    "Dune.Props.C82_json_error",
    "Dune.Props.C82_json_empty",
    "Dune.Props.C82_toml",
    "Dune.Props.C82_toml_missing",
    "Dune.Props.C82_toml_error"
   ],
   "note": ""
  },
  {
   "property": "C83",
   "status": "proved",
   "theorems": [
    "Dune.Props.C83_write",
    "Dune.Props.C83_fails",
    "Dune.Props.C83_program",
    "Dune.Props.C83_echo_refuted",
    "Dune.Props.C83_append",
    "Dune.Props.C83_read",
    "Dune.Props.C83_feed",
    "Dune.Props.C83_chain_refuted"
   ],
   "note": ""
  },
  {
   "property": "C84",
   "status": "proved",
   "theorems": [
    "Dune.Props.C84_write",
    "Dune.Props.C84_picture",
    "Dune.Props.C84_move_to",
    "Dune.Props.C84_move",
    "Dune.Props.C84_switches",
    "Dune.Props.C84_clear",
    "Dune.Props.C84_clear_refuted",
    "Dune.Props.C84_title",
    "Dune.Props.C84_size"
   ],
   "note": ""
  },
  {
   "property": "C85",
   "status": "proved",
   "theorems": [
    "Dune.Props.C85_taken",
    "Dune.Props.C85_function_refuted",
    "Dune.Props.C85_char",
    "Dune.Props.C85_distinct"
   ],
   "note": ""
  },
  {
   "property": "C86",
   "status": "proved",
   "theorems": [
    "Dune.Props.C86_upper_lower",
    "Dune.Props.C86_classes",
    "Dune.Props.C86_title",
    "Dune.Props.C86_is_title",
    "Dune.Props.C86_title_is_title",
    "Dune.Props.C86_missing"
   ],
   "note": ""
  },
  {
   "property": "C87",
   "status": "proved",
   "theorems": [
    "Dune.Props.C87_words",
    "Dune.Props.C87_accepted",
    "Dune.Props.C87_rejected",
    "Dune.Props.C87_includes",
    "Dune.Props.C87_nested",
    "Dune.Props.C87_counts"
   ],
   "note": ""
  },
  {
   "property": "C88",
   "status": "proved",
   "theorems": [
    "Dune.Props.C88_culprit",
    "Dune.Props.C88_none",
    "Dune.Props.C88_safe",
    "Dune.Props.C88_exact",
    "Dune.Props.C88_outside"
   ],
   "note": ""
  },
  {
   "property": "C89",
   "status": "proved",
   "theorems": [
    "Dune.Props.C89_culprit",
    "Dune.Props.C89_keeps",
    "Dune.Props.C89_leave",
    "Dune.Props.C89_exact"
   ],
   "note": ""
  },
  {
   "property": "C90",
   "status": "proved",
   "theorems": [
    "Dune.Props.C90_add",
    "Dune.Props.C90_mul",
    "Dune.Props.C90_div",
    "Dune.Props.C90_rem",
    "Dune.Props.C90_sub"
   ],
   "note": ""
  },
  {
   "property": "C91",
   "status": "proved",
   "theorems": [
    "Dune.Props.C91_program",
    "Dune.Props.C91_formula",
    "Dune.Props.C91_sum"
   ],
   "note": ""
  },
  {
   "property": "C92",
   "status": "proved",
   "theorems": [
    "Dune.Props.C92_reads_back",
    "Dune.Props.C92_exact",
    "Dune.Props.C92_paste",
    "Dune.Props.C92_member_refuted",
    "Dune.Props.C92_pipe_refuted",
    "Dune.Props.C92_range_refuted"
   ],
   "note": ""
  },
  {
   "property": "C93",
   "status": "proved",
   "theorems": [
    "Dune.Props.C93_tree",
    "Dune.Props.C93_depth_ignored",
    "Dune.Props.C93_unlisted",
    "Dune.Props.C93_root_crashes"
   ],
   "note": ""
  },
  {
   "property": "C94",
   "status": "proved",
   "theorems": [
    "Dune.Props.C94_flatten",
    "Dune.Props.C94_unique",
    "Dune.Props.C94_again"
   ],
   "note": ""
  },
  {
   "property": "C95",
   "status": "proved",
   "theorems": [
    "Dune.Props.C95_now",
    "Dune.Props.C95_time_unique",
    "Dune.Props.C95_date_unique",
    "Dune.Props.C95_sleep",
    "Dune.Props.C95_sleep_negative",
    "Dune.Props.C95_sleep_bad"
   ],
   "note": ""
  },
  {
   "property": "C96",
   "status": "proved",
   "theorems": [
    "Dune.Props.C96_input",
    "Dune.Props.C96_input_error",
    "Dune.Props.C96_read",
    "Dune.Props.C96_mode"
   ],
   "note": ""
  },
  {
   "property": "C97",
   "status": "proved",
   "theorems": [
    "Dune.Props.C97_round_int",
    "Dune.Props.C97_round_float",
    "Dune.Props.C97_function",
    "Dune.Props.C97_bad",
    "Dune.Props.C97_count",
    "Dune.Props.C97_log",
    "Dune.Props.C97_pow",
    "Dune.Props.C97_abs",
    "Dune.Props.C97_abs_value"
   ],
   "note": ""
  },
  {
   "property": "C98",
   "status": "proved",
   "theorems": [
    "Dune.Props.C98_crash",
    "Dune.Props.C98_list",
    "Dune.Props.C98_map",
    "Dune.Props.C98_rectangle",
    "Dune.Props.C98_colours",
    "Dune.Props.C98_ints"
   ],
   "note": ""
  },
  {
   "property": "C99",
   "status": "proved",
   "theorems": [
    "Dune.Props.C99_max",
    "Dune.Props.C99_min",
    "Dune.Props.C99_int",
    "Dune.Props.C99_unrelated"
   ],
   "note": ""
  },
  {
   "property": "C100",
   "status": "proved",
   "theorems": [
    "Dune.Props.C100_pwd",
    "Dune.Props.C100_cd_pwd",
    "Dune.Props.C100_clear",
    "Dune.Props.C100_script_refuted"
   ],
   "note": ""
  },
  {
   "property": "C101",
   "status": "proved",
   "theorems": [
    "Dune.Props.C101_counts",
    "Dune.Props.C101_doubles",
    "Dune.Props.C101_linear",
    "Dune.Props.C101_parens",
    "Dune.Props.C101_functions",
    "Dune.Props.C101_no_polynomial"
   ],
   "note": ""
  },
  {
   "property": "C102",
   "status": "proved",
   "theorems": [
    "Dune.Props.C102_function_size",
    "Dune.Props.C102_doubles",
    "Dune.Props.C102_hooks",
    "Dune.Props.C102_no_polynomial"
   ],
   "note": ""
  },
  {
   "property": "C103",
   "status": "proved",
   "theorems": [
    "Dune.Props.C103_session",
    "Dune.Props.C103_max",
    "Dune.Props.C103_scope"
   ],
   "note": ""
  },
  {
   "property": "C104",
   "status": "proved",
   "theorems": [
    "Dune.Props.C104_first",
    "Dune.Props.C104_last",
    "Dune.Props.C104_factorial"
   ],
   "note": ""
  },
  {
   "property": "C105",
   "status": "proved",
   "theorems": [
    "Dune.Props.C105_output",
    "Dune.Props.C105_bounded",
    "Dune.Props.C105_finishes",
    "Dune.Props.C105_hangs",
    "Dune.Props.C105_standstill",
    "Dune.Props.C105_cat"
   ],
   "note": ""
  },
  {
   "property": "C106",
   "status": "proved",
   "theorems": [
    "Dune.Props.C106_ieee",
    "Dune.Props.C106_leap",
    "Dune.Props.C106_days",
    "Dune.Props.C106_weekday",
    "Dune.Props.C106_dates",
    "Dune.Props.C106_calendar",
    "Dune.Props.C106_columns",
    "Dune.Props.C106_defines"
   ],
   "note": ""
  },
  {
   "property": "C107",
   "status": "proved",
   "theorems": [
    "Dune.Props.C107_defines",
    "Dune.Props.C107_status_refuted",
    "Dune.Props.C107_failing",
    "Dune.Props.C107_prompt",
    "Dune.Props.C107_script_refuted"
   ],
   "note": ""
  },
  {
   "property": "C108",
   "status": "proved",
   "theorems": [
    "Dune.Props.C108_defines",
    "Dune.Props.C108_include",
    "Dune.Props.C108_use",
    "Dune.Props.C108_fails"
   ],
   "note": ""
  },
  {
   "property": "C109",
   "status": "proved",
   "theorems": [
    "Dune.Props.C109_concat",
    "Dune.Props.C109_get",
    "Dune.Props.C109_defines"
   ],
   "note": ""
  },
  {
   "property": "C110",
   "status": "proved",
   "theorems": [
    "Dune.Props.C110_float_factorial_refuted"
   ],
   "note": ""
  },
  {
   "property": "C111",
   "status": "proved",
   "theorems": [
    "Dune.Props.C111_add",
    "Dune.Props.C111_sub",
    "Dune.Props.C111_mul",
    "Dune.Props.C111_div",
    "Dune.Props.C111_int",
    "Dune.Props.C111_beyond_refuted"
   ],
   "note": ""
  },
  {
   "property": "C112",
   "status": "proved",
   "theorems": [
    "Dune.Props.C112_defines",
    "Dune.Props.C112_ssh",
    "Dune.Props.C112_scp",
    "Dune.Props.C112_option_refuted"
   ],
   "note": ""
  },
  {
   "property": "C113",
   "status": "proved",
   "theorems": [
    "Dune.Props.C113_glob",
    "Dune.Props.C113_unreadable",
    "Dune.Props.C113_invalid_refuted",
    "Dune.Props.C113_process_directory",
    "Dune.Props.C113_cd",
    "Dune.Props.C113_sys_cd_refuted"
   ],
   "note": ""
  },
  {
   "property": "C114",
   "status": "proved",
   "theorems": [
    "Dune.Props.C114_defines",
    "Dune.Props.C114_home"
   ],
   "note": ""
  },
  {
   "property": "C115",
   "status": "proved",
   "theorems": [
    "Dune.Props.C115_defines",
    "Dune.Props.C115_dollar",
    "Dune.Props.C115_pattern_refuted",
    "Dune.Props.C115_twice_refuted",
    "Dune.Props.C115_fails"
   ],
   "note": ""
  },
  {
   "property": "C116",
   "status": "proved",
   "theorems": [
    "Dune.Props.C116_constants",
    "Dune.Props.C116_double",
    "Dune.Props.C116_radians",
    "Dune.Props.C116_degrees"
   ],
   "note": ""
  },
  {
   "property": "C117",
   "status": "proved",
   "theorems": [
    "Dune.Props.C117_end",
    "Dune.Props.C117_middle_refuted",
    "Dune.Props.C117_word_refuted"
   ],
   "note": ""
  },
  {
   "property": "C118",
   "status": "proved",
   "theorems": [
    "Dune.Props.C118_defines",
    "Dune.Props.C118_download",
    "Dune.Props.C118_no_key",
    "Dune.Props.C118_encoding_refuted",
    "Dune.Props.C118_ambiguous_refuted"
   ],
   "note": ""
  },
  {
   "property": "C119",
   "status": "proved",
   "theorems": [
    "Dune.Props.C119_defines",
    "Dune.Props.C119_picture",
    "Dune.Props.C119_fits",
    "Dune.Props.C119_case_refuted",
    "Dune.Props.C119_never"
   ],
   "note": ""
  },
  {
   "property": "C120",
   "status": "proved",
   "theorems": [
    "Dune.Props.C120_follows",
    "Dune.Props.C120_plays",
    "Dune.Props.C120_won",
    "Dune.Props.C120_color",
    "Dune.Props.C120_stuck"
   ],
   "note": ""
  },
  {
   "property": "C121",
   "status": "proved",
   "theorems": [
    "Dune.Props.C121_defines",
    "Dune.Props.C121_key",
    "Dune.Props.C121_city",
    "Dune.Props.C121_ready",
    "Dune.Props.C121_start",
    "Dune.Props.C121_no_function"
   ],
   "note": ""
  },
  {
   "property": "C122",
   "status": "proved",
   "theorems": [
    "Dune.Props.C122_name",
    "Dune.Props.C122_missing",
    "Dune.Props.C122_runs",
    "Dune.Props.C122_city",
    "Dune.Props.C122_city_refuted"
   ],
   "note": ""
  },
  {
   "property": "C123",
   "status": "proved",
   "theorems": [
    "Dune.Props.C123_windows",
    "Dune.Props.C123_elsewhere",
    "Dune.Props.C123_program",
    "Dune.Props.C123_cat_refuted"
   ],
   "note": ""
  },
  {
   "property": "C124",
   "status": "proved",
   "theorems": [
    "Dune.Props.C124_help",
    "Dune.Props.C124_fails",
    "Dune.Props.C124_page",
    "Dune.Props.C124_silent_refuted",
    "Dune.Props.C124_curried_refuted"
   ],
   "note": ""
  },
  {
   "property": "C125",
   "status": "proved",
   "theorems": [
    "Dune.Props.C125_dirs",
    "Dune.Props.C125_unknown_refuted",
    "Dune.Props.C125_cd_refuted",
    "Dune.Props.C125_start"
   ],
   "note": ""
  },
  {
   "property": "C126",
   "status": "proved",
   "theorems": [
    "Dune.Props.C126_os",
    "Dune.Props.C126_linux_refuted"
   ],
   "note": ""
  },
  {
   "property": "C127",
   "status": "proved",
   "theorems": [
    "Dune.Props.C127_suggestion",
    "Dune.Props.C127_prelude",
    "Dune.Props.C127_stale_refuted",
    "Dune.Props.C127_constants"
   ],
   "note": ""
  },
  {
   "property": "C128",
   "status": "proved",
   "theorems": [
    "Dune.Props.C128_defines",
    "Dune.Props.C128_cat",
    "Dune.Props.C128_flower",
    "Dune.Props.C128_flower_refuted",
    "Dune.Props.C128_wide_refuted"
   ],
   "note": ""
  },
  {
   "property": "C129",
   "status": "proved",
   "theorems": [
    "Dune.Props.C129_widgets",
    "Dune.Props.C129_weather"
   ],
   "note": ""
  },
  {
   "property": "C130",
   "status": "proved",
   "theorems": [
    "Dune.Props.C130_weather",
    "Dune.Props.C130_unknown"
   ],
   "note": ""
  },
  {
   "property": "C131",
   "status": "proved",
   "theorems": [
    "Dune.Props.C131_time"
   ],
   "note": ""
  }
 ]
}