{
 "claims": [
  {
   "property": "C01",
   "status": "partial",
   "theorems": [
    "Verif.Props.C01_step_safe",
    "Verif.Props.C01_capacity_invariant",
    "Verif.Props.C01_abort_iff_partial",
    "Verif.Props.C01_step_refines_partial",
    "Verif.Props.C01_refines_list_partial",
    "Verif.Props.C01_get",
    "Verif.Props.C01_back",
    "Verif.Props.C01_ofList",
    "Verif.Props.C01_grow_wraps"
   ],
   "note": "Proved for all arguments whose size_t sum does not wrap; grow() with an argument near 2^64 violates the claim (C01_grow_wraps)."
  },
  {
   "property": "C02",
   "status": "proved",
   "theorems": [
    "Verif.Props.C02_append_text",
    "Verif.Props.C02_prefix_longest",
    "Verif.Props.C02_paths_agree"
   ],
   "note": ""
  },
  {
   "property": "C03",
   "status": "proved",
   "theorems": [
    "Verif.Props.C03_append_variadic"
   ],
   "note": ""
  },
  {
   "property": "C04",
   "status": "proved",
   "theorems": [
    "Verif.Props.C04_numeral_unique",
    "Verif.Props.C04_unsigned",
    "Verif.Props.C04_unsigned_runtime"
   ],
   "note": ""
  },
  {
   "property": "C05",
   "status": "proved",
   "theorems": [
    "Verif.Props.C05_signed",
    "Verif.Props.C05_roundtrip",
    "Verif.Props.C05_signed_runtime"
   ],
   "note": ""
  },
  {
   "property": "C06",
   "status": "proved",
   "theorems": [
    "Verif.Props.C06_pointer",
    "Verif.Props.C06_pointer_constexpr"
   ],
   "note": ""
  },
  {
   "property": "C07",
   "status": "proved",
   "theorems": [
    "Verif.Props.C07_truncate_end"
   ],
   "note": ""
  },
  {
   "property": "C08",
   "status": "proved",
   "theorems": [
    "Verif.Props.C08_append_or_truncate"
   ],
   "note": ""
  },
  {
   "property": "C09",
   "status": "proved",
   "theorems": [
    "Verif.Props.C09_replace_all",
    "Verif.Props.C09_replaced_no_occurrence",
    "Verif.Props.C09_replaced_first",
    "Verif.Props.C09_cut_pattern_deviates",
    "Verif.Props.C09_empty_pattern_diverges"
   ],
   "note": ""
  },
  {
   "property": "C10",
   "status": "proved",
   "theorems": [
    "Verif.Props.C10_escape_all_or_truncate",
    "Verif.Props.C10_requirement"
   ],
   "note": ""
  },
  {
   "property": "C11",
   "status": "proved",
   "theorems": [
    "Verif.Props.C11_find_first_not_escaped",
    "Verif.Props.C11_find_npos"
   ],
   "note": ""
  },
  {
   "property": "C12",
   "status": "proved",
   "theorems": [
    "Verif.Props.C12_is_match",
    "Verif.Props.C12_reading_unique",
    "Verif.Props.C12_literal",
    "Verif.Props.C12_ill_formed",
    "Verif.Props.C12_empty_pattern"
   ],
   "note": ""
  },
  {
   "property": "C13",
   "status": "proved",
   "theorems": [
    "Verif.Props.C13_raw_tags",
    "Verif.Props.C13_decode",
    "Verif.Props.C13_hidden_shorthand",
    "Verif.Props.C13_reject"
   ],
   "note": ""
  },
  {
   "property": "C14",
   "status": "proved",
   "theorems": [
    "Verif.Props.C14_and",
    "Verif.Props.C14_or",
    "Verif.Props.C14_order_independent"
   ],
   "note": ""
  },
  {
   "property": "C15",
   "status": "proved",
   "theorems": [
    "Verif.Props.C15_filter_meaning",
    "Verif.Props.C15_parts_join"
   ],
   "note": ""
  },
  {
   "property": "C16",
   "status": "proved",
   "theorems": [
    "Verif.Props.C16_selection",
    "Verif.Props.C16_order_independent"
   ],
   "note": ""
  },
  {
   "property": "C17",
   "status": "proved",
   "theorems": [
    "Verif.Props.C17_negated_name",
    "Verif.Props.C17_negated_tag",
    "Verif.Props.C17_partition",
    "Verif.Props.C17_partition_tag"
   ],
   "note": ""
  },
  {
   "property": "C18",
   "status": "proved",
   "theorems": [
    "Verif.Props.C18_list_and_run",
    "Verif.Props.C18_list_all",
    "Verif.Props.C18_list_with_tag"
   ],
   "note": ""
  },
  {
   "property": "C19",
   "status": "proved",
   "theorems": [
    "Verif.Props.C19_executions",
    "Verif.Props.C19_same_each_time",
    "Verif.Props.C19_no_section",
    "Verif.Props.C19_meaning"
   ],
   "note": ""
  },
  {
   "property": "C20",
   "status": "proved",
   "theorems": [
    "Verif.Props.C20_run_count",
    "Verif.Props.C20_terminates",
    "Verif.Props.C20_leaves"
   ],
   "note": ""
  },
  {
   "property": "C21",
   "status": "proved",
   "theorems": [
    "Verif.Props.C21_section_events",
    "Verif.Props.C21_sections_in_try_block",
    "Verif.Props.C21_skip_check_leaves_section_open",
    "Verif.Props.C21_abort_after_unfinished_section"
   ],
   "note": ""
  },
  {
   "property": "C22",
   "status": "proved",
   "theorems": [
    "Verif.Props.C22_rest_is_irrelevant",
    "Verif.Props.C22_abort_at",
    "Verif.Props.C22_no_later_execution"
   ],
   "note": ""
  },
  {
   "property": "C23",
   "status": "proved",
   "theorems": [
    "Verif.Props.C23_captures_of_check",
    "Verif.Props.C23_captures_restored",
    "Verif.Props.C23_too_many_captures"
   ],
   "note": ""
  },
  {
   "property": "C24",
   "status": "proved",
   "theorems": [
    "Verif.Props.C24_next_name",
    "Verif.Props.C24_captures",
    "Verif.Props.C24_braces_split"
   ],
   "note": ""
  },
  {
   "property": "C25",
   "status": "proved",
   "theorems": [
    "Verif.Props.C25_counts",
    "Verif.Props.C25_counts_evaluated"
   ],
   "note": ""
  },
  {
   "property": "C26",
   "status": "proved",
   "theorems": [
    "Verif.Props.C26_failed_iff",
    "Verif.Props.C26_failed_iff_no_skip",
    "Verif.Props.C26_failed_iff_failures",
    "Verif.Props.C26_failed_iff_reported"
   ],
   "note": ""
  },
  {
   "property": "C27",
   "status": "proved",
   "theorems": [
    "Verif.Props.C27_may_fail",
    "Verif.Props.C27_should_fail"
   ],
   "note": ""
  },
  {
   "property": "C28",
   "status": "proved",
   "theorems": [
    "Verif.Props.C28_skip",
    "Verif.Props.C28_no_later_execution",
    "Verif.Props.C28_skip_after_failure_stays_failed"
   ],
   "note": ""
  },
  {
   "property": "C29",
   "status": "proved",
   "theorems": [
    "Verif.Props.C29_run",
    "Verif.Props.C29_run_ends",
    "Verif.Props.C29_success_iff_no_failure",
    "Verif.Props.C29_exit_status"
   ],
   "note": ""
  },
  {
   "property": "C30",
   "status": "proved",
   "theorems": [
    "Verif.Props.C30_verbosity"
   ],
   "note": ""
  },
  {
   "property": "C31",
   "status": "proved",
   "theorems": [
    "Verif.Props.C31_parse",
    "Verif.Props.C31_lookup",
    "Verif.Props.C31_limit",
    "Verif.Props.C31_recordings"
   ],
   "note": ""
  },
  {
   "property": "C32",
   "status": "proved",
   "theorems": [
    "Verif.Props.C32_configure",
    "Verif.Props.C32_values_present",
    "Verif.Props.C32_total"
   ],
   "note": ""
  },
  {
   "property": "C33",
   "status": "partial",
   "theorems": [
    "Verif.Props.C33_one_option_partial",
    "Verif.Props.C33_no_option_partial",
    "Verif.Props.C33_unknown_name",
    "Verif.Props.C33_ill_formed",
    "Verif.Props.C33_total",
    "Verif.Props.C33_received",
    "Verif.Props.C33_two_options"
   ],
   "note": "Proved for no option and for one option (and for unknown or ill-formed names). For two or more options the code never gives the first to the reporter and gives parts of the later ones: C33_received says exactly what, for any number of options; C33_two_options is a concrete counterexample."
  },
  {
   "property": "C34",
   "status": "proved",
   "theorems": [
    "Verif.Props.C34_strings",
    "Verif.Props.C34_print",
    "Verif.Props.C34_total",
    "Verif.Props.C34_single"
   ],
   "note": ""
  },
  {
   "property": "C35",
   "status": "partial",
   "theorems": [
    "Verif.Props.C35_closed_partial",
    "Verif.Props.C35_reset_cut"
   ],
   "note": "Proved whenever the start code, value and reset code fit, or the start and reset codes alone do not fit, or the value itself overflows (C35_closed_partial). When start code and value fit but the reset code does not, the reset code is cut: C35_reset_cut, proved for every such case."
  },
  {
   "property": "C36",
   "status": "proved",
   "theorems": [
    "Verif.Props.C36_verdict",
    "Verif.Props.C36_comparison",
    "Verif.Props.C36_single",
    "Verif.Props.C36_unordered"
   ],
   "note": ""
  },
  {
   "property": "C37",
   "status": "proved",
   "theorems": [
    "Verif.Props.C37_contains",
    "Verif.Props.C37_what",
    "Verif.Props.C37_any_of",
    "Verif.Props.C37_contains_description",
    "Verif.Props.C37_any_of_description",
    "Verif.Props.C37_expression",
    "Verif.Props.C37_check_that"
   ],
   "note": ""
  },
  {
   "property": "C38",
   "status": "proved",
   "theorems": [
    "Verif.Props.C38_once",
    "Verif.Props.C38_all_gone",
    "Verif.Props.C38_get"
   ],
   "note": ""
  },
  {
   "property": "C39",
   "status": "proved",
   "theorems": [
    "Verif.Props.C39_history",
    "Verif.Props.C39_owner",
    "Verif.Props.C39_all_closed",
    "Verif.Props.C39_errors",
    "Verif.Props.C39_path_unterminated"
   ],
   "note": ""
  },
  {
   "property": "C40",
   "status": "proved",
   "theorems": [
    "Verif.Props.C40_document",
    "Verif.Props.C40_listing",
    "Verif.Props.C40_run",
    "Verif.Props.C40_run_calm",
    "Verif.Props.C40_nested_abort",
    "Verif.Props.C40_level"
   ],
   "note": ""
  },
  {
   "property": "C41",
   "status": "proved",
   "theorems": [
    "Verif.Props.C41_decodes",
    "Verif.Props.C41_injective",
    "Verif.Props.C41_cut",
    "Verif.Props.C41_not_when_cut"
   ],
   "note": ""
  },
  {
   "property": "C42",
   "status": "proved",
   "theorems": [
    "Verif.Props.C42_decodes",
    "Verif.Props.C42_injective",
    "Verif.Props.C42_messages",
    "Verif.Props.C42_not_when_cut",
    "Verif.Props.C42_not_section_names"
   ],
   "note": ""
  },
  {
   "property": "C43",
   "status": "proved",
   "theorems": [
    "Verif.Props.C43_rounds",
    "Verif.Props.C43_unique",
    "Verif.Props.C43_not_at_limit",
    "Verif.Props.C43_zero_precision"
   ],
   "note": "C43_not_at_limit: for 19 digits of the five largest numbers rounding wraps around (not reachable from floats, C52_normalised). C43_zero_precision: precision 0 does not end."
  },
  {
   "property": "C44",
   "status": "proved",
   "theorems": [
    "Verif.Props.C44_text",
    "Verif.Props.C44_injective",
    "Verif.Props.C44_limit"
   ],
   "note": "C44_limit: a five-digit exponent does not fit in the buffer (not reachable from floats)."
  },
  {
   "property": "C45",
   "status": "proved",
   "theorems": [
    "Verif.Props.C45_exception_macros"
   ],
   "note": ""
  },
  {
   "property": "C46",
   "status": "proved",
   "theorems": [
    "Verif.Props.C46_register",
    "Verif.Props.C46_register_types"
   ],
   "note": ""
  },
  {
   "property": "C47",
   "status": "proved",
   "theorems": [
    "Verif.Props.C47_attribution",
    "Verif.Props.C47_restored",
    "Verif.Props.C47_no_test"
   ],
   "note": ""
  },
  {
   "property": "C48",
   "status": "proved",
   "theorems": [
    "Verif.Props.C48_place_of_exception",
    "Verif.Props.C48_place_of_exception_in_check",
    "Verif.Props.C48_needs_notification"
   ],
   "note": ""
  },
  {
   "property": "C49",
   "status": "partial",
   "theorems": [
    "Verif.Props.C49_list_tags_partial",
    "Verif.Props.C49_unique",
    "Verif.Props.C49_shorthand_undefined",
    "Verif.Props.C49_shorthand_partial"
   ],
   "note": "Proved when no test uses the short form '[.x]' (C49_list_tags_partial), and with short forms if each such x is a tag of its own before (C49_shorthand_partial). Otherwise list_all_tags keeps a view of a local buffer; C49_shorthand_partial also shows that then the list is never right: undefined behaviour, or too many tags. C49_shorthand_undefined is a concrete case. Tags are printed between an additional pair of brackets."
  },
  {
   "property": "C50",
   "status": "proved",
   "theorems": [
    "Verif.Props.C50_executable",
    "Verif.Props.C50_unique"
   ],
   "note": ""
  },
  {
   "property": "C51",
   "status": "partial",
   "theorems": [
    "Verif.Props.C51_color_any",
    "Verif.Props.C51_color_while_parsing",
    "Verif.Props.C51_agrees_with_configure_partial",
    "Verif.Props.C51_precedence_differs"
   ],
   "note": "The colour used while parsing is characterised exactly (C51_color_while_parsing); it agrees with configure when at most one of the two options is effective. With both, precedence differs: C51_precedence_differs is a proved counterexample."
  },
  {
   "property": "C52",
   "status": "proved",
   "theorems": [
    "Verif.Props.C52_no_overflow",
    "Verif.Props.C52_normalised"
   ],
   "note": "With the std::bit_cast variant of to_bits; C56 is about the other one."
  },
  {
   "property": "C53",
   "status": "proved",
   "theorems": [
    "Verif.Props.C53_infinite",
    "Verif.Props.C53_nan",
    "Verif.Props.C53_zero",
    "Verif.Props.C53_accuracy",
    "Verif.Props.C53_float",
    "Verif.Props.C53_double",
    "Verif.Props.C53_exact",
    "Verif.Props.C53_not_nearest",
    "Verif.Props.C53_tie"
   ],
   "note": "With the std::bit_cast variant of to_bits; C56 is about the other one. C53_not_nearest and C53_tie show that the printed digits are not always those of std::printf: the last one may be off by one."
  },
  {
   "property": "C54",
   "status": "partial",
   "theorems": [
    "Verif.Props.C54_not_skip_message",
    "Verif.Props.C54_not_when_cut",
    "Verif.Props.C54_not_unbalanced"
   ],
   "note": "Holds for the texts described in C40, and for texts of any length without special characters as far as escaping goes (C41_cut). It fails otherwise, with proved counterexamples: C54_not_skip_message (skip messages are not escaped), C54_not_when_cut (escaping stops at the first entity that does not fit). C54_not_unbalanced shows that the condition on section events is needed."
  },
  {
   "property": "C55",
   "status": "proved",
   "theorems": [
    "Verif.Props.C55_run"
   ],
   "note": ""
  },
  {
   "property": "C56",
   "status": "proved",
   "theorems": [
    "Verif.Props.C56_same_bits",
    "Verif.Props.C56_same_text",
    "Verif.Props.C56_not_negative_zero",
    "Verif.Props.C56_negative_zero_text"
   ],
   "note": "C56_not_negative_zero: the sign of -0.0 is lost without std::bit_cast, so 0.0 is printed."
  },
  {
   "property": "C57",
   "status": "proved",
   "theorems": [
    "Verif.Props.C57_text",
    "Verif.Props.C57_failures",
    "Verif.Props.C57_list",
    "Verif.Props.C57_run",
    "Verif.Props.C57_not_with_line_breaks"
   ],
   "note": ""
  },
  {
   "property": "C58",
   "status": "proved",
   "theorems": [
    "Verif.Props.C58_colors",
    "Verif.Props.C58_not_when_cut"
   ],
   "note": ""
  },
  {
   "property": "C59",
   "status": "proved",
   "theorems": [
    "Verif.Props.C59_grouping",
    "Verif.Props.C59_meaning",
    "Verif.Props.C59_display",
    "Verif.Props.C59_comma_refused"
   ],
   "note": ""
  },
  {
   "property": "C60",
   "status": "proved",
   "theorems": [
    "Verif.Props.C60_two_checks",
    "Verif.Props.C60_one_check",
    "Verif.Props.C60_reported",
    "Verif.Props.C60_same_expression",
    "Verif.Props.C60_same_match"
   ],
   "note": ""
  },
  {
   "property": "C61",
   "status": "proved",
   "theorems": [
    "Verif.Props.C61_help",
    "Verif.Props.C61_printed",
    "Verif.Props.C61_errors",
    "Verif.Props.C61_limit",
    "Verif.Props.C61_listed",
    "Verif.Props.C61_colors",
    "Verif.Props.C61_complaint_colors"
   ],
   "note": ""
  },
  {
   "property": "C62",
   "status": "proved",
   "theorems": [
    "Verif.Props.C62_orderly",
    "Verif.Props.C62_defined",
    "Verif.Props.C62_run",
    "Verif.Props.C62_ends",
    "Verif.Props.C62_not_twice",
    "Verif.Props.C62_default",
    "Verif.Props.C62_default_runs",
    "Verif.Props.C62_register",
    "Verif.Props.C62_select",
    "Verif.Props.C62_selected"
   ],
   "note": ""
  },
  {
   "property": "C63",
   "status": "proved",
   "theorems": [
    "Verif.Props.C63_output",
    "Verif.Props.C63_closed",
    "Verif.Props.C63_not_after_run"
   ],
   "note": ""
  },
  {
   "property": "C64",
   "status": "proved",
   "theorems": [
    "Verif.Props.C64_threads",
    "Verif.Props.C64_finishes",
    "Verif.Props.C64_no_test",
    "Verif.Props.C64_not_shared"
   ],
   "note": ""
  },
  {
   "property": "C65",
   "status": "partial",
   "theorems": [
    "Verif.Props.C65_name_partial",
    "Verif.Props.C65_cut",
    "Verif.Props.C65_distinct_partial",
    "Verif.Props.C65_not_arrays"
   ],
   "note": "Full claim: the name is the spelling of the type. False for arrays with clang (C65_not_arrays); proved for every spelling without the text that ends the type, and C65_cut says what the name is otherwise. The texts of __PRETTY_FUNCTION__/__FUNCSIG__ are assumed."
  },
  {
   "property": "C66",
   "status": "proved",
   "theorems": [
    "Verif.Props.C66_report",
    "Verif.Props.C66_goes_on",
    "Verif.Props.C66_require_does_not_stop",
    "Verif.Props.C66_require_stops",
    "Verif.Props.C66_depth"
   ],
   "note": ""
  },
  {
   "property": "C67",
   "status": "proved",
   "theorems": [
    "Verif.Props.C67_verdict",
    "Verif.Props.C67_program",
    "Verif.Props.C67_console",
    "Verif.Props.C67_xml",
    "Verif.Props.C67_teamcity"
   ],
   "note": ""
  },
  {
   "property": "C68",
   "status": "partial",
   "theorems": [
    "Verif.Props.C68_left_normally_partial",
    "Verif.Props.C68_unwound_partial",
    "Verif.Props.C68_ends_program",
    "Verif.Props.C68_misplaced",
    "Verif.Props.C68_blamed",
    "Verif.Props.C68_misplaced_check",
    "Verif.Props.C68_blamed_check",
    "Verif.Props.C68_forgotten"
   ],
   "note": "Proved when the block is left normally (C68_left_normally_partial) and, for destructors that do not use the framework, when it is left by an exception (C68_unwound_partial); an aborting destructor ends the program (C68_ends_program). The rest is false in the code: C68_misplaced and C68_blamed say in general what happens instead (a check is reported at the place of the exception; an exception is reported in the destructor's check), C68_misplaced_check, C68_blamed_check and C68_forgotten are complete runs."
  },
  {
   "property": "C69",
   "status": "proved",
   "theorems": [
    "Verif.Props.C69_joined",
    "Verif.Props.C69_check",
    "Verif.Props.C69_unexpected"
   ],
   "note": ""
  },
  {
   "property": "C70",
   "status": "proved",
   "theorems": [
    "Verif.Props.C70_configure",
    "Verif.Props.C70_built_in",
    "Verif.Props.C70_console_decides",
    "Verif.Props.C70_complains",
    "Verif.Props.C70_console_says",
    "Verif.Props.C70_quiet",
    "Verif.Props.C70_calls",
    "Verif.Props.C70_agrees",
    "Verif.Props.C70_choice"
   ],
   "note": ""
  },
  {
   "property": "C71",
   "status": "partial",
   "theorems": [
    "Verif.Props.C71_shown",
    "Verif.Props.C71_real",
    "Verif.Props.C71_question",
    "Verif.Props.C71_class_one",
    "Verif.Props.C71_class",
    "Verif.Props.C71_class_real",
    "Verif.Props.C71_documented_partial",
    "Verif.Props.C71_char_pointer",
    "Verif.Props.C71_unique",
    "Verif.Props.C71_operand",
    "Verif.Props.C71_not_documented",
    "Verif.Props.C71_wide",
    "Verif.Props.C71_buffer"
   ],
   "note": "Full claim: as documented in the README. C71_shown gives the text for every type that is not a floating point number and C71_class, C71_class_one for classes; with the README this agrees except for char* (C71_char_pointer, C71_not_documented), long double (C71_real) and integers of more than 64 bits (C71_wide): C71_documented_partial. The C++ overload resolution rules are part of the model."
  },
  {
   "property": "C72",
   "status": "proved",
   "theorems": [
    "Verif.Props.C72_registered",
    "Verif.Props.C72_type_list",
    "Verif.Props.C72_program",
    "Verif.Props.C72_refused",
    "Verif.Props.C72_method",
    "Verif.Props.C72_method_statements",
    "Verif.Props.C72_constructor_throws",
    "Verif.Props.C72_body_throws",
    "Verif.Props.C72_disabled",
    "Verif.Props.C72_disabled_code",
    "Verif.Props.C72_same_statements"
   ],
   "note": ""
  },
  {
   "property": "C73",
   "status": "proved",
   "theorems": [
    "Verif.Props.C73_test",
    "Verif.Props.C73_finished",
    "Verif.Props.C73_terminated",
    "Verif.Props.C73_ends",
    "Verif.Props.C73_gentle",
    "Verif.Props.C73_returned",
    "Verif.Props.C73_stopped",
    "Verif.Props.C73_gentle_run"
   ],
   "note": ""
  },
  {
   "property": "C74",
   "status": "proved",
   "theorems": [
    "Verif.Props.C74_accepted",
    "Verif.Props.C74_call",
    "Verif.Props.C74_const",
    "Verif.Props.C74_copy"
   ],
   "note": ""
  },
  {
   "property": "C75",
   "status": "proved",
   "theorems": [
    "Verif.Props.C75_decode",
    "Verif.Props.C75_selection",
    "Verif.Props.C75_filter",
    "Verif.Props.C75_refused",
    "Verif.Props.C75_whole",
    "Verif.Props.C75_tags"
   ],
   "note": ""
  },
  {
   "property": "C76",
   "status": "proved",
   "theorems": [
    "Verif.Props.C76_vector",
    "Verif.Props.C76_read",
    "Verif.Props.C76_reporters",
    "Verif.Props.C76_tests",
    "Verif.Props.C76_captures",
    "Verif.Props.C76_sections",
    "Verif.Props.C76_any",
    "Verif.Props.C76_file",
    "Verif.Props.C76_no_test",
    "Verif.Props.C76_tags",
    "Verif.Props.C76_tag_text",
    "Verif.Props.C76_registration"
   ],
   "note": ""
  },
  {
   "property": "C77",
   "status": "partial",
   "theorems": [
    "Verif.Props.C77_unharmed_partial",
    "Verif.Props.C77_as_if_partial",
    "Verif.Props.C77_reporters_partial",
    "Verif.Props.C77_tests_kept",
    "Verif.Props.C77_captures_left",
    "Verif.Props.C77_sections_off"
   ],
   "note": "Full claim: Unharmed of every function that can refuse. Proved of vectors, reporters, tests with proper names, listing tags, CAPTURE of one value, inplace_any and output files (C77_unharmed_partial), and for any sequence of such calls (C77_as_if_partial). It is false in the code for tests with too long or empty names (C77_tests_kept: they stay registered), CAPTURE of several values (C77_captures_left) and SECTION (C77_sections_off: the depth is decreased); these theorems say in general what happens instead."
  },
  {
   "property": "C78",
   "status": "partial",
   "theorems": [
    "Verif.Props.C78_value",
    "Verif.Props.C78_condition",
    "Verif.Props.C78_comparison",
    "Verif.Props.C78_matcher",
    "Verif.Props.C78_that",
    "Verif.Props.C78_throws_matches",
    "Verif.Props.C78_capture",
    "Verif.Props.C78_once",
    "Verif.Props.C78_silent",
    "Verif.Props.C78_passed_on_partial",
    "Verif.Props.C78_reported_partial",
    "Verif.Props.C78_text_ends_program",
    "Verif.Props.C78_matcher_ends_program",
    "Verif.Props.C78_capture_ends_program",
    "Verif.Props.C78_agrees"
   ],
   "note": "The order, number and conditions of the calls hold in full (C78_comparison, _value, _condition, _matcher, _that, _throws_matches, _capture, _once, _silent). Exceptions of operands, comparisons and conversions to bool, and of matchers in CHECK_THROWS_MATCHES, are passed on and reported (C78_passed_on_partial, C78_reported_partial). Missing because the code does otherwise: an exception of a user's append overload, or of a matcher in CHECK(value == matcher) or CHECK_THAT, ends the program (C78_text_ends_program, C78_matcher_ends_program, C78_capture_ends_program)."
  },
  {
   "property": "C79",
   "status": "proved",
   "theorems": [
    "Verif.Props.C79_signals",
    "Verif.Props.C79_run"
   ],
   "note": ""
  },
  {
   "property": "C80",
   "status": "partial",
   "theorems": [
    "Verif.Props.C80_exit",
    "Verif.Props.C80_run_partial",
    "Verif.Props.C80_flags_never_set",
    "Verif.Props.C80_xml",
    "Verif.Props.C80_teamcity",
    "Verif.Props.C80_console",
    "Verif.Props.C80_list_partial",
    "Verif.Props.C80_not_everything_told",
    "Verif.Props.C80_only"
   ],
   "note": "Proved for all runs (C80_run_partial, with the reports in C80_xml, C80_teamcity, C80_console) and for lists of tests (C80_list_partial), except for four fields. The code does not fill them: the name and filters of the events around a list of tests, and the two flags of the end of a test (C80_flags_never_set: never set by any run; C80_not_everything_told: witness against the full statement TellsAll). C80_only: conversely, a run tells nothing but what the declarations of the program admit (MayTell), within a bound on the number of events, and the failures counted are those of the selected tests."
  },
  {
   "property": "C81",
   "status": "partial",
   "theorems": [
    "Verif.Props.C81_last_execution",
    "Verif.Props.C81_counts_partial",
    "Verif.Props.C81_counts_lost"
   ],
   "note": "What the ends tell is proved for all tidy bodies (C81_last_execution): the numbers since the last entry. That these are the numbers of the whole section is proved for bodies whose sections contain at most one leaf section each (C81_counts_partial) and false otherwise (C81_counts_lost: a section with a failure whose end says there is none)."
  },
  {
   "property": "C82",
   "status": "partial",
   "theorems": [
    "Verif.Props.C82_inside_partial",
    "Verif.Props.C82_exactly_partial",
    "Verif.Props.C82_told_in_other_section"
   ],
   "note": "Proved for all tidy bodies: told inside all sections it is in, outermost first (C82_inside_partial); in no other sections if no section contains two leaf sections (C82_exactly_partial). The code violates the latter in general (C82_told_in_other_section)."
  },
  {
   "property": "C83",
   "status": "partial",
   "theorems": [
    "Verif.Props.C83_verbosity",
    "Verif.Props.C83_document",
    "Verif.Props.C83_nested_partial",
    "Verif.Props.C83_places_partial",
    "Verif.Props.C83_told_in_other_section",
    "Verif.Props.C83_nested_calm",
    "Verif.Props.C83_nested_once"
   ],
   "note": "C83_document: for all programs whose section events are nested, the document contains exactly what happens, in order, with all numbers. Nesting (C83_nested_partial) and exact places (C83_places_partial) are proved for tests in which no section contains two leaf sections, with exceptions, aborts and skips; the latter is false in general (C83_told_in_other_section), and nesting too (C21_abort_after_unfinished_section, C54). C83_nested_calm, C83_nested_once: conditions on the tests alone under which the section events of all runs are nested."
  },
  {
   "property": "C84",
   "status": "proved",
   "theorems": [
    "Verif.Props.C84_report"
   ],
   "note": ""
  },
  {
   "property": "C85",
   "status": "proved",
   "theorems": [
    "Verif.Props.C85_verbosity",
    "Verif.Props.C85_report"
   ],
   "note": ""
  },
  {
   "property": "C86",
   "status": "partial",
   "theorems": [
    "Verif.Props.C86_ends_partial",
    "Verif.Props.C86_in_turn",
    "Verif.Props.C86_vanishing_section_never_ends",
    "Verif.Props.C86_swapped_sections"
   ],
   "note": "Proved for tests whose executions all reach the same sections (C86_ends_partial; Alike compares the section trees of the executions and nothing else). False otherwise: C86_vanishing_section_never_ends (no amount of executions is enough), C86_swapped_sections."
  },
  {
   "property": "C87",
   "status": "proved",
   "theorems": [
    "Verif.Props.C87_console_texts",
    "Verif.Props.C87_teamcity_texts",
    "Verif.Props.C87_xml_texts",
    "Verif.Props.C87_console",
    "Verif.Props.C87_teamcity",
    "Verif.Props.C87_xml",
    "Verif.Props.C87_refused",
    "Verif.Props.C87_unwritable",
    "Verif.Props.C87_warning_before_document"
   ],
   "note": "For texts that fit in the buffers of the reporters. C87_console, C87_teamcity, C87_xml ask this of the events of the run; C87_console_texts, C87_teamcity_texts, C87_xml_texts only of the texts declared in the program (MayTell). With warnings, an XML report on the standard output is preceded by them, so that the whole is no document (C87_warning_before_document)."
  },
  {
   "property": "C88",
   "status": "partial",
   "theorems": [
    "Verif.Props.C88_tests",
    "Verif.Props.C88_reporters_partial",
    "Verif.Props.C88_tags_partial",
    "Verif.Props.C88_help_partial",
    "Verif.Props.C88_not_in_file",
    "Verif.Props.C88_brackets_doubled"
   ],
   "note": "Proved for lists of tests (C88_tests); for the others, that the list is on the standard output (C88_reporters_partial, C88_tags_partial, C88_help_partial). The code violates the rest: with --out the file stays empty (C88_not_in_file), and tags are listed with doubled brackets (C88_brackets_doubled)."
  },
  {
   "property": "C89",
   "status": "partial",
   "theorems": [
    "Verif.Props.C89_reading",
    "Verif.Props.C89_recognised_partial",
    "Verif.Props.C89_spellings_partial",
    "Verif.Props.C89_output_unknown"
   ],
   "note": "Proved for all options and spellings but one (C89_recognised_partial, C89_spellings_partial, C89_reading). False for --output, which the program does not know: the path is taken as a test filter, no test is run, and the exit status is 0 (C89_output_unknown)."
  },
  {
   "property": "C90",
   "status": "partial",
   "theorems": [
    "Verif.Props.C90_harmless",
    "Verif.Props.C90_nested",
    "Verif.Props.C90_events",
    "Verif.Props.C90_since_entry_partial",
    "Verif.Props.C90_difference",
    "Verif.Props.C90_seconds",
    "Verif.Props.C90_seconds_nested",
    "Verif.Props.C90_teamcity",
    "Verif.Props.C90_teamcity_not_milliseconds",
    "Verif.Props.C90_child_longer"
   ],
   "note": "Everything is proved but two parts, which the code violates. The duration of a section counts only from its last entry (C90_since_entry_partial), so a section executed once per inner section can be told to take less time than one of these (C90_child_longer). The TeamCity reporter tells microseconds (C90_teamcity), where the protocol has milliseconds (C90_teamcity_not_milliseconds)."
  },
  {
   "property": "C91",
   "status": "proved",
   "theorems": [
    "Verif.Props.C91_again",
    "Verif.Props.C91_reordered",
    "Verif.Props.C91_more",
    "Verif.Props.C91_split",
    "Verif.Props.C91_hidden"
   ],
   "note": ""
  },
  {
   "property": "C92",
   "status": "partial",
   "theorems": [
    "Verif.Props.C92_outcome",
    "Verif.Props.C92_same",
    "Verif.Props.C92_lists",
    "Verif.Props.C92_ends_partial"
   ],
   "note": "Proved for runs (C92_outcome, C92_same), for lists of tests (C92_lists), and for any command line but one that asks for the list of tags (C92_ends_partial). For --list-tags it holds under the conditions of C88_tags_partial; it fails with tags only written in short form, where the behaviour is undefined (C49_shorthand_undefined)."
  },
  {
   "property": "C93",
   "status": "proved",
   "theorems": [
    "Verif.Props.C93_console",
    "Verif.Props.C93_teamcity",
    "Verif.Props.C93_xml"
   ],
   "note": ""
  },
  {
   "property": "C94",
   "status": "proved",
   "theorems": [
    "Verif.Props.C94_text",
    "Verif.Props.C94_says",
    "Verif.Props.C94_console",
    "Verif.Props.C94_teamcity",
    "Verif.Props.C94_xml",
    "Verif.Props.C94_measured"
   ],
   "note": ""
  },
  {
   "property": "C95",
   "status": "proved",
   "theorems": [
    "Verif.Props.C95_names",
    "Verif.Props.C95_name",
    "Verif.Props.C95_criteria",
    "Verif.Props.C95_program",
    "Verif.Props.C95_set",
    "Verif.Props.C95_rerun",
    "Verif.Props.C95_same_name"
   ],
   "note": ""
  },
  {
   "property": "C96",
   "status": "partial",
   "theorems": [
    "Verif.Props.C96_same_run",
    "Verif.Props.C96_same_program",
    "Verif.Props.C96_meaning_partial",
    "Verif.Props.C96_executions_partial",
    "Verif.Props.C96_program_partial",
    "Verif.Props.C96_lost",
    "Verif.Props.C96_lost_program",
    "Verif.Props.C96_lost_unless_followed"
   ],
   "note": "Proved for all try blocks in which nothing is thrown: the run and the program are the same as without the block (C96_same_run, C96_same_program), hence each leaf section is executed once (C96_executions_partial, C96_meaning_partial, C96_program_partial). The second part of the claim is false of the code: sections behind a throwing one whose exception is handled are never executed and the test passes (C96_lost, for all contents; C96_lost_program, exit status 0; C96_lost_unless_followed)."
  },
  {
   "property": "C97",
   "status": "proved",
   "theorems": [
    "Verif.Props.C97_test",
    "Verif.Props.C97_tidy",
    "Verif.Props.C97_program",
    "Verif.Props.C97_place",
    "Verif.Props.C97_limit"
   ],
   "note": "C97_test and C97_program hold for all tests, tidy or not, provided that the run of the new test ends (C97_tidy: it does for tests written as documented within the limits). C97_place and C97_limit show that the exceptions named in the claim are real: the place shown with a failure may change, and a check added inside an operand at the deepest level of sections aborts the program."
  },
  {
   "property": "C98",
   "status": "proved",
   "theorems": [
    "Verif.Props.C98_sum",
    "Verif.Props.C98_all",
    "Verif.Props.C98_verdict",
    "Verif.Props.C98_program",
    "Verif.Props.C98_skip",
    "Verif.Props.C98_own_exception",
    "Verif.Props.C98_should_fail"
   ],
   "note": ""
  },
  {
   "property": "C99",
   "status": "proved",
   "theorems": [
    "Verif.Props.C99_test",
    "Verif.Props.C99_tidy",
    "Verif.Props.C99_program",
    "Verif.Props.C99_limit",
    "Verif.Props.C99_place"
   ],
   "note": ""
  },
  {
   "property": "C100",
   "status": "proved",
   "theorems": [
    "Verif.Props.C100_verdict",
    "Verif.Props.C100_told",
    "Verif.Props.C100_sound",
    "Verif.Props.C100_program",
    "Verif.Props.C100_destructor"
   ],
   "note": ""
  },
  {
   "property": "C101",
   "status": "proved",
   "theorems": [
    "Verif.Props.C101_sum",
    "Verif.Props.C101_all",
    "Verif.Props.C101_verdict",
    "Verif.Props.C101_wrap",
    "Verif.Props.C101_program",
    "Verif.Props.C101_limit",
    "Verif.Props.C101_skip"
   ],
   "note": ""
  },
  {
   "property": "C102",
   "status": "proved",
   "theorems": [
    "Verif.Props.C102_verdict",
    "Verif.Props.C102_all",
    "Verif.Props.C102_program",
    "Verif.Props.C102_skip",
    "Verif.Props.C102_between"
   ],
   "note": ""
  },
  {
   "property": "C103",
   "status": "proved",
   "theorems": [
    "Verif.Props.C103_test",
    "Verif.Props.C103_program",
    "Verif.Props.C103_place",
    "Verif.Props.C103_none"
   ],
   "note": ""
  },
  {
   "property": "C104",
   "status": "proved",
   "theorems": [
    "Verif.Props.C104_verdict",
    "Verif.Props.C104_all",
    "Verif.Props.C104_program",
    "Verif.Props.C104_skip",
    "Verif.Props.C104_first"
   ],
   "note": ""
  }
 ]
}