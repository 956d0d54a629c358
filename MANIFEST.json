{
 "claims": [
  {
   "property": "C01",
   "status": "proved",
   "theorems": [
    "Rtcg.C01_channel_kind",
    "Rtcg.C01_outcome",
    "Rtcg.C01_variant",
    "Rtcg.C01_type_kind",
    "Rtcg.C01_domain",
    "Rtcg.C01_named"
   ],
   "note": ""
  },
  {
   "property": "C02",
   "status": "proved",
   "theorems": [
    "Rtcg.C02_channel_roundtrip"
   ],
   "note": ""
  },
  {
   "property": "C03",
   "status": "proved",
   "theorems": [
    "Rtcg.C03_channel_acceptance",
    "Rtcg.C03_event_acceptance"
   ],
   "note": ""
  },
  {
   "property": "C04",
   "status": "proved",
   "theorems": [
    "Rtcg.C04_int_roundtrip",
    "Rtcg.C04_int_parse"
   ],
   "note": ""
  },
  {
   "property": "C05",
   "status": "proved",
   "theorems": [
    "Rtcg.C05_value_parse",
    "Rtcg.C05_no_error"
   ],
   "note": ""
  },
  {
   "property": "C06",
   "status": "proved",
   "theorems": [
    "Rtcg.C06_value_roundtrip",
    "Rtcg.C06_absent_value"
   ],
   "note": ""
  },
  {
   "property": "C07",
   "status": "proved",
   "theorems": [
    "Rtcg.C07_event_roundtrip",
    "Rtcg.C07_marshal_total",
    "Rtcg.C07_read_events",
    "Rtcg.C07_empty_name_witness"
   ],
   "note": ""
  },
  {
   "property": "C08",
   "status": "partial",
   "theorems": [
    "Rtcg.C08_receiver_independence_false",
    "Rtcg.C08_receiver_independence_partial"
   ],
   "note": "False of the code: a text without value field leaves the receiver's old value. Refuted by witness; partial theorem gives the exact dependence."
  },
  {
   "property": "C09",
   "status": "proved",
   "theorems": [
    "Rtcg.C09_channel_equals",
    "Rtcg.C09_value_equals",
    "Rtcg.C09_event_equals",
    "Rtcg.C09_isPrefixOf",
    "Rtcg.C09_trace_equals"
   ],
   "note": ""
  },
  {
   "property": "C10",
   "status": "proved",
   "theorems": [
    "Rtcg.C10_type_print",
    "Rtcg.C10_type_print_error",
    "Rtcg.C10_type_parse",
    "Rtcg.C10_type_roundtrip"
   ],
   "note": ""
  },
  {
   "property": "C11",
   "status": "proved",
   "theorems": [
    "Rtcg.C11_unify_lub",
    "Rtcg.C11_unify_error",
    "Rtcg.C11_unify_comm",
    "Rtcg.C11_unify_assoc",
    "Rtcg.C11_unify_idem",
    "Rtcg.C11_unify_order"
   ],
   "note": ""
  },
  {
   "property": "C12",
   "status": "proved",
   "theorems": [
    "Rtcg.C12_written_file_reads_back",
    "Rtcg.C12_canonical_writer",
    "Rtcg.C12_colon_needed"
   ],
   "note": ""
  },
  {
   "property": "C13",
   "status": "proved",
   "theorems": [
    "Rtcg.C13_comment_line",
    "Rtcg.C13_blank_line",
    "Rtcg.C13_no_quotes",
    "Rtcg.C13_only_empty_lines_are_blank"
   ],
   "note": ""
  },
  {
   "property": "C14",
   "status": "proved",
   "theorems": [
    "Rtcg.C14_ok_iff",
    "Rtcg.C14_grammar",
    "Rtcg.C14_row_shape",
    "Rtcg.C14_total",
    "Rtcg.C14_error_iff",
    "Rtcg.C14_errors"
   ],
   "note": ""
  },
  {
   "property": "C15",
   "status": "proved",
   "theorems": [
    "Rtcg.C15_names_distinct"
   ],
   "note": ""
  },
  {
   "property": "C16",
   "status": "proved",
   "theorems": [
    "Rtcg.C16_first_free",
    "Rtcg.C16_stable"
   ],
   "note": ""
  },
  {
   "property": "C17",
   "status": "proved",
   "theorems": [
    "Rtcg.C17_expand_shape",
    "Rtcg.C17_expand_nodes"
   ],
   "note": ""
  },
  {
   "property": "C18",
   "status": "proved",
   "theorems": [
    "Rtcg.C18_expansion_valid",
    "Rtcg.C18_expanded_suite_valid"
   ],
   "note": ""
  },
  {
   "property": "C19",
   "status": "proved",
   "theorems": [
    "Rtcg.C19_collapse_expand",
    "Rtcg.C19_collapseAll_expandAll"
   ],
   "note": ""
  },
  {
   "property": "C20",
   "status": "partial",
   "theorems": [
    "Rtcg.C20_fuzz_roundtrip_iff_unnamed_partial",
    "Rtcg.C20_named_trace_loses_name"
   ],
   "note": "False of the code for named traces: Collapse does not restore Name. The partial theorem shows the round trip holds iff every trace read is unnamed; a witness refutes the unconditional claim."
  },
  {
   "property": "C21",
   "status": "partial",
   "theorems": [
    "Rtcg.C21_collapse_ok_iff",
    "Rtcg.C21_collapse_total",
    "Rtcg.C21_collapse_inverse_partial",
    "Rtcg.C21_collapse_accepts_more"
   ],
   "note": "False of the code: Collapse also accepts trees that no forbidden trace expands to (witness). C21_collapse_ok_iff characterises acceptance exactly; the partial theorem gives the inverse under the missing shape condition."
  },
  {
   "property": "C22",
   "status": "proved",
   "theorems": [
    "Rtcg.C22_walk_preorder",
    "Rtcg.C22_order_unique"
   ],
   "note": ""
  },
  {
   "property": "C23",
   "status": "proved",
   "theorems": [
    "Rtcg.C23_markAll"
   ],
   "note": ""
  },
  {
   "property": "C24",
   "status": "proved",
   "theorems": [
    "Rtcg.C24_full_iff",
    "Rtcg.C24_full_rejects"
   ],
   "note": ""
  },
  {
   "property": "C25",
   "status": "proved",
   "theorems": [
    "Rtcg.C25_fullSuite_iff",
    "Rtcg.C25_order"
   ],
   "note": ""
  },
  {
   "property": "C26",
   "status": "partial",
   "theorems": [
    "Rtcg.C26_no_crash_partial",
    "Rtcg.C26_null_test_crashes"
   ],
   "note": "False of the code: a null test in a suite is a nil pointer and makes validation panic (witness). The partial theorem covers every suite without null tests."
  },
  {
   "property": "C27",
   "status": "proved",
   "theorems": [
    "Rtcg.C27_build_total"
   ],
   "note": ""
  },
  {
   "property": "C28",
   "status": "proved",
   "theorems": [
    "Rtcg.C28_states",
    "Rtcg.C28_keeps_ids"
   ],
   "note": ""
  },
  {
   "property": "C29",
   "status": "proved",
   "theorems": [
    "Rtcg.C29_state_ids",
    "Rtcg.C29_id_form",
    "Rtcg.C29_expand_noIds",
    "Rtcg.C29_caller_ids_can_clash"
   ],
   "note": ""
  },
  {
   "property": "C30",
   "status": "proved",
   "theorems": [
    "Rtcg.C30_targets",
    "Rtcg.C30_closed",
    "Rtcg.C30_entered_once"
   ],
   "note": ""
  },
  {
   "property": "C31",
   "status": "proved",
   "theorems": [
    "Rtcg.C31_transitions"
   ],
   "note": ""
  },
  {
   "property": "C32",
   "status": "proved",
   "theorems": [
    "Rtcg.C32_verdicts"
   ],
   "note": ""
  },
  {
   "property": "C33",
   "status": "proved",
   "theorems": [
    "Rtcg.C33_tests"
   ],
   "note": ""
  },
  {
   "property": "C34",
   "status": "proved",
   "theorems": [
    "Rtcg.C34_value_types",
    "Rtcg.C34_types"
   ],
   "note": ""
  },
  {
   "property": "C35",
   "status": "proved",
   "theorems": [
    "Rtcg.C35_no_history"
   ],
   "note": ""
  },
  {
   "property": "C36",
   "status": "proved",
   "theorems": [
    "Rtcg.C36_success",
    "Rtcg.C36_result",
    "Rtcg.C36_order",
    "Rtcg.C36_inner_order",
    "Rtcg.C36_validated"
   ],
   "note": ""
  },
  {
   "property": "C37",
   "status": "proved",
   "theorems": [
    "Rtcg.C37_grouping",
    "Rtcg.C37_unique"
   ],
   "note": ""
  },
  {
   "property": "C38",
   "status": "proved",
   "theorems": [
    "Rtcg.C38_aggregates",
    "Rtcg.C38_complete"
   ],
   "note": ""
  },
  {
   "property": "C39",
   "status": "proved",
   "theorems": [
    "Rtcg.C39_partition",
    "Rtcg.C39_hasIn",
    "Rtcg.C39_firstStateHasIn",
    "Rtcg.C39_inMerged",
    "Rtcg.C39_order"
   ],
   "note": ""
  },
  {
   "property": "C40",
   "status": "proved",
   "theorems": [
    "Rtcg.C40_is",
    "Rtcg.C40_setOf",
    "Rtcg.C40_tests",
    "Rtcg.C40_order",
    "Rtcg.C40_add"
   ],
   "note": ""
  },
  {
   "property": "C41",
   "status": "proved",
   "theorems": [
    "Rtcg.C41_stack",
    "Rtcg.C41_set"
   ],
   "note": ""
  },
  {
   "property": "C42",
   "status": "proved",
   "theorems": [
    "Rtcg.C42_failures",
    "Rtcg.C42_failures_order",
    "Rtcg.C42_spineNodes"
   ],
   "note": ""
  },
  {
   "property": "C43",
   "status": "proved",
   "theorems": [
    "Rtcg.C43_lowerUnderscored",
    "Rtcg.C43_no_upper",
    "Rtcg.C43_idempotent",
    "Rtcg.C43_not_injective"
   ],
   "note": ""
  },
  {
   "property": "C44",
   "status": "proved",
   "theorems": [
    "Rtcg.C44_upcaseFirst",
    "Rtcg.C44_idempotent",
    "Rtcg.C44_confusion"
   ],
   "note": ""
  },
  {
   "property": "C45",
   "status": "proved",
   "theorems": [
    "Rtcg.C45_names_distinct",
    "Rtcg.C45_case_clash"
   ],
   "note": ""
  },
  {
   "property": "C46",
   "status": "proved",
   "theorems": [
    "Rtcg.C46_autofill",
    "Rtcg.C46_defaults",
    "Rtcg.C46_idempotent"
   ],
   "note": ""
  },
  {
   "property": "C47",
   "status": "proved",
   "theorems": [
    "Rtcg.C47_expand",
    "Rtcg.C47_replaced_unique",
    "Rtcg.C47_none_left",
    "Rtcg.C47_name_can_complete",
    "Rtcg.C47_default_package",
    "Rtcg.C47_for_test"
   ],
   "note": ""
  },
  {
   "property": "C48",
   "status": "proved",
   "theorems": [
    "Rtcg.C48_process",
    "Rtcg.C48_order"
   ],
   "note": ""
  },
  {
   "property": "C49",
   "status": "proved",
   "theorems": [
    "Rtcg.C49_targets_inside",
    "Rtcg.C49_outside_untouched",
    "Rtcg.C49_needs_plain_names"
   ],
   "note": ""
  },
  {
   "property": "C50",
   "status": "partial",
   "theorems": [
    "Rtcg.C50_succeeds_from_empty_partial",
    "Rtcg.C50_false"
   ],
   "note": "False of the code: convert.h is always written to src/convert, which is made only when conversion code is copied (witness C50_false). The partial theorem says exactly when generation from an empty output succeeds, for every processing order."
  },
  {
   "property": "C51",
   "status": "proved",
   "theorems": [
    "Rtcg.C51_distinct_files",
    "Rtcg.C51_needs_distinct_variants"
   ],
   "note": ""
  },
  {
   "property": "C52",
   "status": "partial",
   "theorems": [
    "Rtcg.C52_dot_refused",
    "Rtcg.C52_clean_below_partial",
    "Rtcg.C52_when_removed",
    "Rtcg.C52_false"
   ],
   "note": "False of the code: only spellings of '.' are refused; '..', the absolute path of the working directory and '/' are not (witness C52_false). C52_when_removed is the exact condition; the partial theorem covers output paths below the working directory."
  },
  {
   "property": "C53",
   "status": "proved",
   "theorems": [
    "Rtcg.C53_parseFileArgument",
    "Rtcg.C53_genArgs",
    "Rtcg.C53_zero_panics"
   ],
   "note": ""
  },
  {
   "property": "C54",
   "status": "proved",
   "theorems": [
    "Rtcg.C54_suite_survives",
    "Rtcg.C54_writing_total",
    "Rtcg.C54_empty_channel_lost"
   ],
   "note": ""
  },
  {
   "property": "C55",
   "status": "proved",
   "theorems": [
    "Rtcg.C55_machines_survive",
    "Rtcg.C55_built_machines"
   ],
   "note": ""
  },
  {
   "property": "C56",
   "status": "partial",
   "theorems": [
    "Rtcg.C56_writes_iff_partial",
    "Rtcg.C56_errors",
    "Rtcg.C56_output",
    "Rtcg.C56_false"
   ],
   "note": "False of the code (C56_false): an event without a value makes rtcg-make-stms fail when writing, because omitempty does not apply to structs. Proved: it writes exactly when types are consistent and every event has a value, with the exact error otherwise, and the output reads back as the machines built."
  },
  {
   "property": "C57",
   "status": "proved",
   "theorems": [
    "Rtcg.C57_pipeline"
   ],
   "note": ""
  },
  {
   "property": "C58",
   "status": "proved",
   "theorems": [
    "Rtcg.Harness.C58_fail_iff",
    "Rtcg.Harness.C58_endings"
   ],
   "note": ""
  },
  {
   "property": "C59",
   "status": "proved",
   "theorems": [
    "Rtcg.Harness.C59_verdict",
    "Rtcg.Harness.C59_verdict_iff",
    "Rtcg.Harness.C59_monotone"
   ],
   "note": ""
  },
  {
   "property": "C60",
   "status": "partial",
   "theorems": [
    "Rtcg.Harness.C60_run",
    "Rtcg.Harness.C60_false",
    "Rtcg.Harness.C60_fail_lost",
    "Rtcg.Harness.C60_late_partial",
    "Rtcg.Harness.C60_fail_final_partial",
    "Rtcg.Harness.C60_trace_fail_final_partial"
   ],
   "note": "False of the code: entry functions assign the status unconditionally, so an expected event delivered after the end sets the test running again (C60_false), even losing a FAIL in merged trees (C60_fail_lost). The partial theorems say exactly which late callbacks can change the status and that FAIL is final for single traces. C60_run covers drivers that deliver nothing after the end."
  },
  {
   "property": "C61",
   "status": "proved",
   "theorems": [
    "Rtcg.Harness.C61_exit_codes",
    "Rtcg.Harness.C61_status"
   ],
   "note": ""
  },
  {
   "property": "C62",
   "status": "partial",
   "theorems": [
    "Rtcg.Harness.C62_sent_partial",
    "Rtcg.Harness.C62_unstarted",
    "Rtcg.Harness.C62_waiting",
    "Rtcg.Harness.C62_false",
    "Rtcg.Harness.C62_animate"
   ],
   "note": "False for some schedules (C62_false): an acknowledgement before the start delay makes the test skip its first input. C62_unstarted gives what is sent then; the partial theorem covers all other schedules; C62_animate is the full claim for the animate driver, which does not let that happen."
  },
  {
   "property": "C63",
   "status": "proved",
   "theorems": [
    "Rtcg.Harness.C63_inside",
    "Rtcg.Harness.C63_run"
   ],
   "note": ""
  },
  {
   "property": "C64",
   "status": "proved",
   "theorems": [
    "Rtcg.C64_rebuild"
   ],
   "note": ""
  },
  {
   "property": "C65",
   "status": "partial",
   "theorems": [
    "Rtcg.C65_inputs_kept_partial",
    "Rtcg.C65_false"
   ],
   "note": "False of the code: with the configuration directory as output directory the conversion code is truncated (witness C65_false). The partial theorem covers conversion code outside the output directory."
  },
  {
   "property": "C66",
   "status": "proved",
   "theorems": [
    "Rtcg.C66_contents"
   ],
   "note": ""
  },
  {
   "property": "C67",
   "status": "proved",
   "theorems": [
    "Rtcg.C67_regenerate"
   ],
   "note": ""
  },
  {
   "property": "C68",
   "status": "proved",
   "theorems": [
    "Rtcg.Harness.C68_no_false_alarms"
   ],
   "note": ""
  },
  {
   "property": "C69",
   "status": "proved",
   "theorems": [
    "Rtcg.Harness.C69_no_misses",
    "Rtcg.Harness.C69_fail_iff",
    "Rtcg.Harness.C69_needs_deterministic"
   ],
   "note": "The determinism condition is needed (C69_needs_deterministic); validation does not check it."
  },
  {
   "property": "C70",
   "status": "proved",
   "theorems": [
    "Rtcg.Harness.C70_verdicts",
    "Rtcg.Harness.C70_unique"
   ],
   "note": ""
  },
  {
   "property": "C71",
   "status": "proved",
   "theorems": [
    "Rtcg.Harness.C71_inputs"
   ],
   "note": ""
  },
  {
   "property": "C72",
   "status": "proved",
   "theorems": [
    "Rtcg.C72_end_to_end"
   ],
   "note": ""
  },
  {
   "property": "C73",
   "status": "proved",
   "theorems": [
    "Rtcg.C73_make_stms",
    "Rtcg.C73_built",
    "Rtcg.C73_fails_iff",
    "Rtcg.C73_templates_succeed",
    "Rtcg.C73_generation",
    "Rtcg.C73_needs_made"
   ],
   "note": ""
  },
  {
   "property": "C74",
   "status": "proved",
   "theorems": [
    "Rtcg.C74_declared"
   ],
   "note": ""
  },
  {
   "property": "C75",
   "status": "partial",
   "theorems": [
    "Rtcg.C75_members_partial",
    "Rtcg.C75_false"
   ],
   "note": "False of the code (C75_false): a channel called 'timeout' declares timeoutCallback twice. The partial theorem is the exact condition for distinct members, in terms of channel names."
  },
  {
   "property": "C76",
   "status": "partial",
   "theorems": [
    "Rtcg.C76_verdict_members_partial",
    "Rtcg.C76_false"
   ],
   "note": "False of the code (C76_false): a test called 'dump' collides with the member function dump. The partial theorem is the exact condition on test names."
  },
  {
   "property": "C77",
   "status": "partial",
   "theorems": [
    "Rtcg.C77_convert_names_partial",
    "Rtcg.C77_false"
   ],
   "note": "False of the code (C77_false): channels 'a' and 'A' declare the same conversion functions. The partial theorem is the exact condition for ASCII names."
  },
  {
   "property": "C78",
   "status": "partial",
   "theorems": [
    "Rtcg.C78_locals_partial",
    "Rtcg.C78_topics_partial",
    "Rtcg.C78_false"
   ],
   "note": "False of the code (C78_false): 'aB' and 'a_b' share a topic and a variable. The partial theorems are the exact conditions."
  },
  {
   "property": "C79",
   "status": "partial",
   "theorems": [
    "Rtcg.C79_values_partial",
    "Rtcg.C79_named",
    "Rtcg.C79_false"
   ],
   "note": "False of the code (C79_false): integers are 64-bit in tests and 32-bit in C++. The partial theorem gives the type of every channel exactly, and exactly which values fit."
  },
  {
   "property": "C80",
   "status": "partial",
   "theorems": [
    "Rtcg.C80_literal_partial",
    "Rtcg.C80_false"
   ],
   "note": "False of the code (C80_false): quotes and backslashes in enumeration values are not escaped, and -2^63 is no C++ integer literal. The partial theorem is the exact condition, for any set of escape sequences longer than what they stand for."
  },
  {
   "property": "C81",
   "status": "partial",
   "theorems": [
    "Rtcg.C81_makefile_partial",
    "Rtcg.C81_targets_distinct",
    "Rtcg.C81_names_safe",
    "Rtcg.C81_false"
   ],
   "note": "False of the code for test names with blanks, colons and the like (C81_false), which traces files may give. The partial theorem covers all names free of characters special to make or the shell; C81_names_safe shows that synthesised names and safe given names are among them."
  },
  {
   "property": "C82",
   "status": "partial",
   "theorems": [
    "Rtcg.C82_makefile",
    "Rtcg.C82_sources_partial",
    "Rtcg.C82_from_empty",
    "Rtcg.C82_false"
   ],
   "note": "False of the code (C82_false): CMakeLists.txt always names convert.cpp and main.cpp always includes convert.h, also without conversions. C82_makefile holds always; the partial theorem covers configurations that need conversions, which by C82_from_empty is every successful generation from an empty place without a test called convert."
  },
  {
   "property": "C83",
   "status": "partial",
   "theorems": [
    "Rtcg.C83_package_names",
    "Rtcg.C83_default",
    "Rtcg.C83_targets_partial",
    "Rtcg.C83_false"
   ],
   "note": "Package names are distinct exactly when the configured name has the placeholder (C83_package_names). Targets are not: every package defines the libraries convert and rtcg (C83_false); the partial theorem is the exact condition."
  },
  {
   "property": "C84",
   "status": "proved",
   "theorems": [
    "Rtcg.C84_read_traces",
    "Rtcg.C84_make_stms",
    "Rtcg.C84_gen"
   ],
   "note": ""
  },
  {
   "property": "C85",
   "status": "proved",
   "theorems": [
    "Rtcg.C85_written_is_json",
    "Rtcg.C85_read_back",
    "Rtcg.C85_refused",
    "Rtcg.C85_programs"
   ],
   "note": ""
  },
  {
   "property": "C86",
   "status": "partial",
   "theorems": [
    "Rtcg.C86_accepts_partial",
    "Rtcg.C86_json_accepted",
    "Rtcg.C86_unambiguous",
    "Rtcg.C86_empty",
    "Rtcg.C86_false"
   ],
   "note": "False of the code (C86_false): anything may follow the value, and texts nested deeper than 10000 are refused. The partial theorem is the exact condition for all values but numbers, which no program expects at the top."
  },
  {
   "property": "C87",
   "status": "partial",
   "theorems": [
    "Rtcg.C87_written_iff_partial",
    "Rtcg.C87_false"
   ],
   "note": "False of the code (C87_false): a good traces file with 4997 events before the forbidden one is refused by encoding/json's limit on nesting. The partial theorem is the exact condition."
  },
  {
   "property": "C88",
   "status": "partial",
   "theorems": [
    "Rtcg.C88_failure_keeps_partial",
    "Rtcg.C88_false"
   ],
   "note": "False of the code (C88_false): -clean removes the output before the configuration is looked at. The partial theorem covers all other cases."
  },
  {
   "property": "C89",
   "status": "proved",
   "theorems": [
    "Rtcg.C89_directory"
   ],
   "note": ""
  },
  {
   "property": "C90",
   "status": "partial",
   "theorems": [
    "Rtcg.C90_stdin",
    "Rtcg.C90_gen_partial",
    "Rtcg.C90_false"
   ],
   "note": "True of rtcg-read-traces and rtcg-make-stms (C90_stdin); rtcg-gen cleans the path first, so that a path like ./- means standard input too (C90_false). C90_gen_partial is the exact condition."
  },
  {
   "property": "C91",
   "status": "partial",
   "theorems": [
    "Rtcg.C91_usage",
    "Rtcg.C91_refused",
    "Rtcg.C91_exit_partial",
    "Rtcg.C91_false",
    "Rtcg.C91_end_to_end",
    "Rtcg.C91_succeeds"
   ],
   "note": "False of the code for a first argument that asks for help (C91_false). The partial theorem covers first arguments that do not start with a dash; C91_refused covers all."
  },
  {
   "property": "C92",
   "status": "proved",
   "theorems": [
    "Rtcg.C92_flags"
   ],
   "note": ""
  },
  {
   "property": "C93",
   "status": "proved",
   "theorems": [
    "Rtcg.C93_reads",
    "Rtcg.C93_unique",
    "Rtcg.C93_fails",
    "Rtcg.C93_load"
   ],
   "note": "Model of encoding/xml (Go 1.20, strict decoder) proved equal to a grammar after XML 1.0; only the tables of non-ASCII name characters are a parameter."
  },
  {
   "property": "C94",
   "status": "proved",
   "theorems": [
    "Rtcg.C94_changes",
    "Rtcg.C94_comments",
    "Rtcg.C94_outside"
   ],
   "note": "Change relations in Spec/Config.lean. A misspelt element is ignored without an error (example)."
  },
  {
   "property": "C95",
   "status": "proved",
   "theorems": [
    "Rtcg.C95_expressible"
   ],
   "note": ""
  },
  {
   "property": "C96",
   "status": "proved",
   "theorems": [
    "Rtcg.C96_document",
    "Rtcg.C96_faithful"
   ],
   "note": ""
  },
  {
   "property": "C97",
   "status": "proved",
   "theorems": [
    "Rtcg.C97_generated"
   ],
   "note": ""
  },
  {
   "property": "C98",
   "status": "partial",
   "theorems": [
    "Rtcg.C98_cmake_partial",
    "Rtcg.C98_what_it_names",
    "Rtcg.C98_names",
    "Rtcg.C98_generated_partial",
    "Rtcg.C98_false"
   ],
   "note": "Proved for package names and dependencies made of letters, digits, _ . + - (dependencies not beginning with a capital letter), which is what catkin allows; C98_false shows test names for which CMake refuses the file. Commands that catkin and CMake define are taken at their documented meaning (Spec/CMake.lean)."
  },
  {
   "property": "C99",
   "status": "partial",
   "theorems": [
    "Rtcg.C99_declared_partial",
    "Rtcg.C99_false"
   ],
   "note": "The converse half is proved; the claim holds exactly if the configured package depends on roscpp and std_msgs, and C99_false shows that with no package configured it fails."
  },
  {
   "property": "C100",
   "status": "partial",
   "theorems": [
    "Rtcg.C100_read_traces",
    "Rtcg.C100_make_stms_partial",
    "Rtcg.C100_gen_partial",
    "Rtcg.C100_script",
    "Rtcg.C100_false_make_stms",
    "Rtcg.C100_false_gen",
    "Rtcg.C100_script_exit"
   ],
   "note": "False of the code: a test that is null makes rtcg-make-stms panic (C100_false_make_stms), a machine that is null makes rtcg-gen panic (C100_false_gen). The partial theorems show that these are the only causes; C100_read_traces and C100_script hold in full."
  },
  {
   "property": "C101",
   "status": "proved",
   "theorems": [
    "Rtcg.C101_node",
    "Rtcg.C101_suite",
    "Rtcg.C101_stm_suite"
   ],
   "note": "Field names match as in encoding/json: any case, with the long s and the Kelvin sign."
  },
  {
   "property": "C102",
   "status": "proved",
   "theorems": [
    "Rtcg.C102_main_cpp"
   ],
   "note": "The templates are copied verbatim into Model/TemplateFiles.lean (tools/templates.py --check compares them with /repo); the model of text/template covers the syntax they use."
  },
  {
   "property": "C103",
   "status": "proved",
   "theorems": [
    "Rtcg.C103_convert_h"
   ],
   "note": "As C102."
  },
  {
   "property": "C104",
   "status": "proved",
   "theorems": [
    "Rtcg.C104_failures",
    "Rtcg.C104_build_files"
   ],
   "note": ""
  },
  {
   "property": "C105",
   "status": "proved",
   "theorems": [
    "Rtcg.C105_generated"
   ],
   "note": "For test names that are plain path components and configurations with distinct variants."
  },
  {
   "property": "C106",
   "status": "proved",
   "theorems": [
    "Rtcg.C106_is_cpp",
    "Rtcg.C106_needs_values"
   ],
   "note": "Lexer and grammar in Spec/CppLex.lean, Spec/CppSyntax.lean (the part of C++ that the templates use; the preprocessor is not modelled). C106_needs_values shows that an event without a value gives a text that is not C++."
  },
  {
   "property": "C107",
   "status": "proved",
   "theorems": [
    "Rtcg.C107_callback"
   ],
   "note": "Interpreter in Spec/CppRun.lean: values are not typed beforehand, numbers are unbounded, library functions do what the parameter Lib says. This ties the hand-translated Model/Harness.lean to the generated text."
  },
  {
   "property": "C108",
   "status": "proved",
   "theorems": [
    "Rtcg.C108_ros"
   ],
   "note": "As C107. ROS calls callbacks one after the other (ros::spin, one thread)."
  },
  {
   "property": "C109",
   "status": "proved",
   "theorems": [
    "Rtcg.C109_animate"
   ],
   "note": "As C107. What is typed is a list of words."
  },
  {
   "property": "C110",
   "status": "proved",
   "theorems": [
    "Rtcg.C110_ros",
    "Rtcg.C110_animate"
   ],
   "note": "End to end on the texts on disk: script, files, lexer, parser and interpreter. Callbacks come one after the other; the libraries are a parameter (TraceLib says what they must declare)."
  },
  {
   "property": "C111",
   "status": "proved",
   "theorems": [
    "Rtcg.Harness.C111_endings",
    "Rtcg.Harness.C111_determined"
   ],
   "note": "The start delay must be over first if the tree starts with an input. Several look-alike continuations: the way is some way that the callbacks lead; without them it is unique (C111_determined)."
  },
  {
   "property": "C112",
   "status": "proved",
   "theorems": [
    "Rtcg.C112_ros",
    "Rtcg.C112_animate",
    "Rtcg.C112_succeeds"
   ],
   "note": "End to end on the texts on disk, as C110 but for trees of any shape (several tests in one program); TreeNames and TreeLib say what names and libraries must provide."
  },
  {
   "property": "C113",
   "status": "proved",
   "theorems": [
    "Rtcg.C113_read_traces",
    "Rtcg.C113_make_stms",
    "Rtcg.C113_possible",
    "Rtcg.C113_one_test",
    "Rtcg.C113_pipeline",
    "Rtcg.C113_two_texts",
    "Rtcg.C113_two_exit_codes"
   ],
   "note": "The programs are restated as relations that allow every order at every range over a map (Model/Order). C113_two_texts and C113_two_exit_codes show that no more holds: with two tests in a tree there are two possible texts, and a null test beside an invalid one gives exit code 1 or 2 depending on the order."
  },
  {
   "property": "C114",
   "status": "proved",
   "theorems": [
    "Rtcg.C114_success",
    "Rtcg.C114_files",
    "Rtcg.C114_one_test",
    "Rtcg.C114_possible",
    "Rtcg.C114_script",
    "Rtcg.C114_script_possible",
    "Rtcg.C114_two_texts",
    "Rtcg.C114_same_file"
   ],
   "note": "rtcg-gen and rtcg.sh restated as relations that allow every order at every range over a map (Model/Order). PlainRun: plain names, distinct variants, conversion code outside the output directory. C114_two_texts and C114_same_file show that no more holds: with two tests in a machine the text of main.cpp depends on the order, and if two names denote one file the order decides which test it is for. What a failed run leaves may depend on the order."
  },
  {
   "property": "C115",
   "status": "proved",
   "theorems": [
    "Rtcg.C115_convert_h",
    "Rtcg.C115_configured",
    "Rtcg.C115_animate",
    "Rtcg.C115_trees",
    "Rtcg.C115_trees_configured",
    "Rtcg.C115_traces",
    "Rtcg.C115_traces_configured"
   ],
   "note": "Programs are those of the texts on disk, with convert.h as a fourth file. Default conversions of the variant ros (which use members of message types) are read as C++ but not run; with types configured for all channels both variants are covered. Directives (the #define of value and message types) are passed over here; C117 follows them."
  },
  {
   "property": "C116",
   "status": "proved",
   "theorems": [
    "Rtcg.C116_values",
    "Rtcg.C116_events",
    "Rtcg.C116_traces",
    "Rtcg.C116_forbidden",
    "Rtcg.C116_read",
    "Rtcg.C116_nameless",
    "Rtcg.C116_angle",
    "Rtcg.C116_verdicts"
   ],
   "note": "strconv.Quote is modelled from its source; the table of printable characters is a parameter. C116_nameless and C116_angle show that the two exceptions are needed. The descriptions of transitions and states are modelled (Model/Show) but nothing is claimed of them."
  },
  {
   "property": "C117",
   "status": "proved",
   "theorems": [
    "Rtcg.C117_units",
    "Rtcg.C117_again",
    "Rtcg.C117_again_rtcg",
    "Rtcg.C117_program",
    "Rtcg.C117_trees",
    "Rtcg.C117_trees_ros",
    "Rtcg.C117_trees_animate",
    "Rtcg.C117_traces",
    "Rtcg.C117_traces_ros",
    "Rtcg.C117_traces_animate",
    "Rtcg.C117_replaced"
   ],
   "note": "Function-like macros and directives other than #include, #define, #ifndef and #endif are not modelled (the generated texts use no others). Files of libraries, and what the configuration includes, are taken to define no words. The configured types must be types, must not use words that the generated files define, and for ROS must be names of classes; a test must not be called by such a word (it would be replaced; C117_replaced shows that this is needed). C117_again and C117_again_rtcg: the include guards, from any state of the preprocessor in which text is kept."
  },
  {
   "property": "C118",
   "status": "partial",
   "theorems": [
    "Rtcg.C118_typed_partial",
    "Rtcg.C118_trees_partial",
    "Rtcg.C118_traces_partial",
    "Rtcg.C118_false"
   ],
   "note": "False of the code (C118_false): the default conversions of ROS send and take std_msgs::String whatever the channel's type is. C118_typed_partial says exactly when convert.h is right about types: for the animation all channels without a configured type must carry values, for ROS they must carry constants; C118_traces_partial and C118_trees_partial say it of the files on disk in terms of the traces and trees read. The rules for types cover what these functions use: copies (pointers without losing const), conversions of numbers, strings from characters, std_msgs::String and its ConstPtr; whether std_msgs is included is not part of it."
  },
  {
   "property": "C119",
   "status": "proved",
   "theorems": [
    "Rtcg.C119_inverse",
    "Rtcg.C119_trees",
    "Rtcg.C119_traces",
    "Rtcg.C119_zero"
   ],
   "note": "The values of C++ that conversions work with are strings, characters (which end before a zero), numbers (unbounded), std_msgs::String and pointers to it; the functions are run on their syntax trees as read from convert.h (Spec/CppValues), which is apart from the interpreter of C107-C117, where the default conversions of ROS are not run. C119_zero shows that the exception for zero characters is needed. Which types the conversions are right for is C118; that no function is there twice is C115."
  },
  {
   "property": "C120",
   "status": "proved",
   "theorems": [
    "Rtcg.C120_full",
    "Rtcg.C120_unique",
    "Rtcg.C120_suite",
    "Rtcg.C120_collapse"
   ],
   "note": "Proved. The reasons are the sentinel errors of validate/errors.go; the pointers that the messages also print are not modelled."
  },
  {
   "property": "C121",
   "status": "proved",
   "theorems": [
    "Rtcg.C121_per_trace",
    "Rtcg.C121_appended"
   ],
   "note": "Both theorems are about whole runs of the script (traces file to disk). The date is the text layer's, so the same in both runs; convert.h, Makefiles and launch files are about all tests and do change. Hypotheses are those of C91/C110: events have channels and values, no conflicting types, names are plain."
  }
 ]
}