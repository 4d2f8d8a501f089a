{
 "claims": [
  {
   "property": "C01",
   "status": "proved",
   "theorems": [
    "Verif.Base64.C01_encode_is_standard_base64"
   ],
   "note": "for every byte sequence, against the RFC 4648 bit-stream specification"
  },
  {
   "property": "C02",
   "status": "proved",
   "theorems": [
    "Verif.Base64.C02_encode_safe"
   ],
   "note": "every write goes through a bounds-checked put; the result is .ok with the stated length"
  },
  {
   "property": "C03",
   "status": "proved",
   "theorems": [
    "Verif.Base64.C03_encode_with_newlines",
    "Verif.Base64.C03_payload",
    "Verif.Base64.C03_line_limit_violated",
    "Verif.Base64.C03_trailing_newline",
    "Verif.Base64.C03_trailing_nul"
   ],
   "note": "exact output; the documented 72 character line limit is violated (witness)"
  },
  {
   "property": "C04",
   "status": "proved",
   "theorems": [
    "Verif.Base64.C04_roundtrip_exact",
    "Verif.Base64.C04_roundtrip_fails",
    "Verif.Base64.C04_written"
   ],
   "note": "the unrestricted round trip is false (witness); the exact set of round-tripping inputs is proved"
  },
  {
   "property": "C05",
   "status": "proved",
   "theorems": [
    "Verif.Base64.C05_decode_exact",
    "Verif.Base64.C05_written",
    "Verif.Base64.C05_every_text"
   ],
   "note": ""
  },
  {
   "property": "C06",
   "status": "proved",
   "theorems": [
    "Verif.Base64.C06_isBase64_exact",
    "Verif.Base64.C06_not_number_of_bytes"
   ],
   "note": "the returned number is the number of digits, never the number of decoded bytes the documentation promises"
  },
  {
   "property": "C07",
   "status": "proved",
   "theorems": [
    "Verif.Base64.C07_decode_fits"
   ],
   "note": ""
  },
  {
   "property": "C08",
   "status": "proved",
   "theorems": [
    "Verif.Base64.C08_white_space_insensitive"
   ],
   "note": ""
  },
  {
   "property": "C09",
   "status": "proved",
   "theorems": [
    "Verif.Base64.C09_ignored_as_if_absent",
    "Verif.Base64.C09_invalid_rejected"
   ],
   "note": ""
  },
  {
   "property": "C10",
   "status": "proved",
   "theorems": [
    "Verif.Base64.C10_encode_injective"
   ],
   "note": ""
  },
  {
   "property": "C11",
   "status": "proved",
   "theorems": [
    "Verif.Base64.C11_ub_iff",
    "Verif.Base64.C11_defined_on_7bit"
   ],
   "note": ""
  },
  {
   "property": "C19",
   "status": "proved",
   "theorems": [
    "Verif.Path.C19_append",
    "Verif.Path.C19_trimmed_unique",
    "Verif.Path.C19_absolute_stays"
   ],
   "note": ""
  },
  {
   "property": "C20",
   "status": "proved",
   "theorems": [
    "Verif.Path.C20_directory_tail",
    "Verif.Path.C20_recompose",
    "Verif.Path.C20_root_directory"
   ],
   "note": "the root directory is reported as \".\" (documented as all but the last component)"
  },
  {
   "property": "C21",
   "status": "proved",
   "theorems": [
    "Verif.Path.C21_extension",
    "Verif.Path.C21_extension_chars"
   ],
   "note": ""
  },
  {
   "property": "C22",
   "status": "proved",
   "theorems": [
    "Verif.Path.C22_search_first"
   ],
   "note": "the file system is a parameter"
  },
  {
   "property": "C23",
   "status": "proved",
   "theorems": [
    "Verif.Path.C23_search_nothing",
    "Verif.Path.C23_documented_false",
    "Verif.Path.C23_result_is_file_iff"
   ],
   "note": "the documented behaviour is false (witness); the exact result is proved"
  },
  {
   "property": "C24",
   "status": "proved",
   "theorems": [
    "Verif.Path.C24_colon_list",
    "Verif.Path.C24_join_split"
   ],
   "note": ""
  },
  {
   "property": "C54",
   "status": "proved",
   "theorems": [
    "Verif.Path.C54_append_assoc"
   ],
   "note": ""
  },
  {
   "property": "C55",
   "status": "proved",
   "theorems": [
    "Verif.Path.C55_tail_append",
    "Verif.Path.C55_directory_append"
   ],
   "note": ""
  },
  {
   "property": "C25",
   "status": "proved",
   "theorems": [
    "Verif.Measurement.C25_escape_exact",
    "Verif.Measurement.C25_escape_invertible",
    "Verif.Measurement.C25_escape_injective",
    "Verif.Measurement.C25_printed"
   ],
   "note": ""
  },
  {
   "property": "C27",
   "status": "proved",
   "theorems": [
    "Verif.Measurement.C27_integer_roundtrip",
    "Verif.Measurement.C27_decimal_unique",
    "Verif.Measurement.C27_boolean_roundtrip"
   ],
   "note": ""
  },
  {
   "property": "C28",
   "status": "proved",
   "theorems": [
    "Verif.Measurement.C28_long_truncated",
    "Verif.Measurement.C28_long_lost"
   ],
   "note": "false in the code (witness); the exact recorded value is proved"
  },
  {
   "property": "C29",
   "status": "proved",
   "theorems": [
    "Verif.Measurement.C29_documented_formula",
    "Verif.Measurement.C29_close_accepted",
    "Verif.Measurement.C29_close_accepted_float",
    "Verif.Measurement.C29_accepted_close",
    "Verif.Measurement.C29_integer",
    "Verif.Measurement.C29_integer_ub",
    "Verif.Measurement.C29_symmetric",
    "Verif.Measurement.C29_reflexive",
    "Verif.Measurement.C29_sign_of_tolerance",
    "Verif.Measurement.C29_monotone",
    "Verif.Measurement.C29_not_transitive"
   ],
   "note": "for every pair of monotone rounding functions; tolerances are finite"
  },
  {
   "property": "C30",
   "status": "proved",
   "theorems": [
    "Verif.Measurement.C30_last_setting_wins",
    "Verif.Measurement.C30_zero_tolerance_exact"
   ],
   "note": ""
  },
  {
   "property": "C31",
   "status": "proved",
   "theorems": [
    "Verif.Measurement.C31_raw_data_read",
    "Verif.Measurement.C31_content_read"
   ],
   "note": ""
  },
  {
   "property": "C32",
   "status": "proved",
   "theorems": [
    "Verif.Measurement.C32_base64_data_read",
    "Verif.Measurement.C32_base64_never_reads_back"
   ],
   "note": "false in the code for every non-empty data; the exact outcome is proved"
  },
  {
   "property": "C33",
   "status": "proved",
   "theorems": [
    "Verif.Measurement.C33_data_equal",
    "Verif.Measurement.C33_file_data_equal",
    "Verif.Measurement.C33_file_file_equal",
    "Verif.Measurement.C33_image_not_self_equal"
   ],
   "note": ""
  },
  {
   "property": "C34",
   "status": "proved",
   "theorems": [
    "Verif.Measurement.C34_nearest_handler",
    "Verif.Measurement.C34_compare_handlers"
   ],
   "note": ""
  },
  {
   "property": "C56",
   "status": "proved",
   "theorems": [
    "Verif.Measurement.C56_raw_data_not_printed",
    "Verif.Measurement.C56_copy_drops_data"
   ],
   "note": "negative result"
  },
  {
   "property": "C57",
   "status": "proved",
   "theorems": [
    "Verif.Measurement.C57_base64_compare_ub"
   ],
   "note": "negative result"
  },
  {
   "property": "C58",
   "status": "proved",
   "theorems": [
    "Verif.Measurement.C58_factory"
   ],
   "note": ""
  },
  {
   "property": "C59",
   "status": "proved",
   "theorems": [
    "Verif.Measurement.C59_tolerance_only_numbers",
    "Verif.Measurement.C59_tolerant_by_value"
   ],
   "note": ""
  },
  {
   "property": "C35",
   "status": "proved",
   "theorems": [
    "Verif.Regression.C35_options_removed",
    "Verif.Regression.C35_remaining_is_suffix"
   ],
   "note": ""
  },
  {
   "property": "C36",
   "status": "proved",
   "theorems": [
    "Verif.Regression.C35_options_removed",
    "Verif.Regression.C36_expected_value",
    "Verif.Regression.C36_refused_throws"
   ],
   "note": ""
  },
  {
   "property": "C37",
   "status": "proved",
   "theorems": [
    "Verif.Regression.C37_endless_iff",
    "Verif.Regression.C37_endless"
   ],
   "note": "false in the code; exactly the non-terminating argument lists are characterised"
  },
  {
   "property": "C38",
   "status": "proved",
   "theorems": [
    "Verif.Regression.C39_main_value",
    "Verif.Regression.C38_record_value",
    "Verif.Regression.C38_exception_value",
    "Verif.Regression.C38_expectation_missed",
    "Verif.Regression.C38_refused_option",
    "Verif.Regression.C38_missing_baseline_accepted"
   ],
   "note": ""
  },
  {
   "property": "C39",
   "status": "proved",
   "theorems": [
    "Verif.Regression.C39_positional_count",
    "Verif.Regression.C39_main_value",
    "Verif.Regression.C39_measured",
    "Verif.Regression.C39_measured_unique"
   ],
   "note": ""
  },
  {
   "property": "C40",
   "status": "proved",
   "theorems": [
    "Verif.Regression.C40_leftovers_ignored",
    "Verif.Regression.C40_nothing_measured_passes"
   ],
   "note": "negative result"
  },
  {
   "property": "C46",
   "status": "proved",
   "theorems": [
    "Verif.Regression.C46_runs_not_independent",
    "Verif.Regression.C46_counts_add",
    "Verif.Regression.C46_options_stay",
    "Verif.Regression.C46_expectation_stays",
    "Verif.Regression.C46_failed_once_failed_for_ever",
    "Verif.Regression.C46_exception_counts",
    "Verif.Regression.C39_main_value"
   ],
   "note": "independence is false in the code (witnesses); exactly what carries over is proved, for every history of calls"
  },
  {
   "property": "C60",
   "status": "proved",
   "theorems": [
    "Verif.Regression.C60_comparison_output"
   ],
   "note": ""
  },
  {
   "property": "C61",
   "status": "proved",
   "theorems": [
    "Verif.Regression.C61_call_result"
   ],
   "note": ""
  },
  {
   "property": "C62",
   "status": "proved",
   "theorems": [
    "Verif.Regression.C62_exit_status",
    "Verif.Regression.C62_256_failures_pass"
   ],
   "note": "false in the code (witness)"
  },
  {
   "property": "C63",
   "status": "proved",
   "theorems": [
    "Verif.Regression.C63_search_path_hides_file",
    "Verif.Itk.C107_baseline_file"
   ],
   "note": "negative result; `C107_baseline_file` says which file is opened"
  },
  {
   "property": "C64",
   "status": "proved",
   "theorems": [
    "Verif.Parallel.C64_file_kept",
    "Verif.Parallel.C64_same_file_fails",
    "Verif.Regression.C64_output_overwrites_baseline"
   ],
   "note": "the last two are the exception; files are identified by their names"
  },
  {
   "property": "C65",
   "status": "proved",
   "theorems": [
    "Verif.Regression.C65_every_image_fails",
    "Verif.Regression.C65_images_never_agree"
   ],
   "note": "negative result"
  },
  {
   "property": "C47",
   "status": "proved",
   "theorems": [
    "Verif.Itk.C47_count",
    "Verif.Itk.C47_count_interior",
    "Verif.Itk.C47_count_boundary"
   ],
   "note": "neighbours outside the test image are not considered; with the ignore-boundary flag only interior pixels count"
  },
  {
   "property": "C48",
   "status": "proved",
   "theorems": [
    "Verif.Itk.C48_schedule_independent"
   ],
   "note": "the count; for the total see C70"
  },
  {
   "property": "C49",
   "status": "proved",
   "theorems": [
    "Verif.Itk.C49_monotone",
    "Verif.Itk.C49_count_monotone",
    "Verif.Itk.C49_identical",
    "Verif.Itk.C49_zero_tolerance"
   ],
   "note": ""
  },
  {
   "property": "C50",
   "status": "proved",
   "theorems": [
    "Verif.Itk.C50_passes_iff",
    "Verif.Itk.C50_tolerance_doubled",
    "Verif.Itk.C50_compare_image",
    "Verif.Itk.C50_run_passes_iff"
   ],
   "note": "false in the code as documented (witness); the exact condition is proved"
  },
  {
   "property": "C51",
   "status": "proved",
   "theorems": [
    "Verif.Itk.C51_sizes_differ",
    "Verif.Itk.C51_unreadable"
   ],
   "note": ""
  },
  {
   "property": "C53",
   "status": "proved",
   "theorems": [
    "Verif.Pipe.C53_captures",
    "Verif.Pipe.C53_recorded",
    "Verif.Pipe.C53_compared",
    "Verif.Pipe.C53_no_argv"
   ],
   "note": ""
  },
  {
   "property": "C66",
   "status": "proved",
   "theorems": [
    "Verif.Pipe.C66_quiet_command",
    "Verif.Pipe.C66_not_standard_output",
    "Verif.Pipe.C66_schedule_dependent"
   ],
   "note": "negative result"
  },
  {
   "property": "C67",
   "status": "proved",
   "theorems": [
    "Verif.Itk.C67_undefined_pixels_count_as_equal",
    "Verif.Itk.C67_nan_passes"
   ],
   "note": "exact condition for radius 0 and exact arithmetic; with a radius and rounding: C50"
  },
  {
   "property": "C68",
   "status": "proved",
   "theorems": [
    "Verif.Itk.C68_origin_ignored",
    "Verif.Itk.C68_spacing_compared"
   ],
   "note": "false in the code for the origin; true for the spacing"
  },
  {
   "property": "C69",
   "status": "proved",
   "theorems": [
    "Verif.Itk.C69_region_ignored",
    "Verif.Itk.Any.C69_outside_counts"
   ],
   "note": "negative result"
  },
  {
   "property": "C70",
   "status": "proved",
   "theorems": [
    "Verif.Itk.C70_exact_sum_independent",
    "Verif.Itk.C70_rounded_sum_depends"
   ],
   "note": ""
  },
  {
   "property": "C52",
   "status": "proved",
   "theorems": [
    "Verif.Itk.C52_name",
    "Verif.Itk.C52_names_distinct",
    "Verif.Itk.C52_last_components_distinct",
    "Verif.Itk.C52_slash_in_extension",
    "Verif.Itk.C52_names_repeat"
   ],
   "note": "true up to 2^32 names for one root, or for extensions without slash"
  },
  {
   "property": "C71",
   "status": "proved",
   "theorems": [
    "Verif.Itk.C71_argument_boundaries_lost",
    "Verif.Itk.C71_hash_collides",
    "Verif.Itk.C71_format"
   ],
   "note": "negative result"
  },
  {
   "property": "C72",
   "status": "proved",
   "theorems": [
    "Verif.Itk.C72_integers",
    "Verif.Itk.C72_doubles",
    "Verif.Itk.C72_matrix",
    "Verif.Itk.C72_region",
    "Verif.Itk.C72_names_distinct"
   ],
   "note": ""
  },
  {
   "property": "C73",
   "status": "proved",
   "theorems": [
    "Verif.Itk.C73_images_measured",
    "Verif.Itk.C73_bad_arguments"
   ],
   "note": ""
  },
  {
   "property": "C74",
   "status": "proved",
   "theorems": [
    "Verif.Itk.C74_difference_not_in_output",
    "Verif.Itk.C74_output_empty"
   ],
   "note": "negative result"
  },
  {
   "property": "C75",
   "status": "proved",
   "theorems": [
    "Verif.Itk.C75_unreadable_image_ends_test",
    "Verif.Itk.C75_last_measurement",
    "Verif.Itk.C75_main"
   ],
   "note": "negative result"
  },
  {
   "property": "C26",
   "status": "proved",
   "theorems": [
    "Verif.Xml.C26_reads_back",
    "Verif.Xml.C26_special_names_lost",
    "Verif.Xml.C26_entities_decoded",
    "Verif.Xml.C26_rest_lost",
    "Verif.Xml.C26_line_ends"
   ],
   "note": "for every XML parser that parses the small grammar correctly and, for C26_special_names_lost, reports only start tags that are in the text (both shown satisfiable); printable ASCII text"
  },
  {
   "property": "C41",
   "status": "proved",
   "theorems": [
    "Verif.Xml.C41_record_lines",
    "Verif.Xml.C41_recorded_document",
    "Verif.Regression.C39_measured"
   ],
   "note": ""
  },
  {
   "property": "C42",
   "status": "proved",
   "theorems": [
    "Verif.Xml.C42_chunks_are_the_file"
   ],
   "note": ""
  },
  {
   "property": "C43",
   "status": "proved",
   "theorems": [
    "Verif.Xml.C43_text_splits",
    "Verif.Xml.C43_reading"
   ],
   "note": ""
  },
  {
   "property": "C44",
   "status": "proved",
   "theorems": [
    "Verif.Xml.C44_agrees_with_itself",
    "Verif.Xml.C44_record_then_compare",
    "Verif.Xml.C44_texts_and_numbers",
    "Verif.Xml.C44_line_ends",
    "Verif.Xml.C44_least_integer"
   ],
   "note": "with the exceptions proved: line ends of another system, the least integer compared with tolerance"
  },
  {
   "property": "C45",
   "status": "proved",
   "theorems": [
    "Verif.Xml.C45_changes_counted",
    "Verif.Xml.C45_passes_iff"
   ],
   "note": "the exact number of failures; a shorter run passes"
  },
  {
   "property": "C76",
   "status": "proved",
   "theorems": [
    "Verif.Xml.C76_exactly",
    "Verif.Xml.C76_host_name_hyphens"
   ],
   "note": "exact characterization; printable host names without `>`"
  },
  {
   "property": "C77",
   "status": "proved",
   "theorems": [
    "Verif.Xml.C77_missing_type_is_ub"
   ],
   "note": "negative result"
  },
  {
   "property": "C78",
   "status": "proved",
   "theorems": [
    "Verif.Xml.C78_child_of_measurement",
    "Verif.Xml.C78_text_before_child"
   ],
   "note": "negative result"
  },
  {
   "property": "C79",
   "status": "proved",
   "theorems": [
    "Verif.Xml.C79_unknown_ignored"
   ],
   "note": ""
  },
  {
   "property": "C12",
   "status": "proved",
   "theorems": [
    "Verif.Diff.C12_patch"
   ],
   "note": "fewer than 715 million lines"
  },
  {
   "property": "C13",
   "status": "proved",
   "theorems": [
    "Verif.Diff.C13_empty_iff_equal"
   ],
   "note": ""
  },
  {
   "property": "C14",
   "status": "proved",
   "theorems": [
    "Verif.Diff.C14_ordered"
   ],
   "note": ""
  },
  {
   "property": "C15",
   "status": "proved",
   "theorems": [
    "Verif.Diff.C15_total",
    "Verif.Diff.C15_ends",
    "Verif.Diff.C15_reads_outside",
    "Verif.Diff.C15_one_line"
   ],
   "note": "without a harmful clash of hashes (characterised exactly in C17); the reads outside the arrays of line numbers are characterised exactly"
  },
  {
   "property": "C16",
   "status": "proved",
   "theorems": [
    "Verif.Diff.C16_not_minimal",
    "Verif.Diff.C16_cost",
    "Verif.Diff.C16_common_lines",
    "Verif.Diff.C16_block",
    "Verif.Diff.C16_lower",
    "Verif.Diff.C16_minimal",
    "Verif.Diff.C16_one_edit"
   ],
   "note": "false in the code (witness); the bounds that hold are proved, and minimality where the texts differ in one block of lines"
  },
  {
   "property": "C17",
   "status": "proved",
   "theorems": [
    "Verif.Diff.C17_numbers",
    "Verif.Diff.C17_ub_iff",
    "Verif.Diff.C17_diff_ub_iff",
    "Verif.Diff.C17_clash_ub",
    "Verif.Diff.C17_clash_harmless",
    "Verif.Diff.C17_short_lines"
   ],
   "note": "the condition for undefined behaviour is exact"
  },
  {
   "property": "C18",
   "status": "proved",
   "theorems": [
    "Verif.Diff.C18_lines"
   ],
   "note": ""
  },
  {
   "property": "C80",
   "status": "proved",
   "theorems": [
    "Verif.Diff.C80_report_rebuilds",
    "Verif.Diff.C80_report_determines",
    "Verif.Diff.C80_nul_hidden"
   ],
   "note": ""
  },
  {
   "property": "C81",
   "status": "proved",
   "theorems": [
    "Verif.Measurement.C81_compressed_data_dropped"
   ],
   "note": "negative: exact behaviour with every compression attribute"
  },
  {
   "property": "C82",
   "status": "proved",
   "theorems": [
    "Verif.Measurement.C82_second_read",
    "Verif.Measurement.C82_own_data"
   ],
   "note": "negative: exact content of the block returned by the second read"
  },
  {
   "property": "C83",
   "status": "proved",
   "theorems": [
    "Verif.Xml.C83_reading",
    "Verif.Xml.C83_every_document"
   ],
   "note": "for every XML parser that parses the small grammar correctly (shown satisfiable)"
  },
  {
   "property": "C84",
   "status": "proved",
   "theorems": [
    "Verif.Decimal.C84_determined",
    "Verif.Decimal.C84_zero",
    "Verif.Decimal.C84_text",
    "Verif.Decimal.C84_exact",
    "Verif.Decimal.C84_integers",
    "Verif.Decimal.C84_short_decimals"
   ],
   "note": "the C++ standard's operator<< with correct rounding (glibc) is modelled"
  },
  {
   "property": "C85",
   "status": "proved",
   "theorems": [
    "Verif.Decimal.C85_compared_by_text",
    "Verif.Decimal.C85_far_values_differ",
    "Verif.Decimal.C85_text_of_value",
    "Verif.Decimal.C85_interval",
    "Verif.Decimal.C85_collisions",
    "Verif.Decimal.C85_negative_zero"
   ],
   "note": "with the exceptions proved: collisions, negative zero"
  },
  {
   "property": "C86",
   "status": "proved",
   "theorems": [
    "Verif.Decimal.C86_text",
    "Verif.Decimal.C86_as_zero",
    "Verif.Decimal.C86_as_zero_float"
   ],
   "note": "negative result"
  },
  {
   "property": "C87",
   "status": "proved",
   "theorems": [
    "Verif.Decimal.C87_read_back",
    "Verif.Decimal.C87_exact",
    "Verif.Decimal.C87_not_exact"
   ],
   "note": ""
  },
  {
   "property": "C88",
   "status": "proved",
   "theorems": [
    "Verif.Decimal.C88_double",
    "Verif.Decimal.C88_float"
   ],
   "note": "IEEE 754 arithmetic, round to nearest even"
  },
  {
   "property": "C89",
   "status": "proved",
   "theorems": [
    "Verif.Whole.C89_record_and_compare",
    "Verif.Whole.C89_passes"
   ],
   "note": "all parts composed; plain texts of the same name must have no harmful clash of hashes (C17)"
  },
  {
   "property": "C90",
   "status": "proved",
   "theorems": [
    "Verif.Path.C90_join",
    "Verif.Path.C90_after_chdir",
    "Verif.Path.C90_split",
    "Verif.Path.C90_search"
   ],
   "note": "for every file system (any nodes, links, mounts, permissions); splitting fails for a slash and a name (C20)"
  },
  {
   "property": "C91",
   "status": "proved",
   "theorems": [
    "Verif.Path.C91_return",
    "Verif.Path.C91_result",
    "Verif.Path.C91_deep"
   ],
   "note": "holds for names of at most 1023 bytes; otherwise uninitialised memory is read, and this is reachable"
  },
  {
   "property": "C92",
   "status": "proved",
   "theorems": [
    "Verif.Path.C92_search_directory",
    "Verif.Path.C92_contains_itself"
   ],
   "note": "the list also has the directory itself"
  },
  {
   "property": "C93",
   "status": "proved",
   "theorems": [
    "Verif.Itk.C93_text",
    "Verif.Itk.C93_same_text",
    "Verif.Itk.C93_uninitialised",
    "Verif.Itk.C93_defined_iff"
   ],
   "note": "iterations must come after a start, fewer than 2^31 between starts"
  },
  {
   "property": "C94",
   "status": "proved",
   "theorems": [
    "Verif.Regression.C94_told_what_the_command_line_says",
    "Verif.Regression.C94_told_what_was_set",
    "Verif.Regression.C94_calls_keep_settings",
    "Verif.Regression.C94_names_have_no_effect",
    "Verif.Regression.C94_naming_a_baseline_while_recording"
   ],
   "note": "no effect of names: for tests that do not ask for them with the Get functions; the last is the negative part"
  },
  {
   "property": "C95",
   "status": "proved",
   "theorems": [
    "Verif.Itk.C95_report"
   ],
   "note": "images read from files start at index 0; the texts ITK prints for sizes, vectors and regions are parameters"
  },
  {
   "property": "C96",
   "status": "proved",
   "theorems": [
    "Verif.Xml.C96_killed_recording",
    "Verif.Xml.C96_truncated_never_read",
    "Verif.Xml.C96_killed_never_read",
    "Verif.Xml.C96_cut_in_content_aborts",
    "Verif.Xml.C96_truncated_baseline_fails",
    "Verif.Xml.C96_interrupted_then_compared"
   ],
   "note": "expat is assumed to reject cut documents (RejectsTruncated, RejectsUnfinished); measurements with clean names and printable content; every line is flushed (std::endl)"
  },
  {
   "property": "C97",
   "status": "proved",
   "theorems": [
    "Verif.Numbers.C97_unambiguous",
    "Verif.Numbers.C97_integer",
    "Verif.Numbers.C97_boolean",
    "Verif.Numbers.C97_double",
    "Verif.Numbers.C97_float",
    "Verif.Numbers.C97_expected",
    "Verif.Numbers.C97_unsigned",
    "Verif.Numbers.C97_intensity",
    "Verif.Numbers.C97_unsigned_text",
    "Verif.Numbers.C97_pixels_minus_one",
    "Verif.Numbers.C97_intensity_sign"
   ],
   "note": "extraction as in libstdc++ (C++11), \"C\" locale, IEEE 754"
  },
  {
   "property": "C98",
   "status": "proved",
   "theorems": [
    "Verif.Life.C98_lifetimes",
    "Verif.Life.C98_nothing_lost",
    "Verif.Life.C98_destructor",
    "Verif.Life.C98_exception_in_comparison",
    "Verif.Life.C98_rejected_baseline",
    "Verif.Life.C98_interrupted_recording",
    "Verif.Life.C98_rest_of_baseline",
    "Verif.Life.C98_streams_left_open",
    "Verif.Life.C98_reopened_output",
    "Verif.Life.C98_reopened_input"
   ],
   "note": "measurements of the baseline and file streams; that nothing is lost holds only without exceptions, the losses with exceptions are proved"
  },
  {
   "property": "C99",
   "status": "proved",
   "theorems": [
    "Verif.Life.C99_valid_iff",
    "Verif.Life.C99_own_block",
    "Verif.Life.C99_lost_iff",
    "Verif.Life.C99_pointer_stays",
    "Verif.Life.C99_pointer_ends",
    "Verif.Life.C99_pointer_ends_transfer",
    "Verif.Life.C99_same_values"
   ],
   "note": "malloc does not fail; memory of std::string is not modelled; reading a file succeeds once it is open"
  },
  {
   "property": "C100",
   "status": "proved",
   "theorems": [
    "Verif.Xml.C100_same_reader",
    "Verif.Xml.C100_messages",
    "Verif.Xml.C100_silent",
    "Verif.Xml.C100_dropped_silently",
    "Verif.Xml.C100_parse_error",
    "Verif.Xml.C100_recorded"
   ],
   "note": "for every XML parser that parses the small grammar correctly; the text of line number and reason in a parse error are parameters"
  },
  {
   "property": "C101",
   "status": "proved",
   "theorems": [
    "Verif.Regression.C101_same_parser",
    "Verif.Regression.C101_messages",
    "Verif.Regression.C101_every_command_line",
    "Verif.Regression.C101_output_lost"
   ],
   "note": ""
  },
  {
   "property": "C102",
   "status": "proved",
   "theorems": [
    "Verif.Measurement.C102_same_answers",
    "Verif.Measurement.C102_read",
    "Verif.Measurement.C102_read_silent",
    "Verif.Measurement.C102_silence_is_right",
    "Verif.Measurement.C102_compression_ignored",
    "Verif.Measurement.C102_set",
    "Verif.Measurement.C102_compare_silent",
    "Verif.Measurement.C102_files"
   ],
   "note": "the arguments of memcmp are evaluated from right to left"
  },
  {
   "property": "C103",
   "status": "proved",
   "theorems": [
    "Verif.Itk.C103_own_files",
    "Verif.Itk.C103_one_character",
    "Verif.Itk.C103_record_and_compare_files",
    "Verif.Itk.C103_record_and_compare",
    "Verif.Itk.C103_same_directory",
    "Verif.Itk.C103_same_arguments",
    "Verif.Itk.C103_same_arguments_pass"
   ],
   "note": "what ITK writes for an image and reads from a file are parameters, the image coming back as it was written; up to 2^32 images; `C103_same_arguments` is the negative part"
  },
  {
   "property": "C104",
   "status": "proved",
   "theorems": [
    "Verif.Itk.Any.C104_result",
    "Verif.Itk.Any.C104_defined",
    "Verif.Itk.Any.C104_schedule_independent",
    "Verif.Itk.Any.C104_compare",
    "Verif.Itk.Any.C104_sizes_differ",
    "Verif.Itk.Any.C104_scalar",
    "Verif.Itk.Any.C104_vector_euclidean",
    "Verif.Itk.Any.C104_vector_nan",
    "Verif.Itk.Any.C104_vector_components",
    "Verif.Itk.Any.C104_complex"
   ],
   "note": "ITK itself is not modelled; the total magnitude (a sum of rounded square roots) depends on the schedule, see C70"
  },
  {
   "property": "C105",
   "status": "proved",
   "theorems": [
    "Verif.Itk.Any.C105_byte"
   ],
   "note": "radius 0; differences of unsigned char are exact in double, squares too"
  },
  {
   "property": "C106",
   "status": "proved",
   "theorems": [
    "Verif.Itk.Any.C106_exact",
    "Verif.Itk.Any.C106_within",
    "Verif.Itk.Any.C106_tolerated",
    "Verif.Itk.Any.C106_found",
    "Verif.Itk.Any.C106_zero",
    "Verif.Itk.Any.C106_zero_exact",
    "Verif.Itk.Any.C106_huge",
    "Verif.Itk.Any.C106_special"
   ],
   "note": "rounding to nearest; the square root is used only for the total magnitude; `C106_zero` has the negative part"
  },
  {
   "property": "C107",
   "status": "proved",
   "theorems": [
    "Verif.Itk.C107_one_place",
    "Verif.Itk.C107_baseline_file",
    "Verif.Itk.C107_relative_baseline",
    "Verif.Itk.C107_kept_in_data_directory",
    "Verif.Itk.C107_image_not_in_data_directory",
    "Verif.Itk.C107_not_beside_the_test"
   ],
   "note": "what ITK writes for an image and reads from a file are parameters; the last two are the negative part"
  },
  {
   "property": "C108",
   "status": "proved",
   "theorems": [
    "Verif.Itk.Any.C108_result",
    "Verif.Itk.Any.C108_same_iff",
    "Verif.Itk.Any.C108_region",
    "Verif.Itk.Any.C108_run_and_static"
   ],
   "note": "pixel types whose differences can always be converted to the output type; for unsigned char see C105"
  },
  {
   "property": "C109",
   "status": "proved",
   "theorems": [
    "Verif.Itk.Any.C109_total",
    "Verif.Itk.Any.C109_exact",
    "Verif.Itk.Any.C109_whole",
    "Verif.Itk.Any.C109_mean",
    "Verif.Itk.Any.C109_infinite",
    "Verif.Itk.Any.C109_distances",
    "Verif.Itk.Any.C109_fresh",
    "Verif.Itk.Any.C109_threads"
   ],
   "note": "the pipeline of ITK (whether a run is necessary at all) is not modelled; `C109_threads` is the negative part"
  },
  {
   "property": "C110",
   "status": "proved",
   "theorems": [
    "Verif.Itk.C110_compare",
    "Verif.Itk.C110_one_finding",
    "Verif.Itk.C110_passes",
    "Verif.Itk.C110_no_entries",
    "Verif.Itk.C110_bad_arguments",
    "Verif.Itk.C110_record",
    "Verif.Itk.C110_record_and_compare",
    "Verif.Itk.C110_expected",
    "Verif.Itk.C110_no_baseline",
    "Verif.Itk.C110_bad_arguments_expected"
   ],
   "note": "`C110_no_entries`, `C110_expected`, `C110_no_baseline` and `C110_bad_arguments_expected` are the negative parts; the PNG files written for a failed comparison are not modelled"
  },
  {
   "property": "C111",
   "status": "proved",
   "theorems": [
    "Verif.Itk.Any.C111_model",
    "Verif.Itk.C111_differs",
    "Verif.Itk.C111_whole_numbers",
    "Verif.Itk.C111_alike",
    "Verif.Itk.C111_runs",
    "Verif.Itk.C111_program"
   ],
   "note": "rounding to nearest; images without infinities and tolerances below 2^512 for the equivalence of the two models of double; readers are parameters"
  },
  {
   "property": "C112",
   "status": "proved",
   "theorems": [
    "Verif.Xml.C112_handler",
    "Verif.Xml.C112_same_main",
    "Verif.Xml.C112_refused",
    "Verif.Xml.C112_output",
    "Verif.Xml.C112_input",
    "Verif.Xml.C112_parse_error",
    "Verif.Xml.C112_test"
   ],
   "note": "single inheritance; what the test itself writes, and what comparisons write about data (C102), is not kept; command lines that end in an option without a value never end (C37)"
  },
  {
   "property": "C113",
   "status": "proved",
   "theorems": [
    "Verif.Itk.C113_rows",
    "Verif.Itk.C113_test1",
    "Verif.Itk.C113_test2",
    "Verif.Itk.C113_filter",
    "Verif.Itk.C113_filter_fails",
    "Verif.Itk.C113_test3",
    "Verif.Itk.C113_noise",
    "Verif.Itk.C113_test4",
    "Verif.Itk.C113_test4_usage"
   ],
   "note": "`C113_test1` is a negative result about the test; ITK readers, writers and the random source are parameters, the pixels of the files being of the types the tests read; the baseline is given by an absolute name; files that are written are different from the baseline and the recorded image"
  },
  {
   "property": "C114",
   "status": "proved",
   "theorems": [
    "Verif.Whole.C114_compounds",
    "Verif.Whole.C114_regions",
    "Verif.Whole.C114_wraps",
    "Verif.Whole.C114_repo_region",
    "Verif.Whole.C114_repo_region_fails"
   ],
   "note": "`C114_wraps` is a finding: sizes n and n + 2^32 are not told apart; dimensions and names must be the same in the two runs (C89 covers the rest through the list of measurements); what ImageFileReader finds out about a file is a parameter; numbers of points and matrices are converted to double exactly"
  },
  {
   "property": "C115",
   "status": "proved",
   "theorems": [
    "Verif.Pipe.C115_record_and_compare",
    "Verif.Pipe.C115_passes",
    "Verif.Pipe.C115_standard_output",
    "Verif.Pipe.C115_from_standard_output",
    "Verif.Pipe.C115_injection"
   ],
   "note": "ends with two negative results: a successful command passes a test that expects a failure whatever it writes, and arguments can inject measurements; printable output; sizes within the int arithmetic of the diff"
  },
  {
   "property": "C116",
   "status": "proved",
   "theorems": [
    "Verif.Parallel.C116_any_schedule",
    "Verif.Parallel.C116_result",
    "Verif.Parallel.C116_all",
    "Verif.Parallel.C116_alone",
    "Verif.Parallel.C116_images",
    "Verif.Parallel.C116_race"
   ],
   "note": "files are identified by names; a measurement call is one step; two runs writing one file: C124"
  },
  {
   "property": "C117",
   "status": "proved",
   "theorems": [
    "Verif.Parallel.C117_full_disk",
    "Verif.Parallel.C117_incomplete_never_passes",
    "Verif.Parallel.C117_any_run"
   ],
   "note": "the first half is a finding: the stream is never checked; the output is a file given with -O (not standard output); `C117_any_run` is about comparing runs too; what does not fit is lost for good, as with a stream in error state; the second half is under the assumption on the XML parser of C96 (it rejects truncated documents), which the reference parser is proved to meet"
  },
  {
   "property": "C118",
   "status": "proved",
   "theorems": [
    "Verif.Parallel.C118_verdict",
    "Verif.Parallel.C118_main"
   ],
   "note": "output files are not among the files that are read; interference happens between steps (a measurement call is one step); files are identified by names"
  },
  {
   "property": "C119",
   "status": "proved",
   "theorems": [
    "Verif.Stderr.C119_same_run",
    "Verif.Stderr.C119_run",
    "Verif.Stderr.C119_not_called",
    "Verif.Stderr.C119_recording",
    "Verif.Stderr.C119_unmatched",
    "Verif.Stderr.C119_call",
    "Verif.Stderr.C119_recorded",
    "Verif.Stderr.C119_compared",
    "Verif.Stderr.C119_differences"
   ],
   "note": "arguments of memcmp are evaluated from right to left (as in C102); what is said about images is a parameter here, see C120; the terminate and unexpected handlers are not modelled"
  },
  {
   "property": "C120",
   "status": "proved",
   "theorems": [
    "Verif.Stderr.C120_same_text",
    "Verif.Stderr.C120_baseline_unreadable",
    "Verif.Stderr.C120_test_unreadable",
    "Verif.Stderr.C120_readable",
    "Verif.Stderr.C120_run"
   ],
   "note": "descriptions of exceptions of ITK and the outcome of rescaling and writing are parameters; a file of which only the header can be read is not modelled"
  },
  {
   "property": "C121",
   "status": "proved",
   "theorems": [
    "Verif.Stderr.C121_same_pipe",
    "Verif.Stderr.C121_same_image",
    "Verif.Stderr.C121_pipe",
    "Verif.Stderr.C121_pipe_run",
    "Verif.Stderr.C121_image_fine",
    "Verif.Stderr.C121_image_wrong",
    "Verif.Stderr.C121_image_cases",
    "Verif.Stderr.C121_image_usage",
    "Verif.Stderr.C121_image_run"
   ],
   "note": "`C121_image_usage` is a finding: no arguments are not a failure; the process library and the reading of numbers are parameters"
  },
  {
   "property": "C122",
   "status": "proved",
   "theorems": [
    "Verif.Path.C122_predicates",
    "Verif.Path.C122_consistent",
    "Verif.Path.C122_trailing_slash",
    "Verif.Path.C122_nul",
    "Verif.Path.C122_set_current_directory",
    "Verif.Path.C122_same_model"
   ],
   "note": "nothing changes between the two questions `IsReadable` and `IsWritable` ask the system; the branches for WIN32 are not modelled"
  },
  {
   "property": "C123",
   "status": "proved",
   "theorems": [
    "Verif.Whole.C123_arguments"
   ],
   "note": "the comparing object has a number as tolerance, otherwise the one of a new object; the document is compared without being changed (C116 for the other case)"
  },
  {
   "property": "C124",
   "status": "proved",
   "theorems": [
    "Verif.Parallel.C124_shared_output",
    "Verif.Parallel.C124_same_length",
    "Verif.Parallel.C124_same_document",
    "Verif.Parallel.C124_same_measurements",
    "Verif.Parallel.C124_overwritten",
    "Verif.Parallel.C124_unreadable"
   ],
   "note": "the last two are findings: recordings destroy each other and no run notices. Tests that do other things with files are left out; a stream writes its buffer in any pieces, each where its last one ended, as write(2) on a file opened without O_APPEND; two runs that open the file write to the same file, not to one each"
  },
  {
   "property": "C125",
   "status": "proved",
   "theorems": [
    "Verif.Regression.C125_array",
    "Verif.Regression.C125_array_refused",
    "Verif.Regression.C125_permutation",
    "Verif.Regression.C125_second_run_reversed",
    "Verif.Regression.C125_second_run_without_options",
    "Verif.Regression.C125_second_run_compares_nothing",
    "Verif.Regression.C125_same_parser"
   ],
   "note": "tests that leave their arguments alone; the last two theorems on the second run are findings"
  },
  {
   "property": "C126",
   "status": "proved",
   "theorems": [
    "Verif.Life.C126_lifetimes",
    "Verif.Life.C126_nothing_lost",
    "Verif.Life.C126_quiet_call",
    "Verif.Life.C126_bound",
    "Verif.Life.C126_for_good",
    "Verif.Life.C126_not_begun",
    "Verif.Life.C126_own_end",
    "Verif.Life.C126_rejected_baseline",
    "Verif.Life.C126_comparison_fails",
    "Verif.Life.C126_difference_fails",
    "Verif.Life.C126_image_exception"
   ],
   "note": "the losses are findings; memory does not run out, so that comparing values ends only by undefined behaviour (C126_comparison_fails)"
  },
  {
   "property": "C127",
   "status": "proved",
   "theorems": [
    "Verif.Stderr.C127_any_order",
    "Verif.Stderr.C127_overruled",
    "Verif.Stderr.C127_paths_order"
   ],
   "note": "`C127_paths_order` is a negative result; refused options: C38_missing_baseline_accepted"
  },
  {
   "property": "C128",
   "status": "proved",
   "theorems": [
    "Verif.Whole.C128_two_modes",
    "Verif.Whole.C128_test3",
    "Verif.Whole.C128_test3_tolerant"
   ],
   "note": "`C128_test3_tolerant` is a negative result; plain texts of the same name must have no harmful clash of hashes (see C17)"
  },
  {
   "property": "C129",
   "status": "proved",
   "theorems": [
    "Verif.Whole.C129_tolerances",
    "Verif.Whole.C129_test2"
   ],
   "note": "tolerances from 0 to 1; plain texts of the same name must have no harmful clash of hashes (see C17)"
  },
  {
   "property": "C130",
   "status": "proved",
   "theorems": [
    "Verif.Whole.C130_files",
    "Verif.Whole.C130_test4",
    "Verif.Whole.C130_outputTest2"
   ],
   "note": "the comparing run writes to standard output; without the subclass itk::Regression (C103 for its images)"
  },
  {
   "property": "C131",
   "status": "proved",
   "theorems": [
    "Verif.Whole.C131_nothing_recorded",
    "Verif.Whole.C131_own_tests",
    "Verif.Whole.C131_outputTest1"
   ],
   "note": "the comparing run writes to standard output"
  },
  {
   "property": "C132",
   "status": "proved",
   "theorems": [
    "Verif.Whole.C132_mixed",
    "Verif.Whole.C132_own_recording"
   ],
   "note": "numbers are held to tolerances between the two bounds of C89; differing texts must be patchable (C15), the recorded file name being what a text is compared with in the report; the comparing run writes to standard output"
  },
  {
   "property": "C133",
   "status": "proved",
   "theorems": [
    "Verif.Whole.C133_what_counts"
   ],
   "note": "numbers and differing texts as in C132; the recording is made by the test without the calls at the end; baseline names are looked up in the state of the files during the run (the test does not change files)"
  },
  {
   "property": "C134",
   "status": "proved",
   "theorems": [
    "Verif.Whole.C134_named_inside"
   ],
   "note": "the output file must be new or writable; a file that is opened for output exists afterwards, empty (the model of C41), and this is the state in which the baseline is looked up"
  },
  {
   "property": "C135",
   "status": "proved",
   "theorems": [
    "Verif.Regression.C135_options_are_setters"
   ],
   "note": "accepted options only: refused ones end the run, and -O values that cannot be written are ignored (C101); the -R number is what strtol reads (C36)"
  }
 ]
}