def B(*xs): return ['Verif.Base64.' + x for x in xs]
def P(*xs): return ['Verif.Path.' + x for x in xs]
def M(*xs): return ['Verif.Measurement.' + x for x in xs]
def R(*xs): return ['Verif.Regression.' + x for x in xs]
def I(*xs): return ['Verif.Itk.' + x for x in xs]
def PA(*xs): return ['Verif.Parallel.' + x for x in xs]
def PI(*xs): return ['Verif.Pipe.' + x for x in xs]
def X(*xs): return ['Verif.Xml.' + x for x in xs]
def DE(*n): return ['Verif.Decimal.'+x for x in n]
def D(*xs): return ['Verif.Diff.' + x for x in xs]
def N(*xs): return ['Verif.Numbers.' + x for x in xs]
def W(*xs): return ['Verif.Whole.' + x for x in xs]
def SE(*xs): return ['Verif.Stderr.' + x for x in xs]
def L(*xs): return ['Verif.Life.' + x for x in xs]
CLAIMS = [
 ('C01','proved',B('C01_encode_is_standard_base64'),'for every byte sequence, against the RFC 4648 bit-stream specification'),
 ('C02','proved',B('C02_encode_safe'),'every write goes through a bounds-checked put; the result is .ok with the stated length'),
 ('C03','proved',B('C03_encode_with_newlines','C03_payload','C03_line_limit_violated','C03_trailing_newline','C03_trailing_nul'),'exact output; the documented 72 character line limit is violated (witness)'),
 ('C04','proved',B('C04_roundtrip_exact','C04_roundtrip_fails','C04_written'),'the unrestricted round trip is false (witness); the exact set of round-tripping inputs is proved'),
 ('C05','proved',B('C05_decode_exact','C05_written','C05_every_text'),''),
 ('C06','proved',B('C06_isBase64_exact','C06_not_number_of_bytes'),'the returned number is the number of digits, never the number of decoded bytes the documentation promises'),
 ('C07','proved',B('C07_decode_fits'),''),
 ('C08','proved',B('C08_white_space_insensitive'),''),
 ('C09','proved',B('C09_ignored_as_if_absent','C09_invalid_rejected'),''),
 ('C10','proved',B('C10_encode_injective'),''),
 ('C11','proved',B('C11_ub_iff','C11_defined_on_7bit'),''),
 ('C19','proved',P('C19_append','C19_trimmed_unique','C19_absolute_stays'),''),
 ('C20','proved',P('C20_directory_tail','C20_recompose','C20_root_directory'),'the root directory is reported as "." (documented as all but the last component)'),
 ('C21','proved',P('C21_extension','C21_extension_chars'),''),
 ('C22','proved',P('C22_search_first'),'the file system is a parameter'),
 ('C23','proved',P('C23_search_nothing','C23_documented_false','C23_result_is_file_iff'),'the documented behaviour is false (witness); the exact result is proved'),
 ('C24','proved',P('C24_colon_list','C24_join_split'),''),
 ('C54','proved',P('C54_append_assoc'),''),
 ('C55','proved',P('C55_tail_append','C55_directory_append'),''),
 ('C25','proved',M('C25_escape_exact','C25_escape_invertible','C25_escape_injective','C25_printed'),''),
 ('C27','proved',M('C27_integer_roundtrip','C27_decimal_unique','C27_boolean_roundtrip'),''),
 ('C28','proved',M('C28_long_truncated','C28_long_lost'),'false in the code (witness); the exact recorded value is proved'),
 ('C29','proved',M('C29_documented_formula','C29_close_accepted','C29_close_accepted_float','C29_accepted_close','C29_integer','C29_integer_ub','C29_symmetric','C29_reflexive','C29_sign_of_tolerance','C29_monotone','C29_not_transitive'),'for every pair of monotone rounding functions; tolerances are finite'),
 ('C30','proved',M('C30_last_setting_wins','C30_zero_tolerance_exact'),''),
 ('C31','proved',M('C31_raw_data_read','C31_content_read'),''),
 ('C32','proved',M('C32_base64_data_read','C32_base64_never_reads_back'),'false in the code for every non-empty data; the exact outcome is proved'),
 ('C33','proved',M('C33_data_equal','C33_file_data_equal','C33_file_file_equal','C33_image_not_self_equal'),''),
 ('C34','proved',M('C34_nearest_handler','C34_compare_handlers'),''),
 ('C56','proved',M('C56_raw_data_not_printed','C56_copy_drops_data'),'negative result'),
 ('C57','proved',M('C57_base64_compare_ub'),'negative result'),
 ('C58','proved',M('C58_factory'),''),
 ('C59','proved',M('C59_tolerance_only_numbers','C59_tolerant_by_value'),''),
 ('C35','proved',R('C35_options_removed','C35_remaining_is_suffix'),''),
 ('C36','proved',R('C35_options_removed','C36_expected_value','C36_refused_throws'),''),
 ('C37','proved',R('C37_endless_iff','C37_endless'),'false in the code; exactly the non-terminating argument lists are characterised'),
 ('C38','proved',R('C39_main_value','C38_record_value','C38_exception_value','C38_expectation_missed','C38_refused_option','C38_missing_baseline_accepted'),''),
 ('C39','proved',R('C39_positional_count','C39_main_value','C39_measured','C39_measured_unique'),''),
 ('C40','proved',R('C40_leftovers_ignored','C40_nothing_measured_passes'),'negative result'),
 ('C46','proved',R('C46_runs_not_independent','C46_counts_add','C46_options_stay','C46_expectation_stays','C46_failed_once_failed_for_ever','C46_exception_counts','C39_main_value'),'independence is false in the code (witnesses); exactly what carries over is proved, for every history of calls'),
 ('C60','proved',R('C60_comparison_output'),''),
 ('C61','proved',R('C61_call_result'),''),
 ('C62','proved',R('C62_exit_status','C62_256_failures_pass'),'false in the code (witness)'),
 ('C63','proved',R('C63_search_path_hides_file')+I('C107_baseline_file'),'negative result; `C107_baseline_file` says which file is opened'),
 ('C64','proved',PA('C64_file_kept','C64_same_file_fails')+R('C64_output_overwrites_baseline'),'the last two are the exception; files are identified by their names'),
 ('C65','proved',R('C65_every_image_fails','C65_images_never_agree'),'negative result'),
 ('C47','proved',I('C47_count','C47_count_interior','C47_count_boundary'),'neighbours outside the test image are not considered; with the ignore-boundary flag only interior pixels count'),
 ('C48','proved',I('C48_schedule_independent'),'the count; for the total see C70'),
 ('C49','proved',I('C49_monotone','C49_count_monotone','C49_identical','C49_zero_tolerance'),''),
 ('C50','proved',I('C50_passes_iff','C50_tolerance_doubled','C50_compare_image','C50_run_passes_iff'),'false in the code as documented (witness); the exact condition is proved'),
 ('C51','proved',I('C51_sizes_differ','C51_unreadable'),''),
 ('C53','proved',PI('C53_captures','C53_recorded','C53_compared','C53_no_argv'),''),
 ('C66','proved',PI('C66_quiet_command','C66_not_standard_output','C66_schedule_dependent'),'negative result'),
 ('C67','proved',I('C67_undefined_pixels_count_as_equal','C67_nan_passes'),'exact condition for radius 0 and exact arithmetic; with a radius and rounding: C50'),
 ('C68','proved',I('C68_origin_ignored','C68_spacing_compared'),'false in the code for the origin; true for the spacing'),
 ('C69','proved',I('C69_region_ignored')+['Verif.Itk.Any.C69_outside_counts'],'negative result'),
 ('C70','proved',I('C70_exact_sum_independent','C70_rounded_sum_depends'),''),
 ('C52','proved',I('C52_name','C52_names_distinct','C52_last_components_distinct','C52_slash_in_extension','C52_names_repeat'),'true up to 2^32 names for one root, or for extensions without slash'),
 ('C71','proved',I('C71_argument_boundaries_lost','C71_hash_collides','C71_format'),'negative result'),
 ('C72','proved',I('C72_integers','C72_doubles','C72_matrix','C72_region','C72_names_distinct'),''),
 ('C73','proved',I('C73_images_measured','C73_bad_arguments'),''),
 ('C74','proved',I('C74_difference_not_in_output','C74_output_empty'),'negative result'),
 ('C75','proved',I('C75_unreadable_image_ends_test','C75_last_measurement','C75_main'),'negative result'),
 ('C26','proved',X('C26_reads_back','C26_special_names_lost','C26_entities_decoded','C26_rest_lost','C26_line_ends'),'for every XML parser that parses the small grammar correctly and, for C26_special_names_lost, reports only start tags that are in the text (both shown satisfiable); printable ASCII text'),
 ('C41','proved',X('C41_record_lines','C41_recorded_document')+R('C39_measured'),''),
 ('C42','proved',X('C42_chunks_are_the_file'),''),
 ('C43','proved',X('C43_text_splits','C43_reading'),''),
 ('C44','proved',X('C44_agrees_with_itself','C44_record_then_compare','C44_texts_and_numbers','C44_line_ends','C44_least_integer'),'with the exceptions proved: line ends of another system, the least integer compared with tolerance'),
 ('C45','proved',X('C45_changes_counted','C45_passes_iff'),'the exact number of failures; a shorter run passes'),
 ('C76','proved',X('C76_exactly','C76_host_name_hyphens'),'exact characterization; printable host names without `>`'),
 ('C77','proved',X('C77_missing_type_is_ub'),'negative result'),
 ('C78','proved',X('C78_child_of_measurement','C78_text_before_child'),'negative result'),
 ('C79','proved',X('C79_unknown_ignored'),''),
 ('C12','proved',D('C12_patch'),'fewer than 715 million lines'),
 ('C13','proved',D('C13_empty_iff_equal'),''),
 ('C14','proved',D('C14_ordered'),''),
 ('C15','proved',D('C15_total','C15_ends','C15_reads_outside','C15_one_line'),'without a harmful clash of hashes (characterised exactly in C17); the reads outside the arrays of line numbers are characterised exactly'),
 ('C16','proved',D('C16_not_minimal','C16_cost','C16_common_lines','C16_block','C16_lower','C16_minimal','C16_one_edit'),'false in the code (witness); the bounds that hold are proved, and minimality where the texts differ in one block of lines'),
 ('C17','proved',D('C17_numbers','C17_ub_iff','C17_diff_ub_iff','C17_clash_ub','C17_clash_harmless','C17_short_lines'),'the condition for undefined behaviour is exact'),
 ('C18','proved',D('C18_lines'),''),
 ('C80','proved',D('C80_report_rebuilds','C80_report_determines','C80_nul_hidden'),''),
]
CLAIMS += [
 ('C81','proved',M('C81_compressed_data_dropped'),'negative: exact behaviour with every compression attribute'),
 ('C82','proved',M('C82_second_read','C82_own_data'),'negative: exact content of the block returned by the second read'),
 ('C83','proved',X('C83_reading','C83_every_document'),'for every XML parser that parses the small grammar correctly (shown satisfiable)'),
]
CLAIMS += [
 ('C84','proved',DE('C84_determined','C84_zero','C84_text','C84_exact','C84_integers','C84_short_decimals'),'the C++ standard\'s operator<< with correct rounding (glibc) is modelled'),
 ('C85','proved',DE('C85_compared_by_text','C85_far_values_differ','C85_text_of_value','C85_interval','C85_collisions','C85_negative_zero'),'with the exceptions proved: collisions, negative zero'),
 ('C86','proved',DE('C86_text','C86_as_zero','C86_as_zero_float'),'negative result'),
 ('C87','proved',DE('C87_read_back','C87_exact','C87_not_exact'),''),
 ('C88','proved',DE('C88_double','C88_float'),'IEEE 754 arithmetic, round to nearest even'),
 ('C89','proved',W('C89_record_and_compare','C89_passes'),'all parts composed; plain texts of the same name must have no harmful clash of hashes (C17)'),
 ('C90','proved',P('C90_join','C90_after_chdir','C90_split','C90_search'),'for every file system (any nodes, links, mounts, permissions); splitting fails for a slash and a name (C20)'),
 ('C91','proved',P('C91_return','C91_result','C91_deep'),'holds for names of at most 1023 bytes; otherwise uninitialised memory is read, and this is reachable'),
 ('C92','proved',P('C92_search_directory','C92_contains_itself'),'the list also has the directory itself'),
 ('C93','proved',I('C93_text','C93_same_text','C93_uninitialised','C93_defined_iff'),'iterations must come after a start, fewer than 2^31 between starts'),
 ('C94','proved',R('C94_told_what_the_command_line_says','C94_told_what_was_set','C94_calls_keep_settings','C94_names_have_no_effect','C94_naming_a_baseline_while_recording'),'no effect of names: for tests that do not ask for them with the Get functions; the last is the negative part'),
 ('C95','proved',I('C95_report'),'images read from files start at index 0; the texts ITK prints for sizes, vectors and regions are parameters'),
 ('C96','proved',X('C96_killed_recording','C96_truncated_never_read','C96_killed_never_read','C96_cut_in_content_aborts','C96_truncated_baseline_fails','C96_interrupted_then_compared'),'expat is assumed to reject cut documents (RejectsTruncated, RejectsUnfinished); measurements with clean names and printable content; every line is flushed (std::endl)'),
 ('C97','proved',N('C97_unambiguous','C97_integer','C97_boolean','C97_double','C97_float','C97_expected','C97_unsigned','C97_intensity','C97_unsigned_text','C97_pixels_minus_one','C97_intensity_sign'),'extraction as in libstdc++ (C++11), "C" locale, IEEE 754'),
 ('C98','proved',L('C98_lifetimes','C98_nothing_lost','C98_destructor','C98_exception_in_comparison','C98_rejected_baseline','C98_interrupted_recording','C98_rest_of_baseline','C98_streams_left_open','C98_reopened_output','C98_reopened_input'),'measurements of the baseline and file streams; that nothing is lost holds only without exceptions, the losses with exceptions are proved'),
 ('C99','proved',L('C99_valid_iff','C99_own_block','C99_lost_iff','C99_pointer_stays','C99_pointer_ends','C99_pointer_ends_transfer','C99_same_values'),'malloc does not fail; memory of std::string is not modelled; reading a file succeeds once it is open'),
]
CLAIMS += [
 ('C100','proved',X('C100_same_reader','C100_messages','C100_silent','C100_dropped_silently','C100_parse_error','C100_recorded'),'for every XML parser that parses the small grammar correctly; the text of line number and reason in a parse error are parameters'),
 ('C101','proved',R('C101_same_parser','C101_messages','C101_every_command_line','C101_output_lost'),''),
 ('C102','proved',M('C102_same_answers','C102_read','C102_read_silent','C102_silence_is_right','C102_compression_ignored','C102_set','C102_compare_silent','C102_files'),'the arguments of memcmp are evaluated from right to left'),
 ('C103','proved',I('C103_own_files','C103_one_character','C103_record_and_compare_files','C103_record_and_compare','C103_same_directory','C103_same_arguments','C103_same_arguments_pass'),'what ITK writes for an image and reads from a file are parameters, the image coming back as it was written; up to 2^32 images; `C103_same_arguments` is the negative part'),
 ('C104','proved',I('Any.C104_result','Any.C104_defined','Any.C104_schedule_independent','Any.C104_compare','Any.C104_sizes_differ','Any.C104_scalar','Any.C104_vector_euclidean','Any.C104_vector_nan','Any.C104_vector_components','Any.C104_complex'),'ITK itself is not modelled; the total magnitude (a sum of rounded square roots) depends on the schedule, see C70'),
 ('C105','proved',I('Any.C105_byte'),'radius 0; differences of unsigned char are exact in double, squares too'),
 ('C106','proved',I('Any.C106_exact','Any.C106_within','Any.C106_tolerated','Any.C106_found','Any.C106_zero','Any.C106_zero_exact','Any.C106_huge','Any.C106_special'),'rounding to nearest; the square root is used only for the total magnitude; `C106_zero` has the negative part'),
 ('C107','proved',I('C107_one_place','C107_baseline_file','C107_relative_baseline','C107_kept_in_data_directory','C107_image_not_in_data_directory','C107_not_beside_the_test'),'what ITK writes for an image and reads from a file are parameters; the last two are the negative part'),
 ('C108','proved',['Verif.Itk.Any.'+x for x in ('C108_result','C108_same_iff','C108_region','C108_run_and_static')],'pixel types whose differences can always be converted to the output type; for unsigned char see C105'),
 ('C109','proved',I('Any.C109_total','Any.C109_exact','Any.C109_whole','Any.C109_mean','Any.C109_infinite','Any.C109_distances','Any.C109_fresh','Any.C109_threads'),'the pipeline of ITK (whether a run is necessary at all) is not modelled; `C109_threads` is the negative part'),
 ('C110','proved',I('C110_compare','C110_one_finding','C110_passes','C110_no_entries','C110_bad_arguments','C110_record','C110_record_and_compare','C110_expected','C110_no_baseline','C110_bad_arguments_expected'),'`C110_no_entries`, `C110_expected`, `C110_no_baseline` and `C110_bad_arguments_expected` are the negative parts; the PNG files written for a failed comparison are not modelled'),
 ('C111','proved',I('Any.C111_model','C111_differs','C111_whole_numbers','C111_alike','C111_runs','C111_program'),'rounding to nearest; images without infinities and tolerances below 2^512 for the equivalence of the two models of double; readers are parameters'),
 ('C112','proved',X('C112_handler','C112_same_main','C112_refused','C112_output','C112_input','C112_parse_error','C112_test'),'single inheritance; what the test itself writes, and what comparisons write about data (C102), is not kept; command lines that end in an option without a value never end (C37)'),
 ('C113','proved',I('C113_rows','C113_test1','C113_test2','C113_filter','C113_filter_fails','C113_test3','C113_noise','C113_test4','C113_test4_usage'),'`C113_test1` is a negative result about the test; ITK readers, writers and the random source are parameters, the pixels of the files being of the types the tests read; the baseline is given by an absolute name; files that are written are different from the baseline and the recorded image'),
 ('C114','proved',W('C114_compounds','C114_regions','C114_wraps','C114_repo_region','C114_repo_region_fails'),'`C114_wraps` is a finding: sizes n and n + 2^32 are not told apart; dimensions and names must be the same in the two runs (C89 covers the rest through the list of measurements); what ImageFileReader finds out about a file is a parameter; numbers of points and matrices are converted to double exactly'),
 ('C115','proved',PI('C115_record_and_compare','C115_passes','C115_standard_output','C115_from_standard_output','C115_injection'),'ends with two negative results: a successful command passes a test that expects a failure whatever it writes, and arguments can inject measurements; printable output; sizes within the int arithmetic of the diff'),
 ('C116','proved',PA('C116_any_schedule','C116_result','C116_all','C116_alone','C116_images','C116_race'),'files are identified by names; a measurement call is one step; two runs writing one file: C124'),
 ('C117','proved',PA('C117_full_disk','C117_incomplete_never_passes','C117_any_run'),'the first half is a finding: the stream is never checked; the output is a file given with -O (not standard output); `C117_any_run` is about comparing runs too; what does not fit is lost for good, as with a stream in error state; the second half is under the assumption on the XML parser of C96 (it rejects truncated documents), which the reference parser is proved to meet'),
 ('C118','proved',PA('C118_verdict','C118_main'),'output files are not among the files that are read; interference happens between steps (a measurement call is one step); files are identified by names'),
 ('C119','proved',SE('C119_same_run','C119_run','C119_not_called','C119_recording','C119_unmatched','C119_call','C119_recorded','C119_compared','C119_differences'),'arguments of memcmp are evaluated from right to left (as in C102); what is said about images is a parameter here, see C120; the terminate and unexpected handlers are not modelled'),
 ('C120','proved',SE('C120_same_text','C120_baseline_unreadable','C120_test_unreadable','C120_readable','C120_run'),'descriptions of exceptions of ITK and the outcome of rescaling and writing are parameters; a file of which only the header can be read is not modelled'),
 ('C121','proved',SE('C121_same_pipe','C121_same_image','C121_pipe','C121_pipe_run','C121_image_fine','C121_image_wrong','C121_image_cases','C121_image_usage','C121_image_run'),'`C121_image_usage` is a finding: no arguments are not a failure; the process library and the reading of numbers are parameters'),
 ('C122','proved',P('C122_predicates','C122_consistent','C122_trailing_slash','C122_nul','C122_set_current_directory','C122_same_model'),'nothing changes between the two questions `IsReadable` and `IsWritable` ask the system; the branches for WIN32 are not modelled'),
 ('C123','proved',W('C123_arguments'),'the comparing object has a number as tolerance, otherwise the one of a new object; the document is compared without being changed (C116 for the other case)'),
 ('C124','proved',PA('C124_shared_output','C124_same_length','C124_same_document','C124_same_measurements','C124_overwritten','C124_unreadable'),'the last two are findings: recordings destroy each other and no run notices. Tests that do other things with files are left out; a stream writes its buffer in any pieces, each where its last one ended, as write(2) on a file opened without O_APPEND; two runs that open the file write to the same file, not to one each'),
 ('C125','proved',R('C125_array','C125_array_refused','C125_permutation','C125_second_run_reversed','C125_second_run_without_options','C125_second_run_compares_nothing','C125_same_parser'),'tests that leave their arguments alone; the last two theorems on the second run are findings'),
 ('C126','proved',L('C126_lifetimes','C126_nothing_lost','C126_quiet_call','C126_bound','C126_for_good','C126_not_begun','C126_own_end','C126_rejected_baseline','C126_comparison_fails','C126_difference_fails','C126_image_exception'),'the losses are findings; memory does not run out, so that comparing values ends only by undefined behaviour (C126_comparison_fails)'),
 ('C127','proved',SE('C127_any_order','C127_overruled','C127_paths_order'),'`C127_paths_order` is a negative result; refused options: C38_missing_baseline_accepted'),
 ('C128','proved',W('C128_two_modes','C128_test3','C128_test3_tolerant'),'`C128_test3_tolerant` is a negative result; plain texts of the same name must have no harmful clash of hashes (see C17)'),
 ('C129','proved',W('C129_tolerances','C129_test2'),'tolerances from 0 to 1; plain texts of the same name must have no harmful clash of hashes (see C17)'),
 ('C130','proved',W('C130_files','C130_test4','C130_outputTest2'),'the comparing run writes to standard output; without the subclass itk::Regression (C103 for its images)'),
 ('C131','proved',W('C131_nothing_recorded','C131_own_tests','C131_outputTest1'),'the comparing run writes to standard output'),
 ('C132','proved',W('C132_mixed','C132_own_recording'),'numbers are held to tolerances between the two bounds of C89; differing texts must be patchable (C15), the recorded file name being what a text is compared with in the report; the comparing run writes to standard output'),
('C133','proved',W('C133_what_counts'),'numbers and differing texts as in C132; the recording is made by the test without the calls at the end; baseline names are looked up in the state of the files during the run (the test does not change files)'),
('C134','proved',W('C134_named_inside'),'the output file must be new or writable; a file that is opened for output exists afterwards, empty (the model of C41), and this is the state in which the baseline is looked up'),
('C135','proved',R('C135_options_are_setters'),'accepted options only: refused ones end the run, and -O values that cannot be written are ignored (C101); the -R number is what strtol reads (C36)'),
]
