# Formal model of CXMLTestFramework in Lean 4 — design

## Approach

* The C++ sources under `/repo` are modelled function by function as total, computable Lean
  definitions in `lean/Verif/<Area>/` (`Model.lean`, and `Lines.lean`, `Compare.lean`, `Difference.lean`, `Names.lean`,
  `Visitor.lean`). Every definition cites the file and lines it models, and states its simplifications.
* `std::string` / byte buffers are `List UInt8` (`Verif.Str`); C indices are `Nat` or `Int`; where wrap-around or
  signedness matters (`char` table index, `int` conversion, `unsigned` search bounds, 64 bit and 16 bit hashes) it is modelled explicitly.
* C++ exceptions, failed assertions, undefined behaviour and non-termination are distinct outcomes
  (`Verif.Fault`), never assumed away. Out-of-range accesses and reads of indeterminate memory are faults (or, for the reads
  inside Diff's assertions, a parameter: what lies outside the array).
* Loops are structural recursion where the bound is visible, or take *fuel*; termination theorems then show that a
  computable amount of fuel always suffices (or that none does), and the property theorems hold for every larger amount of fuel.
* A test (a user's `Test` method) is a *program*: a tree of measurement calls whose continuation depends on the result of
  each call, that can look at and change the files and the settings of the object (`Get`/`Set` functions) and can end by returning a value or by an exception (`Regression.Prog`). Theorems about `Main` hold for every program.
* The file system, the clock/host name, expat's tokenizer, ITK readers and arithmetic, and the child process are parameters.
* Each area has a small specification file (`Spec.lean`, `CompareSpec.lean`, `RunSpec.lean`, `NamesSpec.lean`, `FormatSpec.lean`), written
  without reference to the model's helpers, lemma files, and `*Props.lean` with the property theorems (named `Cnn_...`); beside the
  theorems there are `example`s showing that the hypotheses are met by a non-trivial case.
* Where the code violates what a user relies on (documentation or common sense) the negation is
  proved with a concrete witness, and the strongest true statement that was found is proved for all inputs.

## Areas

| area | code | model | method |
|---|---|---|---|
| Base64 (C01–C11) | `tfBase64.cpp` | `Verif/Base64` | loop invariants, bit-stream spec, simulation |
| Diff (C12–C18, C80) | `tfDiff.cpp` | `Verif/Diff` | fuel-based model of the Myers search with explicit diagonal buffer, invariants for validity, in-box and termination |
| Paths (C19–C24, C54, C55, C90–C92) | `PathName.cpp`, `FileUtilities.cpp` | `Verif/Path` | list induction, `rfind`/`find` specifications |
| Measurements (C25, C27–C34, C56–C59, C81, C82) | `tfMeasurement.{h,cpp}`, `tfMeasurementVisitor.{h,cpp}` | `Verif/Measurement` | state machine of the data cache, escaping, numeric text, ordered-field tolerance |
| Regression driver (C35–C40, C46, C60–C65, C94) | `tfRegressionTest.{h,cpp}` | `Verif/Regression` | state machine, refinement to positional comparison |
| XML reading, record and compare (C26, C41–C45, C76–C79, C83, C96) | `tfRegressionTest.cpp` (handlers, `ReadXMLInput`) | `Verif/Xml` | abstract incremental parser, event grammar, composition |
| ITK part (C47–C52, C67–C75, C93, C95) | `itktf/*` | `Verif/Itk` | finite sums over schedules, decision logic |
| Floating point text (C84–C88) | `tfMeasurement.cpp` (`SetValue`, `GetValue`), `tfMeasurement.h` | `Verif/Decimal` | rational arithmetic, decimal and binary rounding, error propagation |
| Numbers (C97) | extraction of numbers from streams, `strtol`, itktfImageCompare.cxx:28-109 | `Verif/Numbers` | exact against a grammar of numbers |
| Lifetimes (C98, C99) | `tfRegressionTest.cpp` (`new`, `delete`, `Input`, `os`, `is`), `tfMeasurement.cpp` (`malloc`, `free`, `data`) | `Verif/Life` | invariants over histories of heap events |
| The parts together (C89, C114) | all of the above except ITK | `Verif/Whole` | composition; `Whole/RepoTests.lean` evaluates the project's own tests in the model |
| Pipe (C53, C66, C115) | `tfPipeToXML.cxx` | `Verif/Pipe` | induction over chunk sequences |
| Runs at the same time, full disks, interference (C116-C118) | `tfRegressionTest.cpp` (`Main` and all it calls) | `Verif/Parallel` | locality and frame of steps, induction over schedules; simulation |

## Trusted base

* Lean 4.33.0's kernel, and the axioms `propext`, `Classical.choice`, `Quot.sound`. No theorem depends on any other axiom; there is
  no `native_decide`, `bv_decide`, `implemented_by`, `extern` or `unsafe` in the sources. Some counterexamples and examples are closed with
  `decide` / `decide +kernel` (evaluation in the kernel); no universally quantified property rests on such an evaluation
  except for finite tables (the 256 entries of the base64 table and its inverse).
* Faithfulness of the transcription C++ → Lean: each definition cites its lines; the code was never run. As a check of the transcription,
  `Whole/RepoTests.lean` runs the project's own tests with their baselines in the model and gets the results the project expects (evidence, not a theorem).
* The specifications, which should be read: `*/Spec.lean`, `*/*Spec.lean`.

### What is modelled, with assumptions

* **Platform**: POSIX branches, `char` signed, `int` 32 bit, `long` and `size_t` 64 bit, C locale, assertions active (no `NDEBUG`),
  allocation never fails, string sizes below 2^63. `ptrdiff_t` and the counters `inputUnmatched` and image sizes are unbounded integers
  (except where a property is about their wrap-around: C28, C52, C62, the `unsigned` bounds in Diff).
* **Base64**: everything in `tfBase64.cpp`. The `unsigned int` lengths are unbounded except where `Measurement` narrows a size.
* **Diff**: everything in `tfDiff.cpp`. Lines with the same 64 bit hash are harmful exactly if `TopClear` fails (C17_ub_iff). The multimap is a list
  sorted by key, equal keys in the order of insertion (as in libstdc++ and since C++11 required).
* **Paths**: string functions, `SearchPathList`, colon lists, permission queries, `SetCurrentDirectory`; `stat`/`access` are parameters
  (a snapshot of the file system); for C90–C92 they come from a file system with nodes, names and a current
  directory (`DiskSpec.lean`, POSIX path name resolution; exactly two leading slashes mean the root, as on Linux). The stat cache members are never read by the code and are left out.
* **Measurements**: classes, data cache, escaping, printing, integer/boolean text, tolerant comparison, visitors. Floating point: values are
  rationals, each operation is followed by a monotone rounding function (parameter) that may overflow to an infinite value; tolerances are finite;
  the text of float and double values and its parsing are parameters
  (`NumEnv`) there, and instantiated in `Decimal`. `malloc` never returns null (blocks: C99).
* **Floating point text**: `operator<<` and `operator>>` of float and double as the C++ standard specifies them in the C locale, on IEEE 754 formats, with
  correct rounding (glibc); infinities and NaN can be written, and are never read (libstdc++'s `num_get` collects no letters but `e`). `FLT_EVAL_METHOD` 0.
* **Regression**: arguments, `Main`, begin/end, all measurement calls, comparison, output. Files are named byte strings; a file can be opened for
  writing if the world says so. `std::cerr` output is modelled in C100-C102, C112 and C119-C121 (reader of the baseline, command line, data of measurements, exceptions, visitors, programs) and ignored elsewhere. Time, host name are parameters.
* **XML**: handlers and the reading loop are modelled; expat is an abstract incremental parser (`Expat`), about which C26, C41, C44, C45 assume
  `Conforms` (it delivers the events of the documents of a small grammar, for every split into chunks), C26 `TagsFromText` (every start tag it reports is in the text, and a
  reference in an attribute is longer than what it stands for), C76 `RejectsDoubleHyphen`,
  C96 `RejectsTruncated` and `RejectsUnfinished`.
  `Reference.lean` defines such a parser, so the assumptions are consistent.
* **ITK**: pixel values are rationals or NaN (no infinities) and arithmetic has a rounding parameter, except in C104 (any types of pixels and magnitudes), C105
  (unsigned char) and C106 (IEEE doubles with infinities; C111 relates them to the runs), its statistics (total and mean magnitude) in C109; readers, names of pixel types, PNG writers are
  parameters. The PNG files written by `ImageThing` are not kept; a file of which only the header can be read is taken as unreadable.
  `MeasurementInsightImage` (C103): the writer is a function from images to bytes; a file that cannot be created makes it throw, a full disk is not modelled.
  `itktfFilterWatcher.h`: the registration of the call backs with ITK is taken as given.
* **Full disk** (C117): after every step the output file keeps its first n bytes; the C++ stream buffers less than a step writes, so this is what a stream in error state leaves at the end of the step. Errors of closing, of reading and of standard output are not modelled.
* **Runs at the same time** (C116): a step is an action of `Main` on its files, one measurement call or one action of the test; files are identified by their names (no links, no two
  names of one file); two processes that write to the same file: C124.
* **Process library** of `tfPipeToXML`: a list of chunks with their source and an end state.

### Not modelled

WIN32 branches (they do not compile: `#error` in `PathName.cpp`), the buffering of `std::cerr` and `std::cout` relative to each other, memory other than that of C98, C99 and C126 (the buffer of `MeasurementFile::Load`, arrays of `Diff`, strings), expat's and ITK's internals, the terminate/unexpected handlers (they print to `std::cerr`), CMake files.

## Disagreements between documentation and code found while modelling

* Base64: `IsBase64` returns the number of digits, not of bytes (C06); padded text is never decoded (C05); a line is not limited to 72 characters (C03).
* Diff: documentation says line numbers are 0 based, they are 1 based; separator is `----`; the edit script is not minimal (C16); a clash of hashes
  is undefined behaviour (C17); assertions read outside the array of line numbers (C15).
* Paths: `SearchPathList` returns the last candidate when nothing is found (C23); the directory of `/a` is `.` (C20);
  `GetCurrentDirectory` reads uninitialised memory in deep directories (C91); `SearchDirectory` lists `.` and `..` (C92).
* Regression: an option without value loops for ever (C37); leftovers in the baseline are ignored (C40); a search path hides the named file (C63);
  `-O` equal to `-I` empties the baseline (C64); a call's result is inverted with respect to the documentation (C61);
  options, expectation and failures of one call of `Main` carry over to the next (C46); `Main` takes the options out of the caller's array, a second object run with it compares nothing (C125); naming a baseline while recording spoils the recording (C94);
  exceptions lose measurements and open files (C98), visitors and parsers (C126); assignment over data loses memory, `SetContentAsData` with a measurement's own data copies from freed memory (C99).
* Measurements: base64 data never reads back (C32); comparing it is undefined behaviour (C57); `long` is narrowed (C28); compression drops data (C81);
  infinities and NaN count as 0 with a tolerance (C86); different doubles can have the same text (C85).
* ITK: pixel tolerance subtracted twice (C50); region ignored (C69); NaN passes (C67); differences are not written to the output file (C74); three pictures under one name (C95); the first of the project's tests of images compares each image with itself (C113); 256 images that differ give exit status 0 (C110); sizes and indices n and n + 2^32 are not told apart (C114).
* Pipe: the measurement "stdout" has both pipes (C66); where a failure is expected a command that succeeds passes whatever it writes, and arguments can put measurements into a document on standard output (C115).

## Tests of the theorems against wrong programs

`seeded/LOG.jsonl` has one line per seeded bug: the definition edited (in a scratch copy), the edit, the claims it breaks, the theorems that
failed, the theorems tightened. All theorems of the manifest were recompiled against the edited model; a theorem counts as failed when it or a lemma it
depends on no longer compiles. Theorems that survived although their claim became false were restated.

## Per property

What is modelled, how it is proved, and the theorems (all in `Verif.<Area>`; exact names in MANIFEST.json).

* **C01 Base64 encoding without line breaks is exactly standard base64.** Modelled: `Base64::Encode`, new lines off, over all byte lists. Proof: loop invariant: the output so far is the bit-stream specification of the bytes consumed.
  Status: proved; `Base64.C01_encode_is_standard_base64` — for every byte sequence, against the RFC 4648 bit-stream specification.
* **C02 Base64 encoding never writes outside the string it allocated.** Modelled: every indexed write of `Encode` goes through a bounds-checked `put` that faults outside the string. Proof: invariant on write position and remaining input; the result is never a fault.
  Status: proved; `Base64.C02_encode_safe` — every write goes through a bounds-checked put; the result is .ok with the stated length.
* **C03 Base64 encoding with line breaks carries exactly the standard base64 text, one line break and trailing NULs.** Modelled: `Encode` with new lines on, including the NUL fill of the allocated string. Proof: same invariant with the block counter; counterexamples to the documented line limit by evaluation.
  Status: proved; `Base64.C03_encode_with_newlines`, `Base64.C03_payload`, `Base64.C03_line_limit_violated`, `Base64.C03_trailing_newline`, `Base64.C03_trailing_nul` — exact output; the documented 72 character line limit is violated (witness).
* **C04 Base64 round trip.** Modelled: composition of `Encode` and `Decode`. Proof: from C01/C03 and C05: the encoded text is classified by length modulo 3 and by size.
  Status: proved; `Base64.C04_roundtrip_exact`, `Base64.C04_roundtrip_fails`, `Base64.C04_written` — the unrestricted round trip is false (witness); the exact set of round-tripping inputs is proved.
* **C05 Base64 decoding accepts exactly the unpadded well-formed texts.** Modelled: `Decode` as a scanner over the table of 256 entries. Proof: simulation of the scanner by the declarative grammar of texts; induction on the text.
  Status: proved; `Base64.C05_decode_exact`, `Base64.C05_written`, `Base64.C05_every_text`.
* **C06 IsBase64 decides base64 well-formedness.** Modelled: `IsBase64`. Proof: induction on the text with the scanner state (digits seen, padding seen).
  Status: proved; `Base64.C06_isBase64_exact`, `Base64.C06_not_number_of_bytes` — the returned number is the number of digits, never the number of decoded bytes the documentation promises.
* **C07 A buffer of IsBase64 bytes is large enough for Decode.** Modelled: `Decode` with the buffer as an explicit list of writes. Proof: the number of bytes written is bounded by the number of digits read.
  Status: proved; `Base64.C07_decode_fits`.
* **C08 White space never changes what a base64 text means.** Modelled: `IsBase64`, `Decode`. Proof: scanner step on a white space character is the identity; induction.
  Status: proved; `Base64.C08_white_space_insensitive`.
* **C09 IgnoreInvalids behaves as if the invalid characters were not there.** Modelled: `IsBase64`, `Decode` with the flag. Proof: scanner step on an invalid character is the identity with the flag, a rejection without.
  Status: proved; `Base64.C09_ignored_as_if_absent`, `Base64.C09_invalid_rejected`.
* **C10 Distinct data have distinct base64 encodings.** Modelled: `Encode`. Proof: injectivity of the bit-stream specification, by C01/C03.
  Status: proved; `Base64.C10_encode_injective`.
* **C11 Text with bytes above 127 indexes the decode table out of range exactly when such a byte is reached.** Modelled: the decode table is indexed by `char` (signed); an index outside the table is a fault. Proof: induction on the text: first byte above 127 reached or not.
  Status: proved; `Base64.C11_ub_iff`, `Base64.C11_defined_on_7bit`.
* **C12 Diff edit scripts are correct.** Modelled: all of `tfDiff.cpp`: cutting in lines, hashing, numbering, the diagonal search with its buffer, recursion, edit list. Proof: invariants of the two sweeps (furthest reaching points are endpoints of edit paths in the box), refinement of the recursion to an edit path.
  Status: proved; `Diff.C12_patch` — fewer than 715 million lines.
* **C13 Diff reports nothing exactly for equal texts.** Modelled: as C12, plus the printing. Proof: the edit path of equal texts is all diagonal; a non-empty list prints something.
  Status: proved; `Diff.C13_empty_iff_equal`.
* **C14 Diff edit scripts are ordered and disjoint.** Modelled: as C12. Proof: edits are read off the path in order.
  Status: proved; `Diff.C14_ordered`.
* **C15 Diff terminates without a failed assertion or out of range diagonal access.** Modelled: as C12; fuel for the search loop, the box recursion and the numbering loop; reads of the line number arrays outside their bounds are explicit. Proof: termination measure: search cost bounded by box size, boxes shrink; exact condition for the asserts that look outside the arrays.
  Status: proved; `Diff.C15_total`, `Diff.C15_ends`, `Diff.C15_reads_outside`, `Diff.C15_one_line` — without a harmful clash of hashes (characterised exactly in C17); the reads outside the arrays of line numbers are characterised exactly.
* **C16 Diff's edit script is minimal.** Modelled: as C12. Proof: counterexample by evaluation in the kernel; upper bound and common-lines bound for all inputs; the cost is at most that of replacing one block by another, and a common subsequence argument shows that no script is cheaper if the blocks share no line.
  Status: proved; `Diff.C16_not_minimal`, `Diff.C16_cost`, `Diff.C16_common_lines`, `Diff.C16_block`, `Diff.C16_lower`, `Diff.C16_minimal`, `Diff.C16_one_edit` — false in the code (witness); the bounds that hold are proved, and minimality where the texts differ in one block of lines.
* **C17 Lines get equal ids exactly when their texts are equal.** Modelled: `GenerateLines`: hash multimaps, walk of equal keys, numbering. Proof: invariant of the numbering loop (classes already numbered, tables left over); a second invariant with the history of the rounds gives the exact condition for reading past the end of a table.
  Status: proved; `Diff.C17_numbers`, `Diff.C17_ub_iff`, `Diff.C17_diff_ub_iff`, `Diff.C17_clash_ub`, `Diff.C17_clash_harmless`, `Diff.C17_short_lines` — the condition for undefined behaviour is exact.
* **C18 Splitting a text in lines loses nothing.** Modelled: `IndexLines` and `substr`. Proof: induction on the text with position and length of the current line.
  Status: proved; `Diff.C18_lines`.
* **C19 Appending path names.** Modelled: `PathName::Append`. Proof: the trailing slash loop is characterised by the unique trimmed form.
  Status: proved; `Path.C19_append`, `Path.C19_trimmed_unique`, `Path.C19_absolute_stays`.
* **C20 Directory and tail decompose a path.** Modelled: `DirectoryName`, `Tail`. Proof: specification of `rfind`.
  Status: proved; `Path.C20_directory_tail`, `Path.C20_recompose`, `Path.C20_root_directory` — the root directory is reported as "." (documented as all but the last component).
* **C21 Extension is the text after the last period of the last component.** Modelled: `Extension`. Proof: specification of `rfind` applied to the tail.
  Status: proved; `Path.C21_extension`, `Path.C21_extension_chars`.
* **C22 Path search returns the first existing candidate.** Modelled: `SearchPathList` over an abstract file system. Proof: induction on the path list.
  Status: proved; `Path.C22_search_first` — the file system is a parameter.
* **C23 Path search that finds nothing.** Modelled: `SearchPathList`. Proof: induction on the path list; witness for the documented behaviour being false.
  Status: proved; `Path.C23_search_nothing`, `Path.C23_documented_false`, `Path.C23_result_is_file_iff` — the documented behaviour is false (witness); the exact result is proved.
* **C24 Colon separated path lists.** Modelled: `GetPathListFromColonSeparatedList`. Proof: induction with the find position.
  Status: proved; `Path.C24_colon_list`, `Path.C24_join_split`.
* **C25 XML escaping is invertible and produces no markup.** Modelled: `ApplyEscapeSequences` with its find/replace loop and position arithmetic. Proof: loop invariant: escaped part so far / untouched rest; an inverse function is exhibited.
  Status: proved; `Measurement.C25_escape_exact`, `Measurement.C25_escape_invertible`, `Measurement.C25_escape_injective`, `Measurement.C25_printed`.
* **C26 Printed measurement is one well-formed element that reads back.** Modelled: printing of a measurement, `ReadXMLInput` with its handlers, expat as an abstract incremental parser. Proof: assumption `Conforms`: the parser delivers the events of a small document grammar; induction over chunks and events. Names that are lost: assumption `TagsFromText`, every reported start tag is in the text; where the tag and its quotes can be, by cases on the positions, and a reference is longer than what it stands for. `reference` shows the assumptions satisfiable.
  Status: proved; `Xml.C26_reads_back`, `Xml.C26_special_names_lost`, `Xml.C26_entities_decoded`, `Xml.C26_rest_lost`, `Xml.C26_line_ends` — for every XML parser that parses the small grammar correctly and, for C26_special_names_lost, reports only start tags that are in the text (both shown satisfiable); printable ASCII text.
* **C27 Integer and boolean measurements survive their text form.** Modelled: `SetValue`/`GetValue` for int and bool through decimal text. Proof: strong induction on the number of digits.
  Status: proved; `Measurement.C27_integer_roundtrip`, `Measurement.C27_decimal_unique`, `Measurement.C27_boolean_roundtrip`.
* **C28 Integer measurement of a long keeps its value.** Modelled: the `long` to `int` conversion. Proof: modular arithmetic.
  Status: proved; `Measurement.C28_long_truncated`, `Measurement.C28_long_lost` — false in the code (witness); the exact recorded value is proved.
* **C29 Tolerant numeric comparison is a symmetric, reflexive, tolerance-monotone relation.** Modelled: `IsEqual` with tolerance, with two abstract monotone rounding functions. Proof: order arguments over the rationals with a top element.
  Status: proved; `Measurement.C29_documented_formula`, `Measurement.C29_close_accepted`, `Measurement.C29_close_accepted_float`, `Measurement.C29_accepted_close`, `Measurement.C29_integer`, `Measurement.C29_integer_ub`, `Measurement.C29_symmetric`, `Measurement.C29_reflexive`, `Measurement.C29_sign_of_tolerance`, `Measurement.C29_monotone`, `Measurement.C29_not_transitive` — for every pair of monotone rounding functions; tolerances are finite.
* **C30 Zero tolerance means exact text comparison.** Modelled: `CompareVisitor` tolerance state. Proof: induction over the history of settings.
  Status: proved; `Measurement.C30_last_setting_wins`, `Measurement.C30_zero_tolerance_exact`.
* **C31 Raw data set is raw data read.** Modelled: the data block state machine of `MeasurementData`. Proof: each operation characterised, histories as lists of operations.
  Status: proved; `Measurement.C31_raw_data_read`, `Measurement.C31_content_read`.
* **C32 Base64 encoded data set is data read.** Modelled: as C31 with `Encode`/`Decode`. Proof: from C04/C06/C07.
  Status: proved; `Measurement.C32_base64_data_read`, `Measurement.C32_base64_never_reads_back` — false in the code for every non-empty data; the exact outcome is proved.
* **C33 Measurements equal to themselves and equality is symmetric.** Modelled: `IsEqual` of the measurement classes, files as a parameter. Proof: case analysis, with cells that may be indeterminate.
  Status: proved; `Measurement.C33_data_equal`, `Measurement.C33_file_data_equal`, `Measurement.C33_file_file_equal`, `Measurement.C33_image_not_self_equal`.
* **C34 Every measurement kind is visited exactly once and by the most specific handler.** Modelled: the visitor double dispatch: class hierarchy, fall-back to the base class handler. Proof: induction along the hierarchy.
  Status: proved; `Measurement.C34_nearest_handler`, `Measurement.C34_compare_handlers`.
* **C35 Argument parsing hands the remaining arguments through in order.** Modelled: `ParseAndRemoveArguments` with its pointer rotation. Proof: loop invariant on argv; the specification is a recursive description of the option prefix.
  Status: proved; `Regression.C35_options_removed`, `Regression.C35_remaining_is_suffix`.
* **C36 The last of repeated options wins and search paths are prepended.** Modelled: as C35. Proof: as C35; last pair wins by induction on the option prefix.
  Status: proved; `Regression.C35_options_removed`, `Regression.C36_expected_value`, `Regression.C36_refused_throws`.
* **C37 Argument parsing terminates.** Modelled: as C35 with fuel. Proof: exact characterisation of the argument lists on which no fuel suffices.
  Status: proved; `Regression.C37_endless_iff`, `Regression.C37_endless` — false in the code; exactly the non-terminating argument lists are characterised.
* **C38 Return value of a regression test.** Modelled: `Main` with the try block and handlers. Proof: case analysis over how the test ends.
  Status: proved; `Regression.C39_main_value`, `Regression.C38_record_value`, `Regression.C38_exception_value`, `Regression.C38_expectation_missed`, `Regression.C38_refused_option`, `Regression.C38_missing_baseline_accepted`.
* **C39 The number of failures is the number of positional mismatches.** Modelled: `CompareMeasurement` over the list of baseline measurements, tests as programs (trees of calls). Proof: induction over the program; spec `failures` compares position by position.
  Status: proved; `Regression.C39_positional_count`, `Regression.C39_main_value`, `Regression.C39_measured`, `Regression.C39_measured_unique`.
* **C40 Leftover baseline measurements are noticed.** Modelled: as C39. Proof: baseline suffixes do not influence `main`.
  Status: proved; `Regression.C40_leftovers_ignored`, `Regression.C40_nothing_measured_passes` — negative result.
* **C41 Record mode writes one well-formed document with the measurements in order.** Modelled: record mode of the calls, header and footer. Proof: induction over the program.
  Status: proved; `Xml.C41_record_lines`, `Xml.C41_recorded_document`, `Regression.C39_measured`.
* **C42 Reading the baseline file in chunks delivers the file exactly.** Modelled: the `fread` loop of 1024 bytes feeding the parser. Proof: induction on the file length.
  Status: proved; `Xml.C42_chunks_are_the_file`.
* **C43 Baseline parsing does not depend on how character data is split.** Modelled: the character data handler. Proof: induction over the event list; splitting is a congruence.
  Status: proved; `Xml.C43_text_splits`, `Xml.C43_reading`.
* **C44 Recorded baseline compared against an identical run passes.** Modelled: record run followed by compare run, through the file system and the XML reader. Proof: composition of C41, C26, C39.
  Status: proved; `Xml.C44_agrees_with_itself`, `Xml.C44_record_then_compare`, `Xml.C44_texts_and_numbers`, `Xml.C44_line_ends`, `Xml.C44_least_integer` — with the exceptions proved: line ends of another system, the least integer compared with tolerance.
* **C45 Any change of a measurement is detected on comparison.** Modelled: as C44 with two programs. Proof: composition; exact number of failures.
  Status: proved; `Xml.C45_changes_counted`, `Xml.C45_passes_iff` — the exact number of failures; a shorter run passes.
* **C46 Repeated runs on one test object are independent.** Modelled: `Main` called again and again on one object, with changes of files and settings in between. Proof: frame lemmas for each step of `Main`; induction over the history; witnesses.
  Status: proved; `Regression.C46_runs_not_independent`, `Regression.C46_counts_add`, `Regression.C46_options_stay`, `Regression.C46_expectation_stays`, `Regression.C46_failed_once_failed_for_ever`, `Regression.C46_exception_counts`, `Regression.C39_main_value` — independence is false in the code (witnesses); exactly what carries over is proved, for every history of calls.
* **C47 The image difference count is the number of pixels with no close neighbour.** Modelled: `DifferenceImageFilter::ThreadedGenerateData` over regions, faces and neighbourhoods. Proof: the per-pixel search loop computes a minimum; the counter is a fold.
  Status: proved; `Itk.C47_count`, `Itk.C47_count_interior`, `Itk.C47_count_boundary` — neighbours outside the test image are not considered; with the ignore-boundary flag only interior pixels count.
* **C48 The image difference count does not depend on the thread decomposition.** Modelled: any interleaving of the threads' pixel steps. Proof: permutation invariance of the fold, per-thread counters.
  Status: proved; `Itk.C48_schedule_independent` — the count; for the total see C70.
* **C49 Looser image tolerances accept more.** Modelled: as C47. Proof: monotonicity of the per-pixel minimum.
  Status: proved; `Itk.C49_monotone`, `Itk.C49_count_monotone`, `Itk.C49_identical`, `Itk.C49_zero_tolerance`.
* **C50 Image comparison passes up to the pixel tolerance.** Modelled: `CompareImage`, `RegressionTestImage` and the comparison visitor. Proof: integer arithmetic on the status.
  Status: proved; `Itk.C50_passes_iff`, `Itk.C50_tolerance_doubled`, `Itk.C50_compare_image`, `Itk.C50_run_passes_iff` — false in the code as documented (witness); the exact condition is proved.
* **C51 Images of different size never compare equal.** Modelled: as C50. Proof: the status of a size mismatch is above every tolerance.
  Status: proved; `Itk.C51_sizes_differ`, `Itk.C51_unreadable`.
* **C52 Generated image file names are distinct within a run.** Modelled: `GenerateFileName` with its counter and hash. Proof: injectivity of the decimal text; counter modulo 2^32.
  Status: proved; `Itk.C52_name`, `Itk.C52_names_distinct`, `Itk.C52_last_components_distinct`, `Itk.C52_slash_in_extension`, `Itk.C52_names_repeat` — true up to 2^32 names for one root, or for extensions without slash.
* **C53 Piping captures all output of the command in order.** Modelled: `tfPipeToXML`: argument echo, read loop, exit codes; the process is a parameter. Proof: induction on the chunk list.
  Status: proved; `Pipe.C53_captures`, `Pipe.C53_recorded`, `Pipe.C53_compared`, `Pipe.C53_no_argv`.
* **C54 Appending path names is associative.** Modelled: `Append`. Proof: from C19.
  Status: proved; `Path.C54_append_assoc`.
* **C55 Tail and directory of a joined path.** Modelled: `Append`, `Tail`, `DirectoryName`. Proof: from C19, C20.
  Status: proved; `Path.C55_tail_append`, `Path.C55_directory_append`.
* **C56 Raw data that was set is not printed and not copied.** Modelled: data block, printing, copy, assignment. Proof: direct, for all data.
  Status: proved; `Measurement.C56_raw_data_not_printed`, `Measurement.C56_copy_drops_data` — negative result.
* **C57 Comparing base64 measurements is defined.** Modelled: `IsEqual` on cells that may be indeterminate. Proof: from C32.
  Status: proved; `Measurement.C57_base64_compare_ub` — negative result.
* **C58 The factory knows exactly the six data types.** Modelled: `CreateDataMeasurement`. Proof: case analysis.
  Status: proved; `Measurement.C58_factory`.
* **C59 A tolerance affects numbers only and then compares values only.** Modelled: `CompareVisitor`. Proof: dispatch (C34) and case analysis.
  Status: proved; `Measurement.C59_tolerance_only_numbers`, `Measurement.C59_tolerant_by_value`.
* **C60 What a comparison writes.** Modelled: `CompareMeasurement`, `UnmatchedMeasurement`, `DifferenceMeasurement`. Proof: case analysis on the specification of agreement.
  Status: proved; `Regression.C60_comparison_output`.
* **C61 Return value of a measurement call.** Modelled: as C60. Proof: as C60.
  Status: proved; `Regression.C61_call_result`.
* **C62 The exit status reports failure.** Modelled: exit status is the value modulo 256. Proof: arithmetic; witness of 256 failures.
  Status: proved; `Regression.C62_exit_status`, `Regression.C62_256_failures_pass` — false in the code (witness).
* **C63 A readable baseline file is found.** Modelled: `BeginMeasurement`, `GetCompareMode`. Proof: for all worlds and search paths.
  Status: proved; `Regression.C63_search_path_hides_file`, `Itk.C107_baseline_file` — negative result; `C107_baseline_file` says which file is opened.
* **C64 Comparing does not modify the baseline.** Modelled: the steps of `Main` (`Verif/Parallel/Model.lean`); opening the output before the input. Proof: every step of a run leaves a file that is not its output alone (as for C116), and a run alone is `Main`; the exception by following `Main` to the reading of the emptied file, which a parser that rejects truncated documents rejects.
  Status: proved; `Parallel.C64_file_kept`, `Parallel.C64_same_file_fails`, `Regression.C64_output_overwrites_baseline` — the last two are the exception; files are identified by their names.
* **C65 Unchanged image files compare equal.** Modelled: `MeasurementFile::IsEqual` on image types. Proof: for all files.
  Status: proved; `Regression.C65_every_image_fails`, `Regression.C65_images_never_agree` — negative result.
* **C66 The standard output measurement.** Modelled: as C53. Proof: witnesses; quiet commands by induction.
  Status: proved; `Pipe.C66_quiet_command`, `Pipe.C66_not_standard_output`, `Pipe.C66_schedule_dependent` — negative result.
* **C67 An image with undefined pixel values fails.** Modelled: doubles as rationals or NaN. Proof: the comparison with NaN is false, fold stays 0; the exact condition from C50, counting the same pixels.
  Status: proved; `Itk.C67_undefined_pixels_count_as_equal`, `Itk.C67_nan_passes` — exact condition for radius 0 and exact arithmetic; with a radius and rounding: C50.
* **C68 Image comparison looks at the geometry.** Modelled: `RegressionTestImage`. Proof: the origin of the test image is not read; the spacing decides before the pixels.
  Status: proved; `Itk.C68_origin_ignored`, `Itk.C68_spacing_compared` — false in the code for the origin; true for the spacing.
* **C69 The region of an image comparison.** Modelled: `CompareImage`. Proof: the region argument is overwritten.
  Status: proved; `Itk.C69_region_ignored`, `Itk.Any.C69_outside_counts` — negative result.
* **C70 The total difference does not depend on the thread decomposition.** Modelled: sums per thread, with a rounding parameter. Proof: exact sums: permutation; rounding: witness.
  Status: proved; `Itk.C70_exact_sum_independent`, `Itk.C70_rounded_sum_depends`.
* **C71 Different arguments give different file names.** Modelled: the 16 bit hash of the arguments. Proof: witnesses and the format for all arguments.
  Status: proved; `Itk.C71_argument_boundaries_lost`, `Itk.C71_hash_collides`, `Itk.C71_format` — negative result.
* **C72 Compound measurements measure every element.** Modelled: `itktfRegression.h` loops. Proof: induction on the element list.
  Status: proved; `Itk.C72_integers`, `Itk.C72_doubles`, `Itk.C72_matrix`, `Itk.C72_region`, `Itk.C72_names_distinct`.
* **C73 The image comparison program applies the tolerances in order.** Modelled: `itktfImageCompare`. Proof: induction on the argument list.
  Status: proved; `Itk.C73_images_measured`, `Itk.C73_bad_arguments`.
* **C74 Image differences are recorded in the output file.** Modelled: `DifferenceVisitor` writing to `std::cout`; `Main` with a baseline and an output file. Proof: case analysis for one measurement; induction over the test for the run.
  Status: proved; `Itk.C74_difference_not_in_output`, `Itk.C74_output_empty` — negative result.
* **C75 An unreadable image counts as a failing measurement.** Modelled: ITK exceptions through `CompareMeasurement`. Proof: propagation of the exception; induction over the test; `Main` catches it.
  Status: proved; `Itk.C75_unreadable_image_ends_test`, `Itk.C75_last_measurement`, `Itk.C75_main` — negative result.
* **C76 On which hosts a recorded baseline can be read.** Modelled: the header comment with the host name, the recording and the comparing run of `Main`. Proof: C44 for the hosts without two hyphens; for the others the assumption `RejectsDoubleHyphen` on the parser, and an unreadable baseline makes `Main` return -1 for any test.
  Status: proved; `Xml.C76_exactly`, `Xml.C76_host_name_hyphens` — exact characterization; printable host names without `>`.
* **C77 A baseline without a type is reported.** Modelled: the start handler with a null measurement. Proof: for all attribute lists without type.
  Status: proved; `Xml.C77_missing_type_is_ub` — negative result.
* **C78 Every well-formed baseline is read or reported.** Modelled: the handlers' depth counter and assertions. Proof: for all documents with such a child.
  Status: proved; `Xml.C78_child_of_measurement`, `Xml.C78_text_before_child` — negative result.
* **C79 Unknown elements and the root name are ignored.** Modelled: the handlers. Proof: induction on the event list.
  Status: proved; `Xml.C79_unknown_ignored`.
* **C80 A Diff report and the first text determine the second text.** Modelled: printing of the edit list. Proof: a reader of reports is specified; induction on the edit list.
  Status: proved; `Diff.C80_report_rebuilds`, `Diff.C80_report_determines`, `Diff.C80_nul_hidden`.
* **C81 Data set with a compression is kept or reported.** Modelled: `SetContentAsData` with a compression attribute. Proof: case analysis.
  Status: proved; `Measurement.C81_compressed_data_dropped` — negative: exact behaviour with every compression attribute.
* **C82 A failed read of data fails again.** Modelled: data block after a failed decode. Proof: case analysis.
  Status: proved; `Measurement.C82_second_read`, `Measurement.C82_own_data` — negative: exact content of the block returned by the second read.
* **C83 What a baseline document means.** Modelled: element stack, measurement factory and reading loop; documents as forests of elements and text (`Xml/TreeSpec`). Proof: induction over the forest; every document of the grammar is one.
  Status: proved; `Xml.C83_reading`, `Xml.C83_every_document` — for every XML parser that parses the small grammar correctly (shown satisfiable).
* **C84 Text of floating point measurements.** Modelled: `operator<<` with precision 7 and 16: exact decimal rounding of rationals, `%g` layout. Proof: rounding and digit lemmas for all rationals; notation specified separately.
  Status: proved; `Decimal.C84_determined`, `Decimal.C84_zero`, `Decimal.C84_text`, `Decimal.C84_exact`, `Decimal.C84_integers`, `Decimal.C84_short_decimals` — the C++ standard's operator<< with correct rounding (glibc) is modelled.
* **C85 Without tolerance floating point values are compared by their text.** Modelled: as C84, with the comparison of C30. Proof: the text determines the rounded value and conversely; monotone rounding.
  Status: proved; `Decimal.C85_compared_by_text`, `Decimal.C85_far_values_differ`, `Decimal.C85_text_of_value`, `Decimal.C85_interval`, `Decimal.C85_collisions`, `Decimal.C85_negative_zero` — with the exceptions proved: collisions, negative zero.
* **C86 Infinities and NaN count as zero when compared with tolerance.** Modelled: infinity and NaN in `operator<<`, `num_get` accepting digits only. Proof: evaluation of the six texts, then for every other side.
  Status: proved; `Decimal.C86_text`, `Decimal.C86_as_zero`, `Decimal.C86_as_zero_float` — negative result.
* **C87 Reading back floating point measurements.** Modelled: `operator>>`: the characters collected, exact value, nearest number of the format. Proof: reading inverts the notation; nearest is best among the numbers of the format.
  Status: proved; `Decimal.C87_read_back`, `Decimal.C87_exact`, `Decimal.C87_not_exact`.
* **C88 Tolerance holds between the measured values.** Modelled: as C84, C87, with IEEE 754 rounding of the difference and the product. Proof: error propagation with rational inequalities.
  Status: proved; `Decimal.C88_double`, `Decimal.C88_float` — IEEE 754 arithmetic, round to nearest even.
* **C89 Recording and comparing values, end to end.** Modelled: the composition of all parts: the recording of a run, the reading of the file by a conforming XML parser, the comparison with IEEE 754 numbers, the difference of texts. Proof: composition of C84-C88, C27-C29, C76-C79, C15 and the accounting of the driver.
  Status: proved; `Whole.C89_record_and_compare`, `Whole.C89_passes` — all parts composed; plain texts of the same name must have no harmful clash of hashes (C17).
* **C90 A joined path names the file in the directory.** Modelled: path name resolution of the operating system on an arbitrary file system with a current directory; `Append`, `DirectoryName`, `Tail`, `SearchPathList`, `SetCurrentDirectory`. Proof: the walk along the parts of a path is a homomorphism for joining; list induction.
  Status: proved; `Path.C90_join`, `Path.C90_after_chdir`, `Path.C90_split`, `Path.C90_search` — for every file system (any nodes, links, mounts, permissions); splitting fails for a slash and a name (C20).
* **C91 The current directory can be asked for and returned to.** Modelled: `GetCurrentDirectory` with its buffer of 1024 bytes, `SetCurrentDirectory`, `chdir`, `getcwd`. Proof: case analysis; a file system with long names as witness.
  Status: proved; `Path.C91_return`, `Path.C91_result`, `Path.C91_deep` — holds for names of at most 1023 bytes; otherwise uninitialised memory is read, and this is reachable.
* **C92 SearchDirectory lists the directory.** Modelled: `SearchDirectory` as the entries of a directory. Proof: from C90.
  Status: proved; `Path.C92_search_directory`, `Path.C92_contains_itself` — the list also has the directory itself.
* **C93 The text of a watched filter depends only on its events.** Modelled: `FilterWatcher`: its call backs as a state machine over event histories. Proof: induction over the events; the pieces of text form a prefix code.
  Status: proved; `Itk.C93_text`, `Itk.C93_same_text`, `Itk.C93_uninitialised`, `Itk.C93_defined_iff` — iterations must come after a start, fewer than 2^31 between starts.
* **C94 Settings made by a test take effect as documented within the run.** Modelled: tests that call the `Set` functions of the object. Proof: the Get functions: from parsing (C35, C36) and the frame of beginning, and by induction over what the test does; names: simulation between runs with different names, by induction over the test; exact run for the negative part.
  Status: proved; `Regression.C94_told_what_the_command_line_says`, `Regression.C94_told_what_was_set`, `Regression.C94_calls_keep_settings`, `Regression.C94_names_have_no_effect`, `Regression.C94_naming_a_baseline_while_recording` — no effect of names: for tests that do not ask for them with the Get functions; the last is the negative part.
* **C95 The report about two images that differ.** Modelled: `DifferenceTestImage` and `ImageThing` as texts written until an exception, in a run. Proof: exact computation of each line; C47 for the number of pixels.
  Status: proved; `Itk.C95_report` — images read from files start at index 0; the texts ITK prints for sizes, vectors and regions are parameters.
* **C96 An interrupted recording is never accepted as a baseline.** Modelled: a run killed after any number of steps; the reader on a document cut anywhere. Proof: induction over the program; callbacks of a cut document are a beginning of those of the whole.
  Status: proved; `Xml.C96_killed_recording`, `Xml.C96_truncated_never_read`, `Xml.C96_killed_never_read`, `Xml.C96_cut_in_content_aborts`, `Xml.C96_truncated_baseline_fails`, `Xml.C96_interrupted_then_compared` — expat is assumed to reject cut documents (RejectsTruncated, RejectsUnfinished); measurements with clean names and printable content; every line is flushed (std::endl).
* **C97 Numbers in texts and on the command line are read up to the first character that does not belong to them.** Modelled: stream extraction of integers and reals; the readers of the image comparison program. Proof: every text has a unique split into white space, sign, digits, exponent and rest; rounding to even is unique.
  Status: proved; `Numbers.C97_unambiguous`, `Numbers.C97_integer`, `Numbers.C97_boolean`, `Numbers.C97_double`, `Numbers.C97_float`, `Numbers.C97_expected`, `Numbers.C97_unsigned`, `Numbers.C97_intensity`, `Numbers.C97_unsigned_text`, `Numbers.C97_pixels_minus_one`, `Numbers.C97_intensity_sign` — extraction as in libstdc++ (C++11), "C" locale, IEEE 754.
* **C98 Measurements of the baseline and open files are neither used after they were destroyed nor destroyed twice, and nothing is lost unless an exception is thrown.** Modelled: the history of `new`, access and `delete` of baseline measurements and file streams along every run of the existing model. Proof: an invariant of histories (what the object points to is alive, without repetition), preserved by every step; what is lost stays lost.
  Status: proved; `Life.C98_lifetimes`, `Life.C98_nothing_lost`, `Life.C98_destructor`, `Life.C98_exception_in_comparison`, `Life.C98_rejected_baseline`, `Life.C98_interrupted_recording`, `Life.C98_rest_of_baseline`, `Life.C98_streams_left_open`, `Life.C98_reopened_output`, `Life.C98_reopened_input` — measurements of the baseline and file streams; that nothing is lost holds only without exceptions, the losses with exceptions are proved.
* **C99 Memory of measurement data is freed exactly once and never used afterwards, except in SetContentAsData with a measurement's own data; assignment over data and a throwing comparison with a file lose memory.** Modelled: the history of `malloc`, `free`, `new`, `delete` and accesses of `DataMeasurement` and `MeasurementFile` under any sequence of calls on any number of measurements. Proof: the invariant of C98; simulation of the functions without memory; exact conditions for invalid histories and for losses.
  Status: proved; `Life.C99_valid_iff`, `Life.C99_own_block`, `Life.C99_lost_iff`, `Life.C99_pointer_stays`, `Life.C99_pointer_ends`, `Life.C99_pointer_ends_transfer`, `Life.C99_same_values` — malloc does not fail; memory of std::string is not modelled; reading a file succeeds once it is open.
* **C100 What the error stream says about a baseline: every oddity of the document is reported, in order, and a document read in silence is a regular one, with one exception.** Modelled: the reader of the baseline with the lines it writes to `std::cerr`. Proof: simulation of the reader without lines; induction over the callbacks of a document; each element has its messages in an independent specification.
  Status: proved; `Xml.C100_same_reader`, `Xml.C100_messages`, `Xml.C100_silent`, `Xml.C100_dropped_silently`, `Xml.C100_parse_error`, `Xml.C100_recorded` — for every XML parser that parses the small grammar correctly; the text of line number and reason in a parse error are parameters.
* **C101 What the error stream says about the command line: one line for every -O whose file cannot be written and nothing else; such an option also cancels an earlier good one.** Modelled: `ParseArguments` with the lines it writes to `std::cerr`. Proof: the decomposition of a command line into pairs (C21); induction over the pairs.
  Status: proved; `Regression.C101_same_parser`, `Regression.C101_messages`, `Regression.C101_every_command_line`, `Regression.C101_output_lost`.
* **C102 What the error stream says about the data of measurements: silence means the data is right.** Modelled: `UpdateContentAsData`, `GetContentAsData`, `SetContentAsData`, `IsEqual`, `Load` with the lines they write to `std::cerr`. Proof: simulation of the functions without lines; case analysis; reading twice says nothing new exactly if reading once is silent.
  Status: proved; `Measurement.C102_same_answers`, `Measurement.C102_read`, `Measurement.C102_read_silent`, `Measurement.C102_silence_is_right`, `Measurement.C102_compression_ignored`, `Measurement.C102_set`, `Measurement.C102_compare_silent`, `Measurement.C102_files` — the arguments of memcmp are evaluated from right to left.
* **C103 Images measured by a test are kept in files of their own and compared with the images recorded, unless both runs have the same arguments.** Modelled: `MeasurementInsightImage`: the generated name, the file written, the measurement of that file; a test that measures any number of images. Proof: the hash of the arguments is a bijection in each character; induction over the images with the files of the run; recording and comparing runs of `Main` composed through the baseline document.
  Status: proved; `Itk.C103_own_files`, `Itk.C103_one_character`, `Itk.C103_record_and_compare_files`, `Itk.C103_record_and_compare`, `Itk.C103_same_directory`, `Itk.C103_same_arguments`, `Itk.C103_same_arguments_pass` — what ITK writes for an image and reads from a file are parameters, the image coming back as it was written; up to 2^32 images; `C103_same_arguments` is the negative part.
* **C104 The image comparison works the same for every type of pixels.** Modelled: the filter and `CompareImage` with pixels, differences, output pixels and magnitudes of any types; scalars, vectors and complex numbers as instances. Proof: induction over the schedule and over the neighbourhood with the smallest distance so far; the scalar model is shown to be an instance.
  Status: proved; `Itk.Any.C104_result`, `Itk.Any.C104_defined`, `Itk.Any.C104_schedule_independent`, `Itk.Any.C104_compare`, `Itk.Any.C104_sizes_differ`, `Itk.Any.C104_scalar`, `Itk.Any.C104_vector_euclidean`, `Itk.Any.C104_vector_nan`, `Itk.Any.C104_vector_components`, `Itk.Any.C104_complex` — ITK itself is not modelled; the total magnitude (a sum of rounded square roots) depends on the schedule, see C70.
* **C105 CompareImage can be used with images of unsigned char.** Modelled: the same filter for unsigned char, with a partial conversion of differences. Proof: instance of the general theorem; the sign of the difference decides.
  Status: proved; `Itk.Any.C105_byte` — radius 0; differences of unsigned char are exact in double, squares too.
* **C106 The intensity tolerance is a bound on the difference of doubles.** Modelled: the same filter for IEEE doubles: rounding to nearest, subnormal numbers, overflow, infinities, NaN. Proof: the squares of neighbouring doubles round to different numbers (error bound u/(1+u)), so the comparison of squares decides exactly; monotonicity of rounding; the smallest positive double decides what zero tolerance sees.
  Status: proved; `Itk.Any.C106_exact`, `Itk.Any.C106_within`, `Itk.Any.C106_tolerated`, `Itk.Any.C106_found`, `Itk.Any.C106_zero`, `Itk.Any.C106_zero_exact`, `Itk.Any.C106_huge`, `Itk.Any.C106_special` — rounding to nearest; the square root is used only for the total magnitude; `C106_zero` has the negative part.
* **C107 Where a run finds its baseline and the recorded images; an ITK regression test looks in its data directory only.** Modelled: the constructor of itk::Regression, parsing, the search for the baseline and for baseline files, recording and comparing images. Proof: the search characterised by an inductive relation; the runs of C103 with the world changed between them.
  Status: proved; `Itk.C107_one_place`, `Itk.C107_baseline_file`, `Itk.C107_relative_baseline`, `Itk.C107_kept_in_data_directory`, `Itk.C107_image_not_in_data_directory`, `Itk.C107_not_beside_the_test` — what ITK writes for an image and reads from a file are parameters; the last two are the negative part.
* **C108 CompareImage of two image files.** Modelled: the two other overloads of `CompareImage` (files, region) on top of the generic comparison of C104. Proof: from C104; images read from files start at index 0, so equal sizes give equal regions; the relation to a run from C50.
  Status: proved; `Itk.Any.C108_result`, `Itk.Any.C108_same_iff`, `Itk.Any.C108_region`, `Itk.Any.C108_run_and_static` — pixel types whose differences can always be converted to the output type; for unsigned char see C105.
* **C109 Statistics of the difference filter.** Modelled: the statistics of the filter: sums of the threads, total, mean; the correctly rounded square root of doubles. Proof: the rounded root is characterised by its spec and unique; relative error of one rounded sum is at most 2^-53 also for subnormals, induction over the pixels of each thread and over the threads; the root of the rounded square of a double is that double; sums of multiples of a power of two are exact.
  Status: proved; `Itk.Any.C109_total`, `Itk.Any.C109_exact`, `Itk.Any.C109_whole`, `Itk.Any.C109_mean`, `Itk.Any.C109_infinite`, `Itk.Any.C109_distances`, `Itk.Any.C109_fresh`, `Itk.Any.C109_threads` — the pipeline of ITK (whether a run is necessary at all) is not modelled; `C109_threads` is the negative part.
* **C110 The image comparison program, from its files to its exit status.** Modelled: the program: constructor, Main, the loop over the arguments, search, comparison, recording. Proof: the result characterised by an inductive relation between baseline and arguments, shown functional; induction over the argument list with the frame of each call; the document by C41 and read back by C26.
  Status: proved; `Itk.C110_compare`, `Itk.C110_one_finding`, `Itk.C110_passes`, `Itk.C110_no_entries`, `Itk.C110_bad_arguments`, `Itk.C110_record`, `Itk.C110_record_and_compare`, `Itk.C110_expected`, `Itk.C110_no_baseline`, `Itk.C110_bad_arguments_expected` — `C110_no_entries`, `C110_expected`, `C110_no_baseline` and `C110_bad_arguments_expected` are the negative parts; the PNG files written for a failed comparison are not modelled.
* **C111 Rounding does not matter when images of whole numbers are compared in a run.** Modelled: the arithmetic of doubles as an instance of the parameter of the models of the runs (C50, C103, C110), related to the IEEE model of C106. Proof: simulation of the search, the filter and the schedule, magnitudes beyond the largest double counting as infinite; differences of whole numbers are exact and squares of doubles are ordered as the doubles (C106).
  Status: proved; `Itk.Any.C111_model`, `Itk.C111_differs`, `Itk.C111_whole_numbers`, `Itk.C111_alike`, `Itk.C111_runs`, `Itk.C111_program` — rounding to nearest; images without infinities and tolerances below 2^512 for the equivalence of the two models of double; readers are parameters.
* **C112 What the error stream says about exceptions: every exception that ends a run is reported by exactly one line with its most specific standard class and its text, after the lines about the command line and the baseline.** Modelled: the catch clauses of `Main` in their order, the texts of the exceptions of parsing and opening, the lines of C100 and C101 in a whole run. Proof: the model with lines forgets to the model without; the chain of base classes is forced by the standard hierarchy, so the first matching clause is the most specific one; induction over the accepted options.
  Status: proved; `Xml.C112_handler`, `Xml.C112_same_main`, `Xml.C112_refused`, `Xml.C112_output`, `Xml.C112_input`, `Xml.C112_parse_error`, `Xml.C112_test` — single inheritance; what the test itself writes, and what comparisons write about data (C102), is not kept; command lines that end in an option without a value never end (C37).
* **C113 The project's own tests of image measurements, for all contents of the image files and every noise: the first passes whatever the images are, the second exactly if both pairs differ, the third exactly if the copied image is the recorded one, the fourth for every noise.** Modelled: the four tests of itktf/Testing as programs of the model of `Main`, the entries of their baselines. Proof: induction over the row of files with the frame of each call; the files that are written are followed through the world; rounding to float is monotone and fixes the halves, so that rounded sums stay within one half.
  Status: proved; `Itk.C113_rows`, `Itk.C113_test1`, `Itk.C113_test2`, `Itk.C113_filter`, `Itk.C113_filter_fails`, `Itk.C113_test3`, `Itk.C113_noise`, `Itk.C113_test4`, `Itk.C113_test4_usage` — `C113_test1` is a negative result about the test; ITK readers, writers and the random source are parameters, the pixels of the files being of the types the tests read; the baseline is given by an absolute name; files that are written are different from the baseline and the recorded image.
* **C114 Compound ITK values recorded and compared component by component.** Modelled: tests as lists of compounds, each measured by the functions of itktfRegression.h; the region test of the repository with the bytes of its baseline. Proof: the program of a list of compounds equals the straight program of its components, to which the bounds of C89 (generalised to search paths, other arguments and moved documents) apply; counting by induction; the baseline of the repository is the recording of a run in a world with its host and date.
  Status: proved; `Whole.C114_compounds`, `Whole.C114_regions`, `Whole.C114_wraps`, `Whole.C114_repo_region`, `Whole.C114_repo_region_fails` — `C114_wraps` is a finding: sizes n and n + 2^32 are not told apart; dimensions and names must be the same in the two runs (C89 covers the rest through the list of measurements); what ImageFileReader finds out about a file is a parameter; numbers of points and matrices are converted to double exactly.
* **C115 tfPipeToXML recorded and compared end to end.** Modelled: `tfPipeToXML` of C53 inside `Main` with the XML reader, IEEE numbers and the real diff; `Verif/Pipe/RunSpec.lean` states results and injected arguments. Proof: the program is a straight test after an announcement; C107 for the command line and the baseline, C39 for the count; reading back by the grammar of C26.
  Status: proved; `Pipe.C115_record_and_compare`, `Pipe.C115_passes`, `Pipe.C115_standard_output`, `Pipe.C115_from_standard_output`, `Pipe.C115_injection` — ends with two negative results: a successful command passes a test that expects a failure whatever it writes, and arguments can inject measurements; printable output; sizes within the int arithmetic of the diff.
* **C116 Runs at the same time do not disturb each other.** Modelled: `Verif/Parallel/Model.lean`: `Main` of `Verif/Regression` taken apart into steps, processes on shared files, schedules; `Verif/Parallel/Spec.lean`: footprints, runs within and apart from them. Proof: every step is shown to depend only on the files of the footprint (locality) and steps of others to leave them (frame), by an invariant for the stages; induction over the schedule; alone the steps are `Main`, by induction over the test.
  Status: proved; `Parallel.C116_any_schedule`, `Parallel.C116_result`, `Parallel.C116_all`, `Parallel.C116_alone`, `Parallel.C116_images`, `Parallel.C116_race` — files are identified by names; a measurement call is one step; two runs writing one file: C124.
* **C117 A recording that does not fit on the disk goes unnoticed, but never becomes a baseline that passes.** Modelled: `Verif/Parallel/FullDisk.lean`: the steps of `Verif/Parallel/Model.lean` with an output that takes n bytes; `Verif/Parallel/FullDiskSpec.lean`: tests that ignore a file. Proof: simulation: the limited run and the unlimited run are in step, with the same process and files that differ only by the cut (appending commutes with taking the first n bytes); then C41 (the full document) and C96 (truncated documents are rejected).
  Status: proved; `Parallel.C117_full_disk`, `Parallel.C117_incomplete_never_passes`, `Parallel.C117_any_run` — the first half is a finding: the stream is never checked; the output is a file given with -O (not standard output); `C117_any_run` is about comparing runs too; what does not fit is lost for good, as with a stream in error state; the second half is under the assumption on the XML parser of C96 (it rejects truncated documents), which the reference parser is proved to meet.
* **C118 The verdict depends on the files that are read and on nothing else around the run.** Modelled: the steps of `Verif/Parallel/Model.lean`; `Verif/Parallel/IndependentSpec.lean`: surroundings that agree on what is read, runs with interference. Proof: two runs in step: a relation between worlds that forgets host, time, standard output and the contents of outputs is preserved by every step (the same lemmas as for C116, which are proved for every relation that is preserved by writing and opening).
  Status: proved; `Parallel.C118_verdict`, `Parallel.C118_main` — output files are not among the files that are read; interference happens between steps (a measurement call is one step); files are identified by names.
* **C119 The error stream of a run is what the test writes and what cannot be read, in order; differences are never reported there.** Modelled: `Verif/Stderr/Model.lean`: visitors, measurement calls, tests that also write to the error stream, `Main`, each with what is written; `Verif/Stderr/Spec.lean`: the lines for a pair of an entry and a measurement. Proof: the model with lines forgets to the model without (C102, C112); case analysis of the comparison of data and files with the lines of C102; induction over the test.
  Status: proved; `Stderr.C119_same_run`, `Stderr.C119_run`, `Stderr.C119_not_called`, `Stderr.C119_recording`, `Stderr.C119_unmatched`, `Stderr.C119_call`, `Stderr.C119_recorded`, `Stderr.C119_compared`, `Stderr.C119_differences` — arguments of memcmp are evaluated from right to left (as in C102); what is said about images is a parameter here, see C120; the terminate and unexpected handlers are not modelled.
* **C120 What is said about images.** Modelled: `Verif/Stderr/Images.lean`: the visitors of `itk::Regression` with both streams. Proof: the steps of the report are run one after the other up to an exception; the call is followed to its end and C119 gives the run.
  Status: proved; `Stderr.C120_same_text`, `Stderr.C120_baseline_unreadable`, `Stderr.C120_test_unreadable`, `Stderr.C120_readable`, `Stderr.C120_run` — descriptions of exceptions of ITK and the outcome of rescaling and writing are parameters; a file of which only the header can be read is not modelled.
* **C121 What the programs say.** Modelled: `Verif/Stderr/Programs.lean`: the two programs as tests of C119; `Verif/Stderr/ProgramsSpec.lean`: end states, wrong arguments. Proof: the programs are shown equal to the measurements followed by one line or none, by induction over the arguments; C119 gives the run.
  Status: proved; `Stderr.C121_same_pipe`, `Stderr.C121_same_image`, `Stderr.C121_pipe`, `Stderr.C121_pipe_run`, `Stderr.C121_image_fine`, `Stderr.C121_image_wrong`, `Stderr.C121_image_cases`, `Stderr.C121_image_usage`, `Stderr.C121_image_run` — `C121_image_usage` is a finding: no arguments are not a failure; the process library and the reading of numbers are parameters.
* **C122 What the predicates of path names say.** Modelled: `Verif/Path/Model.lean`: the predicates of `PathName`; `Verif/Path/DiskSpec.lean`: path name resolution on any file system. Proof: the predicates are unfolded for a name that leads somewhere or nowhere; resolution of a name with a slash behind it by the lemmas on walks.
  Status: proved; `Path.C122_predicates`, `Path.C122_consistent`, `Path.C122_trailing_slash`, `Path.C122_nul`, `Path.C122_set_current_directory`, `Path.C122_same_model` — nothing changes between the two questions `IsReadable` and `IsWritable` ask the system; the branches for WIN32 are not modelled.
* **C123 The project's own test of arguments fails once for every argument that differs.** Modelled: the tests of TestingFramework/tests as programs (`Verif/Whole/OwnTests.lean`), the arguments test in the whole model of C89; `Verif/Whole/OwnTestsSpec.lean`: positions that differ. Proof: the test makes calls that are known once the expectation is; `Verif/Whole/CallsRun.lean` follows recording (C35, C41) and comparing runs (C107, C39) of any such test; counting by induction over the arguments.
  Status: proved; `Whole.C123_arguments` — the comparing object has a number as tolerance, otherwise the one of a new object; the document is compared without being changed (C116 for the other case).
* **C124 Runs that record to the same file at the same time.** Modelled: `Verif/Parallel/Shared.lean`: the steps of C116 with a buffer and a place in the file for every output stream; `Verif/Parallel/SharedSpec.lean`: tests that only measure, what a run leaves alone. Proof: invariant over schedules: every process is where it is alone after some number of steps, its stream has put a first part of what it wrote into the file, and every byte of the file comes from a stream that has got so far, all bytes up to the place of the stream opened last; the reading by C83 with the time replaced; the negative parts by a schedule.
  Status: proved; `Parallel.C124_shared_output`, `Parallel.C124_same_length`, `Parallel.C124_same_document`, `Parallel.C124_same_measurements`, `Parallel.C124_overwritten`, `Parallel.C124_unreadable` — the last two are findings: recordings destroy each other and no run notices. Tests that do other things with files are left out; a stream writes its buffer in any pieces, each where its last one ended, as write(2) on a file opened without O_APPEND; two runs that open the file write to the same file, not to one each.
* **C125 What Main does to the caller's array of arguments, and a second run with it.** Modelled: `Verif/Regression/CallerArgv.lean`: the loop of `Arguments` that takes the options out, with the whole array of the caller; `argvAfter`: the array after `Main`. Proof: the loop is shown to give the list of the model of `Main` in front and the options behind; every step permutes the array; the second run by C31 and C32 on what is left.
  Status: proved; `Regression.C125_array`, `Regression.C125_array_refused`, `Regression.C125_permutation`, `Regression.C125_second_run_reversed`, `Regression.C125_second_run_without_options`, `Regression.C125_second_run_compares_nothing`, `Regression.C125_same_parser` — tests that leave their arguments alone; the last two theorems on the second run are findings.
* **C126 Visitors and the parser of a run are destroyed exactly once and never used afterwards, unless an exception is thrown: then a call of Main loses none, one or two, depending on where it is thrown.** Modelled: `Verif/Life/Visitors.lean`: the history of `new`, access and `delete` of visitors and parsers along every run of the existing model; `Verif/Life/VisitorsSpec.lean`: exactly n objects lost, where a test fails. Proof: the list of the objects that exist is followed through every function with the number it adds; the sum over the calls of `Main`.
  Status: proved; `Life.C126_lifetimes`, `Life.C126_nothing_lost`, `Life.C126_quiet_call`, `Life.C126_bound`, `Life.C126_for_good`, `Life.C126_not_begun`, `Life.C126_own_end`, `Life.C126_rejected_baseline`, `Life.C126_comparison_fails`, `Life.C126_difference_fails`, `Life.C126_image_exception` — the losses are findings; memory does not run out, so that comparing values ends only by undefined behaviour (C126_comparison_fails).
* **C127 Different options can be given in any order, and overruled ones left out.** Modelled: the parser of the command line with its messages, `Main` with the error stream. Proof: the settings (C35) and the messages (C101) depend on the values of each option only; `Main` depends on the command line through them.
  Status: proved; `Stderr.C127_any_order`, `Stderr.C127_overruled`, `Stderr.C127_paths_order` — `C127_paths_order` is a negative result; refused options: C38_missing_baseline_accepted.
* **C128 A test that measures one thing when it records and another when it compares is held to what it measures then; the project's own test of differences finds six.** Modelled: tests that look at `GetCompareMode()` in the whole model of C89, tfRegressionTestTest3 of `Verif/Whole/OwnTests.lean` among them. Proof: `Verif/Whole/CallsRun.lean` follows the recording run and the comparing run, the counts are bounded as in C89; for the test of the project the values are computed and the bounds coincide.
  Status: proved; `Whole.C128_two_modes`, `Whole.C128_test3`, `Whole.C128_test3_tolerant` — `C128_test3_tolerant` is a negative result; plain texts of the same name must have no harmful clash of hashes (see C17).
* **C129 A tolerance set during a test holds for the measurements after it and for no others; the project's own test with a tolerance passes against any recording of itself.** Modelled: tests that call `SetRelativeTolerance` between their measurements in the whole model of C89, tfRegressionTestTest2 of `Verif/Whole/OwnTests.lean` among them; `Verif/Whole/StepsSpec.lean`: the tolerance in force. Proof: the measurements are observed with the tolerance in force (induction over the steps), the counts are bounded as in C89 one by one.
  Status: proved; `Whole.C129_tolerances`, `Whole.C129_test2` — tolerances from 0 to 1; plain texts of the same name must have no harmful clash of hashes (see C17).
* **C130 A test of files is held to the files found by their last name; the project's own tests of files.** Modelled: tests that measure files (text, PNG, JPEG) in the whole model of C89, tfRegressionTestTest4 and tfRegressionTestOutputTest2 of `Verif/Whole/OwnTests.lean` among them; `Verif/Whole/FilesSpec.lean`: when two measurements are of the same text, with the search of C107. Proof: every call ends normally and leaves the files as they are (induction over the calls); agreement with the recorded measurement is reduced to the bytes of the file found, position by position.
  Status: proved; `Whole.C130_files`, `Whole.C130_test4`, `Whole.C130_outputTest2` — the comparing run writes to standard output; without the subclass itk::Regression (C103 for its images).
* **C131 A document without measurements makes every measurement fail; the project's own tests of the output.** Modelled: any calls of the measurement functions in the whole model of C89, tfRegressionTestTest1, tfRegressionTestOutputTest1 and tfRegressionTestOutputTest2 of `Verif/Whole/OwnTests.lean` among them. Proof: without measurements to compare with every call ends normally and counts once (induction over the calls); against its own recording OutputTest1 is an instance of C129.
  Status: proved; `Whole.C131_nothing_recorded`, `Whole.C131_own_tests`, `Whole.C131_outputTest1` — the comparing run writes to standard output.
* **C132 Texts may be recorded as values and measured as files, but not the other way round; tests of values and files with tolerances.** Modelled: the calls of C129 and C130 mixed, in the whole model of C89; `Takes` of `Verif/Whole/MixSpec.lean` says what is accepted for what. Proof: every comparison of a value or a file with a recorded value or file can be carried out (`thing_visit`), so each call changes only standard output, the baseline left and the counter; induction over the test; then position by position as in C129 and C130.
  Status: proved; `Whole.C132_mixed`, `Whole.C132_own_recording` — numbers are held to tolerances between the two bounds of C89; differing texts must be patchable (C15), the recorded file name being what a text is compared with in the report; the comparing run writes to standard output.
* **C133 What a test has set at its end decides what its run returns.** Modelled: the tests of C132 followed by the setters and a value, in the whole model of C89; `CanBeRead` of `Verif/Whole/LateSpec.lean` says when the last settings name a readable file. Proof: the run of the whole is the run of the measurements (C132) and then of the setters (`actsThen_run`, `endProg_run`), which leave the count alone; the final `GetCompareMode` of `Main` is `CanBeRead` of the last settings (`present_iff`, by the lookup of C107).
  Status: proved; `Whole.C133_what_counts` — numbers and differing texts as in C132; the recording is made by the test without the calls at the end; baseline names are looked up in the state of the files during the run (the test does not change files).
* **C134 A baseline that is named inside the test is never read: the later measurements fail and the document is cut.** Modelled: `namingTest`: measurements, `SetInFileName`, measurements, a value, in the model of `Main` of C38; `unmatchedLines` of `Verif/Whole/NamedSpec.lean` says what is written, `CanBeRead` when the name counts. Proof: `GetCompareMode` depends only on the stream, the name, the directories and the state of the files (`mode_congr`, `present_iff`), which measurements do not change; induction over the measurements with nothing compared (`early_off`) and with no baseline left (`straight_on`).
  Status: proved; `Whole.C134_named_inside` — the output file must be new or writable; a file that is opened for output exists afterwards, empty (the model of C41), and this is the state in which the baseline is looked up.
* **C135 Options and setters called before Main are the same.** Modelled: `Main` as in C38; the setters of `Verif/Regression/SettersSpec.lean` change one member of the object each. Proof: the calls one after the other leave the settings that C35 describes for the options (`afterSetters_options`, induction from the last option); from there both runs are the same.
  Status: proved; `Regression.C135_options_are_setters` — accepted options only: refused ones end the run, and -O values that cannot be written are ignored (C101); the -R number is what strtol reads (C36).
