# Formal model of CXMLTestFramework in Lean 4 — design

## Approach

* The C++ sources under `/repo` are modelled function by function as total, computable Lean
  definitions in `lean/Verif/<Area>/` (`Model.lean`, and `Lines.lean`, `Compare.lean`, `Difference.lean`, `Names.lean`,
  `Visitor.lean`). Every definition cites the file and lines it models, and states its simplifications.
* `std::string` / byte buffers are `List UInt8` (`Verif.Str`); C indices are `Nat` or `Int`; where wrap-around or
  signedness matters (`char` table index, `int` conversion, `unsigned` search bounds, 64 bit and 16 bit hashes) it is modelled explicitly.
* C++ exceptions, failed assertions, undefined behaviour and non-termination are distinct outcomes
  (`Verif.Fault`), never assumed away. Out-of-range accesses and reads of indeterminate memory are faults (or, for the reads
  inside Diff's assertions, a parameter: what lies outside the array).
* Loops are structural recursion where the bound is visible, or take *fuel*; termination theorems then show that a
  computable amount of fuel always suffices (or that none does), and the property theorems hold for every larger amount of fuel.
* A test (a user's `Test` method) is a *program*: a tree of measurement calls whose continuation depends on the result of
  each call, that can look at and change the files and the settings of the object (`Get`/`Set` functions) and can end by returning a value or by an exception (`Regression.Prog`). Theorems about `Main` hold for every program.
* The file system, the clock/host name, expat's tokenizer, ITK readers and arithmetic, and the child process are parameters.
* Each area has a small specification file (`Spec.lean`, `CompareSpec.lean`, `RunSpec.lean`, `NamesSpec.lean`, `FormatSpec.lean`), written
  without reference to the model's helpers, lemma files, and `*Props.lean` with the property theorems (named `Cnn_...`); beside the
  theorems there are `example`s showing that the hypotheses are met by a non-trivial case.
* Where the code violates what a user relies on (documentation or common sense) the negation is
  proved with a concrete witness, and the strongest true statement that was found is proved for all inputs.

## Areas

| area | code | model | method |
|---|---|---|---|
| Base64 (C01–C11) | `tfBase64.cpp` | `Verif/Base64` | loop invariants, bit-stream spec, simulation |
| Diff (C12–C18, C80) | `tfDiff.cpp` | `Verif/Diff` | fuel-based model of the Myers search with explicit diagonal buffer, invariants for validity, in-box and termination |
| Paths (C19–C24, C54, C55, C90–C92) | `PathName.cpp`, `FileUtilities.cpp` | `Verif/Path` | list induction, `rfind`/`find` specifications |
| Measurements (C25, C27–C34, C56–C59, C81, C82) | `tfMeasurement.{h,cpp}`, `tfMeasurementVisitor.{h,cpp}` | `Verif/Measurement` | state machine of the data cache, escaping, numeric text, ordered-field tolerance |
| Regression driver (C35–C40, C46, C60–C65, C94) | `tfRegressionTest.{h,cpp}` | `Verif/Regression` | state machine, refinement to positional comparison |
| XML reading, record and compare (C26, C41–C45, C76–C79, C83, C96) | `tfRegressionTest.cpp` (handlers, `ReadXMLInput`) | `Verif/Xml` | abstract incremental parser, event grammar, composition |
| ITK part (C47–C52, C67–C75, C93, C95) | `itktf/*` | `Verif/Itk` | finite sums over schedules, decision logic |
| Floating point text (C84–C88) | `tfMeasurement.cpp` (`SetValue`, `GetValue`), `tfMeasurement.h` | `Verif/Decimal` | rational arithmetic, decimal and binary rounding, error propagation |
| Numbers (C97) | extraction of numbers from streams, `strtol`, itktfImageCompare.cxx:28-109 | `Verif/Numbers` | exact against a grammar of numbers |
| Lifetimes (C98, C99) | `tfRegressionTest.cpp` (`new`, `delete`, `Input`, `os`, `is`), `tfMeasurement.cpp` (`malloc`, `free`, `data`) | `Verif/Life` | invariants over histories of heap events |
| The parts together (C89, C114) | all of the above except ITK | `Verif/Whole` | composition; `Whole/RepoTests.lean` evaluates the project's own tests in the model |
| Pipe (C53, C66, C115) | `tfPipeToXML.cxx` | `Verif/Pipe` | induction over chunk sequences |
| Runs at the same time, full disks, interference (C116-C118) | `tfRegressionTest.cpp` (`Main` and all it calls) | `Verif/Parallel` | locality and frame of steps, induction over schedules; simulation |

## Trusted base

* Lean 4.33.0's kernel, and the axioms `propext`, `Classical.choice`, `Quot.sound`. No theorem depends on any other axiom; there is
  no `native_decide`, `bv_decide`, `implemented_by`, `extern` or `unsafe` in the sources. Some counterexamples and examples are closed with
  `decide` / `decide +kernel` (evaluation in the kernel); no universally quantified property rests on such an evaluation
  except for finite tables (the 256 entries of the base64 table and its inverse).
* Faithfulness of the transcription C++ → Lean: each definition cites its lines; the code was never run. As a check of the transcription,
  `Whole/RepoTests.lean` runs the project's own tests with their baselines in the model and gets the results the project expects (evidence, not a theorem).
* The specifications, which should be read: `*/Spec.lean`, `*/*Spec.lean`.

### What is modelled, with assumptions

* **Platform**: POSIX branches, `char` signed, `int` 32 bit, `long` and `size_t` 64 bit, C locale, assertions active (no `NDEBUG`),
  allocation never fails, string sizes below 2^63. `ptrdiff_t` and the counters `inputUnmatched` and image sizes are unbounded integers
  (except where a property is about their wrap-around: C28, C52, C62, the `unsigned` bounds in Diff).
* **Base64**: everything in `tfBase64.cpp`. The `unsigned int` lengths are unbounded except where `Measurement` narrows a size.
* **Diff**: everything in `tfDiff.cpp`. Lines with the same 64 bit hash are harmful exactly if `TopClear` fails (C17_ub_iff). The multimap is a list
  sorted by key, equal keys in the order of insertion (as in libstdc++ and since C++11 required).
* **Paths**: string functions, `SearchPathList`, colon lists, permission queries, `SetCurrentDirectory`; `stat`/`access` are parameters
  (a snapshot of the file system); for C90–C92 they come from a file system with nodes, names and a current
  directory (`DiskSpec.lean`, POSIX path name resolution; exactly two leading slashes mean the root, as on Linux). The stat cache members are never read by the code and are left out.
* **Measurements**: classes, data cache, escaping, printing, integer/boolean text, tolerant comparison, visitors. Floating point: values are
  rationals, each operation is followed by a monotone rounding function (parameter) that may overflow to an infinite value; tolerances are finite;
  the text of float and double values and its parsing are parameters
  (`NumEnv`) there, and instantiated in `Decimal`. `malloc` never returns null (blocks: C99).
* **Floating point text**: `operator<<` and `operator>>` of float and double as the C++ standard specifies them in the C locale, on IEEE 754 formats, with
  correct rounding (glibc); infinities and NaN can be written, and are never read (libstdc++'s `num_get` collects no letters but `e`). `FLT_EVAL_METHOD` 0.
* **Regression**: arguments, `Main`, begin/end, all measurement calls, comparison, output. Files are named byte strings; a file can be opened for
  writing if the world says so. `std::cerr` output is modelled in C100-C102, C112 and C119-C121 (reader of the baseline, command line, data of measurements, exceptions, visitors, programs) and ignored elsewhere. Time, host name are parameters.
* **XML**: handlers and the reading loop are modelled; expat is an abstract incremental parser (`Expat`), about which C26, C41, C44, C45 assume
  `Conforms` (it delivers the events of the documents of a small grammar, for every split into chunks), C26 `TagsFromText` (every start tag it reports is in the text, and a
  reference in an attribute is longer than what it stands for), C76 `RejectsDoubleHyphen`,
  C96 `RejectsTruncated` and `RejectsUnfinished`.
  `Reference.lean` defines such a parser, so the assumptions are consistent.
* **ITK**: pixel values are rationals or NaN (no infinities) and arithmetic has a rounding parameter, except in C104 (any types of pixels and magnitudes), C105
  (unsigned char) and C106 (IEEE doubles with infinities; C111 relates them to the runs), its statistics (total and mean magnitude) in C109; readers, names of pixel types, PNG writers are
  parameters. The PNG files written by `ImageThing` are not kept; a file of which only the header can be read is taken as unreadable.
  `MeasurementInsightImage` (C103): the writer is a function from images to bytes; a file that cannot be created makes it throw, a full disk is not modelled.
  `itktfFilterWatcher.h`: the registration of the call backs with ITK is taken as given.
* **Full disk** (C117): after every step the output file keeps its first n bytes; the C++ stream buffers less than a step writes, so this is what a stream in error state leaves at the end of the step. Errors of closing, of reading and of standard output are not modelled.
* **Runs at the same time** (C116): a step is an action of `Main` on its files, one measurement call or one action of the test; files are identified by their names (no links, no two
  names of one file); two processes that write to the same file: C124.
* **Process library** of `tfPipeToXML`: a list of chunks with their source and an end state.

### Not modelled

WIN32 branches (they do not compile: `#error` in `PathName.cpp`), the buffering of `std::cerr` and `std::cout` relative to each other, memory other than that of C98, C99 and C126 (the buffer of `MeasurementFile::Load`, arrays of `Diff`, strings), expat's and ITK's internals, the terminate/unexpected handlers (they print to `std::cerr`), CMake files.

## Disagreements between documentation and code found while modelling

* Base64: `IsBase64` returns the number of digits, not of bytes (C06); padded text is never decoded (C05); a line is not limited to 72 characters (C03).
* Diff: documentation says line numbers are 0 based, they are 1 based; separator is `----`; the edit script is not minimal (C16); a clash of hashes
  is undefined behaviour (C17); assertions read outside the array of line numbers (C15).
* Paths: `SearchPathList` returns the last candidate when nothing is found (C23); the directory of `/a` is `.` (C20);
  `GetCurrentDirectory` reads uninitialised memory in deep directories (C91); `SearchDirectory` lists `.` and `..` (C92).
* Regression: an option without value loops for ever (C37); leftovers in the baseline are ignored (C40); a search path hides the named file (C63);
  `-O` equal to `-I` empties the baseline (C64); a call's result is inverted with respect to the documentation (C61);
  options, expectation and failures of one call of `Main` carry over to the next (C46); `Main` takes the options out of the caller's array, a second object run with it compares nothing (C125); naming a baseline while recording spoils the recording (C94);
  exceptions lose measurements and open files (C98), visitors and parsers (C126); assignment over data loses memory, `SetContentAsData` with a measurement's own data copies from freed memory (C99).
* Measurements: base64 data never reads back (C32); comparing it is undefined behaviour (C57); `long` is narrowed (C28); compression drops data (C81);
  infinities and NaN count as 0 with a tolerance (C86); different doubles can have the same text (C85).
* ITK: pixel tolerance subtracted twice (C50); region ignored (C69); NaN passes (C67); differences are not written to the output file (C74); three pictures under one name (C95); the first of the project's tests of images compares each image with itself (C113); 256 images that differ give exit status 0 (C110); sizes and indices n and n + 2^32 are not told apart (C114).
* Pipe: the measurement "stdout" has both pipes (C66); where a failure is expected a command that succeeds passes whatever it writes, and arguments can put measurements into a document on standard output (C115).

## Tests of the theorems against wrong programs

`seeded/LOG.jsonl` has one line per seeded bug: the definition edited (in a scratch copy), the edit, the claims it breaks, the theorems that
failed, the theorems tightened. All theorems of the manifest were recompiled against the edited model; a theorem counts as failed when it or a lemma it
depends on no longer compiles. Theorems that survived although their claim became false were restated.
