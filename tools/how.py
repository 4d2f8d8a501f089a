# per property: (what is modelled, how it is proved)
HOW = {
'C01': ('`Base64::Encode`, new lines off, over all byte lists', 'loop invariant: the output so far is the bit-stream specification of the bytes consumed'),
'C02': ('every indexed write of `Encode` goes through a bounds-checked `put` that faults outside the string', 'invariant on write position and remaining input; the result is never a fault'),
'C03': ('`Encode` with new lines on, including the NUL fill of the allocated string', 'same invariant with the block counter; counterexamples to the documented line limit by evaluation'),
'C04': ('composition of `Encode` and `Decode`', 'from C01/C03 and C05: the encoded text is classified by length modulo 3 and by size'),
'C05': ('`Decode` as a scanner over the table of 256 entries', 'simulation of the scanner by the declarative grammar of texts; induction on the text'),
'C06': ('`IsBase64`', 'induction on the text with the scanner state (digits seen, padding seen)'),
'C07': ('`Decode` with the buffer as an explicit list of writes', 'the number of bytes written is bounded by the number of digits read'),
'C08': ('`IsBase64`, `Decode`', 'scanner step on a white space character is the identity; induction'),
'C09': ('`IsBase64`, `Decode` with the flag', 'scanner step on an invalid character is the identity with the flag, a rejection without'),
'C10': ('`Encode`', 'injectivity of the bit-stream specification, by C01/C03'),
'C11': ('the decode table is indexed by `char` (signed); an index outside the table is a fault', 'induction on the text: first byte above 127 reached or not'),
'C12': ('all of `tfDiff.cpp`: cutting in lines, hashing, numbering, the diagonal search with its buffer, recursion, edit list', 'invariants of the two sweeps (furthest reaching points are endpoints of edit paths in the box), refinement of the recursion to an edit path'),
'C13': ('as C12, plus the printing', 'the edit path of equal texts is all diagonal; a non-empty list prints something'),
'C14': ('as C12', 'edits are read off the path in order'),
'C15': ('as C12; fuel for the search loop, the box recursion and the numbering loop; reads of the line number arrays outside their bounds are explicit', 'termination measure: search cost bounded by box size, boxes shrink; exact condition for the asserts that look outside the arrays'),
'C16': ('as C12', 'counterexample by evaluation in the kernel; upper bound and common-lines bound for all inputs; the cost is at most that of replacing one block by another, and a common subsequence argument shows that no script is cheaper if the blocks share no line'),
'C17': ('`GenerateLines`: hash multimaps, walk of equal keys, numbering', 'invariant of the numbering loop (classes already numbered, tables left over); a second invariant with the history of the rounds gives the exact condition for reading past the end of a table'),
'C18': ('`IndexLines` and `substr`', 'induction on the text with position and length of the current line'),
'C19': ('`PathName::Append`', 'the trailing slash loop is characterised by the unique trimmed form'),
'C20': ('`DirectoryName`, `Tail`', 'specification of `rfind`'),
'C21': ('`Extension`', 'specification of `rfind` applied to the tail'),
'C22': ('`SearchPathList` over an abstract file system', 'induction on the path list'),
'C23': ('`SearchPathList`', 'induction on the path list; witness for the documented behaviour being false'),
'C24': ('`GetPathListFromColonSeparatedList`', 'induction with the find position'),
'C25': ('`ApplyEscapeSequences` with its find/replace loop and position arithmetic', 'loop invariant: escaped part so far / untouched rest; an inverse function is exhibited'),
'C26': ('printing of a measurement, `ReadXMLInput` with its handlers, expat as an abstract incremental parser', 'assumption `Conforms`: the parser delivers the events of a small document grammar; induction over chunks and events. Names that are lost: assumption `TagsFromText`, every reported start tag is in the text; where the tag and its quotes can be, by cases on the positions, and a reference is longer than what it stands for. `reference` shows the assumptions satisfiable'),
'C27': ('`SetValue`/`GetValue` for int and bool through decimal text', 'strong induction on the number of digits'),
'C28': ('the `long` to `int` conversion', 'modular arithmetic'),
'C29': ('`IsEqual` with tolerance, with two abstract monotone rounding functions', 'order arguments over the rationals with a top element'),
'C30': ('`CompareVisitor` tolerance state', 'induction over the history of settings'),
'C31': ('the data block state machine of `MeasurementData`', 'each operation characterised, histories as lists of operations'),
'C32': ('as C31 with `Encode`/`Decode`', 'from C04/C06/C07'),
'C33': ('`IsEqual` of the measurement classes, files as a parameter', 'case analysis, with cells that may be indeterminate'),
'C34': ('the visitor double dispatch: class hierarchy, fall-back to the base class handler', 'induction along the hierarchy'),
'C35': ('`ParseAndRemoveArguments` with its pointer rotation', 'loop invariant on argv; the specification is a recursive description of the option prefix'),
'C36': ('as C35', 'as C35; last pair wins by induction on the option prefix'),
'C37': ('as C35 with fuel', 'exact characterisation of the argument lists on which no fuel suffices'),
'C38': ('`Main` with the try block and handlers', 'case analysis over how the test ends'),
'C39': ('`CompareMeasurement` over the list of baseline measurements, tests as programs (trees of calls)', 'induction over the program; spec `failures` compares position by position'),
'C40': ('as C39', 'baseline suffixes do not influence `main`'),
'C41': ('record mode of the calls, header and footer', 'induction over the program'),
'C42': ('the `fread` loop of 1024 bytes feeding the parser', 'induction on the file length'),
'C43': ('the character data handler', 'induction over the event list; splitting is a congruence'),
'C44': ('record run followed by compare run, through the file system and the XML reader', 'composition of C41, C26, C39'),
'C45': ('as C44 with two programs', 'composition; exact number of failures'),
'C46': ('`Main` called again and again on one object, with changes of files and settings in between', 'frame lemmas for each step of `Main`; induction over the history; witnesses'),
'C47': ('`DifferenceImageFilter::ThreadedGenerateData` over regions, faces and neighbourhoods', 'the per-pixel search loop computes a minimum; the counter is a fold'),
'C48': ('any interleaving of the threads\' pixel steps', 'permutation invariance of the fold, per-thread counters'),
'C49': ('as C47', 'monotonicity of the per-pixel minimum'),
'C50': ('`CompareImage`, `RegressionTestImage` and the comparison visitor', 'integer arithmetic on the status'),
'C51': ('as C50', 'the status of a size mismatch is above every tolerance'),
'C52': ('`GenerateFileName` with its counter and hash', 'injectivity of the decimal text; counter modulo 2^32'),
'C53': ('`tfPipeToXML`: argument echo, read loop, exit codes; the process is a parameter', 'induction on the chunk list'),
'C54': ('`Append`', 'from C19'),
'C55': ('`Append`, `Tail`, `DirectoryName`', 'from C19, C20'),
'C56': ('data block, printing, copy, assignment', 'direct, for all data'),
'C57': ('`IsEqual` on cells that may be indeterminate', 'from C32'),
'C58': ('`CreateDataMeasurement`', 'case analysis'),
'C59': ('`CompareVisitor`', 'dispatch (C34) and case analysis'),
'C60': ('`CompareMeasurement`, `UnmatchedMeasurement`, `DifferenceMeasurement`', 'case analysis on the specification of agreement'),
'C61': ('as C60', 'as C60'),
'C62': ('exit status is the value modulo 256', 'arithmetic; witness of 256 failures'),
'C63': ('`BeginMeasurement`, `GetCompareMode`', 'for all worlds and search paths'),
'C64': ('the steps of `Main` (`Verif/Parallel/Model.lean`); opening the output before the input', 'every step of a run leaves a file that is not its output alone (as for C116), and a run alone is `Main`; the exception by following `Main` to the reading of the emptied file, which a parser that rejects truncated documents rejects'),
'C65': ('`MeasurementFile::IsEqual` on image types', 'for all files'),
'C66': ('as C53', 'witnesses; quiet commands by induction'),
'C67': ('doubles as rationals or NaN', 'the comparison with NaN is false, fold stays 0; the exact condition from C50, counting the same pixels'),
'C68': ('`RegressionTestImage`', 'the origin of the test image is not read; the spacing decides before the pixels'),
'C69': ('`CompareImage`', 'the region argument is overwritten'),
'C70': ('sums per thread, with a rounding parameter', 'exact sums: permutation; rounding: witness'),
'C71': ('the 16 bit hash of the arguments', 'witnesses and the format for all arguments'),
'C72': ('`itktfRegression.h` loops', 'induction on the element list'),
'C73': ('`itktfImageCompare`', 'induction on the argument list'),
'C74': ('`DifferenceVisitor` writing to `std::cout`; `Main` with a baseline and an output file', 'case analysis for one measurement; induction over the test for the run'),
'C75': ('ITK exceptions through `CompareMeasurement`', 'propagation of the exception; induction over the test; `Main` catches it'),
'C76': ('the header comment with the host name, the recording and the comparing run of `Main`', 'C44 for the hosts without two hyphens; for the others the assumption `RejectsDoubleHyphen` on the parser, and an unreadable baseline makes `Main` return -1 for any test'),
'C77': ('the start handler with a null measurement', 'for all attribute lists without type'),
'C78': ('the handlers\' depth counter and assertions', 'for all documents with such a child'),
'C79': ('the handlers', 'induction on the event list'),
'C80': ('printing of the edit list', 'a reader of reports is specified; induction on the edit list'),
'C81': ('`SetContentAsData` with a compression attribute', 'case analysis'),
'C82': ('data block after a failed decode', 'case analysis'),
'C83': ('element stack, measurement factory and reading loop; documents as forests of elements and text (`Xml/TreeSpec`)', 'induction over the forest; every document of the grammar is one'),
'C84': ('`operator<<` with precision 7 and 16: exact decimal rounding of rationals, `%g` layout', 'rounding and digit lemmas for all rationals; notation specified separately'),
'C85': ('as C84, with the comparison of C30', 'the text determines the rounded value and conversely; monotone rounding'),
'C86': ('infinity and NaN in `operator<<`, `num_get` accepting digits only', 'evaluation of the six texts, then for every other side'),
'C87': ('`operator>>`: the characters collected, exact value, nearest number of the format', 'reading inverts the notation; nearest is best among the numbers of the format'),
'C88': ('as C84, C87, with IEEE 754 rounding of the difference and the product', 'error propagation with rational inequalities'),
'C89': ('the composition of all parts: the recording of a run, the reading of the file by a conforming XML parser, the comparison with IEEE 754 numbers, the difference of texts', 'composition of C84-C88, C27-C29, C76-C79, C15 and the accounting of the driver'),
'C90': ('path name resolution of the operating system on an arbitrary file system with a current directory; `Append`, `DirectoryName`, `Tail`, `SearchPathList`, `SetCurrentDirectory`', 'the walk along the parts of a path is a homomorphism for joining; list induction'),
'C91': ('`GetCurrentDirectory` with its buffer of 1024 bytes, `SetCurrentDirectory`, `chdir`, `getcwd`', 'case analysis; a file system with long names as witness'),
'C92': ('`SearchDirectory` as the entries of a directory', 'from C90'),
'C93': ('`FilterWatcher`: its call backs as a state machine over event histories', 'induction over the events; the pieces of text form a prefix code'),
'C94': ('tests that call the `Set` functions of the object', 'the Get functions: from parsing (C35, C36) and the frame of beginning, and by induction over what the test does; names: simulation between runs with different names, by induction over the test; exact run for the negative part'),
'C95': ('`DifferenceTestImage` and `ImageThing` as texts written until an exception, in a run', 'exact computation of each line; C47 for the number of pixels'),
'C96': ('a run killed after any number of steps; the reader on a document cut anywhere', 'induction over the program; callbacks of a cut document are a beginning of those of the whole'),
'C97': ('stream extraction of integers and reals; the readers of the image comparison program', 'every text has a unique split into white space, sign, digits, exponent and rest; rounding to even is unique'),
'C98': ('the history of `new`, access and `delete` of baseline measurements and file streams along every run of the existing model', 'an invariant of histories (what the object points to is alive, without repetition), preserved by every step; what is lost stays lost'),
'C99': ('the history of `malloc`, `free`, `new`, `delete` and accesses of `DataMeasurement` and `MeasurementFile` under any sequence of calls on any number of measurements', 'the invariant of C98; simulation of the functions without memory; exact conditions for invalid histories and for losses'),
'C100': ('the reader of the baseline with the lines it writes to `std::cerr`', 'simulation of the reader without lines; induction over the callbacks of a document; each element has its messages in an independent specification'),
'C101': ('`ParseArguments` with the lines it writes to `std::cerr`', 'the decomposition of a command line into pairs (C21); induction over the pairs'),
'C102': ('`UpdateContentAsData`, `GetContentAsData`, `SetContentAsData`, `IsEqual`, `Load` with the lines they write to `std::cerr`', 'simulation of the functions without lines; case analysis; reading twice says nothing new exactly if reading once is silent'),
'C103': ('`MeasurementInsightImage`: the generated name, the file written, the measurement of that file; a test that measures any number of images', 'the hash of the arguments is a bijection in each character; induction over the images with the files of the run; recording and comparing runs of `Main` composed through the baseline document'),
'C104': ('the filter and `CompareImage` with pixels, differences, output pixels and magnitudes of any types; scalars, vectors and complex numbers as instances', 'induction over the schedule and over the neighbourhood with the smallest distance so far; the scalar model is shown to be an instance'),
'C105': ('the same filter for unsigned char, with a partial conversion of differences', 'instance of the general theorem; the sign of the difference decides'),
'C106': ('the same filter for IEEE doubles: rounding to nearest, subnormal numbers, overflow, infinities, NaN', 'the squares of neighbouring doubles round to different numbers (error bound u/(1+u)), so the comparison of squares decides exactly; monotonicity of rounding; the smallest positive double decides what zero tolerance sees'),
'C107': ('the constructor of itk::Regression, parsing, the search for the baseline and for baseline files, recording and comparing images', 'the search characterised by an inductive relation; the runs of C103 with the world changed between them'),
'C108': ('the two other overloads of `CompareImage` (files, region) on top of the generic comparison of C104', 'from C104; images read from files start at index 0, so equal sizes give equal regions; the relation to a run from C50'),
'C109': ('the statistics of the filter: sums of the threads, total, mean; the correctly rounded square root of doubles', 'the rounded root is characterised by its spec and unique; relative error of one rounded sum is at most 2^-53 also for subnormals, induction over the pixels of each thread and over the threads; the root of the rounded square of a double is that double; sums of multiples of a power of two are exact'),
'C110': ('the program: constructor, Main, the loop over the arguments, search, comparison, recording', 'the result characterised by an inductive relation between baseline and arguments, shown functional; induction over the argument list with the frame of each call; the document by C41 and read back by C26'),
'C111': ('the arithmetic of doubles as an instance of the parameter of the models of the runs (C50, C103, C110), related to the IEEE model of C106', 'simulation of the search, the filter and the schedule, magnitudes beyond the largest double counting as infinite; differences of whole numbers are exact and squares of doubles are ordered as the doubles (C106)'),
'C112': ('the catch clauses of `Main` in their order, the texts of the exceptions of parsing and opening, the lines of C100 and C101 in a whole run', 'the model with lines forgets to the model without; the chain of base classes is forced by the standard hierarchy, so the first matching clause is the most specific one; induction over the accepted options'),
'C113': ('the four tests of itktf/Testing as programs of the model of `Main`, the entries of their baselines', 'induction over the row of files with the frame of each call; the files that are written are followed through the world; rounding to float is monotone and fixes the halves, so that rounded sums stay within one half'),
'C114': ('tests as lists of compounds, each measured by the functions of itktfRegression.h; the region test of the repository with the bytes of its baseline', 'the program of a list of compounds equals the straight program of its components, to which the bounds of C89 (generalised to search paths, other arguments and moved documents) apply; counting by induction; the baseline of the repository is the recording of a run in a world with its host and date'),
'C115': ('`tfPipeToXML` of C53 inside `Main` with the XML reader, IEEE numbers and the real diff; `Verif/Pipe/RunSpec.lean` states results and injected arguments', 'the program is a straight test after an announcement; C107 for the command line and the baseline, C39 for the count; reading back by the grammar of C26'),
'C116': ('`Verif/Parallel/Model.lean`: `Main` of `Verif/Regression` taken apart into steps, processes on shared files, schedules; `Verif/Parallel/Spec.lean`: footprints, runs within and apart from them', 'every step is shown to depend only on the files of the footprint (locality) and steps of others to leave them (frame), by an invariant for the stages; induction over the schedule; alone the steps are `Main`, by induction over the test'),
'C117': ('`Verif/Parallel/FullDisk.lean`: the steps of `Verif/Parallel/Model.lean` with an output that takes n bytes; `Verif/Parallel/FullDiskSpec.lean`: tests that ignore a file', 'simulation: the limited run and the unlimited run are in step, with the same process and files that differ only by the cut (appending commutes with taking the first n bytes); then C41 (the full document) and C96 (truncated documents are rejected)'),
'C118': ('the steps of `Verif/Parallel/Model.lean`; `Verif/Parallel/IndependentSpec.lean`: surroundings that agree on what is read, runs with interference', 'two runs in step: a relation between worlds that forgets host, time, standard output and the contents of outputs is preserved by every step (the same lemmas as for C116, which are proved for every relation that is preserved by writing and opening)'),
'C119': ('`Verif/Stderr/Model.lean`: visitors, measurement calls, tests that also write to the error stream, `Main`, each with what is written; `Verif/Stderr/Spec.lean`: the lines for a pair of an entry and a measurement', 'the model with lines forgets to the model without (C102, C112); case analysis of the comparison of data and files with the lines of C102; induction over the test'),
'C120': ('`Verif/Stderr/Images.lean`: the visitors of `itk::Regression` with both streams', 'the steps of the report are run one after the other up to an exception; the call is followed to its end and C119 gives the run'),
'C121': ('`Verif/Stderr/Programs.lean`: the two programs as tests of C119; `Verif/Stderr/ProgramsSpec.lean`: end states, wrong arguments', 'the programs are shown equal to the measurements followed by one line or none, by induction over the arguments; C119 gives the run'),
'C122': ('`Verif/Path/Model.lean`: the predicates of `PathName`; `Verif/Path/DiskSpec.lean`: path name resolution on any file system', 'the predicates are unfolded for a name that leads somewhere or nowhere; resolution of a name with a slash behind it by the lemmas on walks'),
 'C123': ('the tests of TestingFramework/tests as programs (`Verif/Whole/OwnTests.lean`), the arguments test in the whole model of C89; `Verif/Whole/OwnTestsSpec.lean`: positions that differ', 'the test makes calls that are known once the expectation is; `Verif/Whole/CallsRun.lean` follows recording (C35, C41) and comparing runs (C107, C39) of any such test; counting by induction over the arguments'),
 'C124': ('`Verif/Parallel/Shared.lean`: the steps of C116 with a buffer and a place in the file for every output stream; `Verif/Parallel/SharedSpec.lean`: tests that only measure, what a run leaves alone', 'invariant over schedules: every process is where it is alone after some number of steps, its stream has put a first part of what it wrote into the file, and every byte of the file comes from a stream that has got so far, all bytes up to the place of the stream opened last; the reading by C83 with the time replaced; the negative parts by a schedule'),
'C125': ('`Verif/Regression/CallerArgv.lean`: the loop of `Arguments` that takes the options out, with the whole array of the caller; `argvAfter`: the array after `Main`', 'the loop is shown to give the list of the model of `Main` in front and the options behind; every step permutes the array; the second run by C31 and C32 on what is left'),
'C126': ('`Verif/Life/Visitors.lean`: the history of `new`, access and `delete` of visitors and parsers along every run of the existing model; `Verif/Life/VisitorsSpec.lean`: exactly n objects lost, where a test fails', 'the list of the objects that exist is followed through every function with the number it adds; the sum over the calls of `Main`'),
'C127': ('the parser of the command line with its messages, `Main` with the error stream', 'the settings (C35) and the messages (C101) depend on the values of each option only; `Main` depends on the command line through them'),
'C128': ('tests that look at `GetCompareMode()` in the whole model of C89, tfRegressionTestTest3 of `Verif/Whole/OwnTests.lean` among them', '`Verif/Whole/CallsRun.lean` follows the recording run and the comparing run, the counts are bounded as in C89; for the test of the project the values are computed and the bounds coincide'),
'C129': ('tests that call `SetRelativeTolerance` between their measurements in the whole model of C89, tfRegressionTestTest2 of `Verif/Whole/OwnTests.lean` among them; `Verif/Whole/StepsSpec.lean`: the tolerance in force', 'the measurements are observed with the tolerance in force (induction over the steps), the counts are bounded as in C89 one by one'),
'C130': ('tests that measure files (text, PNG, JPEG) in the whole model of C89, tfRegressionTestTest4 and tfRegressionTestOutputTest2 of `Verif/Whole/OwnTests.lean` among them; `Verif/Whole/FilesSpec.lean`: when two measurements are of the same text, with the search of C107', 'every call ends normally and leaves the files as they are (induction over the calls); agreement with the recorded measurement is reduced to the bytes of the file found, position by position'),
'C131': ('any calls of the measurement functions in the whole model of C89, tfRegressionTestTest1, tfRegressionTestOutputTest1 and tfRegressionTestOutputTest2 of `Verif/Whole/OwnTests.lean` among them', 'without measurements to compare with every call ends normally and counts once (induction over the calls); against its own recording OutputTest1 is an instance of C129'),
'C132': ('the calls of C129 and C130 mixed, in the whole model of C89; `Takes` of `Verif/Whole/MixSpec.lean` says what is accepted for what', 'every comparison of a value or a file with a recorded value or file can be carried out (`thing_visit`), so each call changes only standard output, the baseline left and the counter; induction over the test; then position by position as in C129 and C130'),
'C133': ('the tests of C132 followed by the setters and a value, in the whole model of C89; `CanBeRead` of `Verif/Whole/LateSpec.lean` says when the last settings name a readable file', 'the run of the whole is the run of the measurements (C132) and then of the setters (`actsThen_run`, `endProg_run`), which leave the count alone; the final `GetCompareMode` of `Main` is `CanBeRead` of the last settings (`present_iff`, by the lookup of C107)'),
'C134': ('`namingTest`: measurements, `SetInFileName`, measurements, a value, in the model of `Main` of C38; `unmatchedLines` of `Verif/Whole/NamedSpec.lean` says what is written, `CanBeRead` when the name counts', '`GetCompareMode` depends only on the stream, the name, the directories and the state of the files (`mode_congr`, `present_iff`), which measurements do not change; induction over the measurements with nothing compared (`early_off`) and with no baseline left (`straight_on`)'),
'C135': ('`Main` as in C38; the setters of `Verif/Regression/SettersSpec.lean` change one member of the object each', 'the calls one after the other leave the settings that C35 describes for the options (`afterSetters_options`, induction from the last option); from there both runs are the same'),
}
