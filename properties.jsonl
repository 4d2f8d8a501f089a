{"id": "C01", "title": "Base64 encoding without line breaks is exactly standard base64", "statement": "With new lines off, Base64::Encode(data,n) returns the RFC 4648/2045 base64 text of the n bytes: the 8n-bit stream cut in 6-bit groups (zero-filled on the right), mapped through the standard alphabet, padded with '=' to a multiple of 4, and nothing else.", "quantifier": "every byte sequence of every length", "why_tests_cant": "byte strings are unbounded; tests sample a few lengths and values", "anchors": ["TestingFramework/tfBase64.cpp:Base64::Encode", "TestingFramework/tfBase64.cpp:Base64::base64chars"]}
{"id": "C02", "title": "Base64 encoding never writes outside the string it allocated", "statement": "For every input and both settings of AddNewLines every indexed write performed by Base64::Encode falls inside the output string, and the returned length is 4*ceil(n/3), plus a 72nd of that when new lines are on.", "quantifier": "every byte sequence and both new-line settings", "why_tests_cant": "an out of range write may go unnoticed in any particular run and lengths are unbounded", "anchors": ["TestingFramework/tfBase64.cpp:Base64::Encode"]}
{"id": "C03", "title": "Base64 encoding with line breaks carries exactly the standard base64 text, one line break and trailing NULs", "statement": "With new lines on, the result of Base64::Encode is the standard base64 text with a single '\\n' inserted after the first 72 characters when a full 54-byte block was completed there, followed only by NUL bytes filling the rest of the allocated length. Dropping new lines and NULs always recovers the standard text. (The documentation promises no line longer than 72 characters and no new line at the end; both promises are false, with witnesses.)", "quantifier": "every byte sequence", "why_tests_cant": "line placement depends on the total length, which is unbounded", "anchors": ["TestingFramework/tfBase64.cpp:Base64::Encode"]}
{"id": "C04", "title": "Base64 round trip", "statement": "Decoding what Encode produced returns the original bytes and their number. In this code that holds with new lines off exactly when the length is a multiple of 3, and with new lines on exactly when in addition the length is below 106; in every other case Decode throws, never silently returns different bytes. Whether or not it throws, what it has written is the original bytes, followed by one zero byte if their number is not a multiple of 3.", "quantifier": "every byte sequence and both new-line settings", "why_tests_cant": "needs all byte contents at all lengths", "anchors": ["TestingFramework/tfBase64.cpp:Base64::Encode", "TestingFramework/tfBase64.cpp:Base64::Decode"]}
{"id": "C05", "title": "Base64 decoding accepts exactly the unpadded well-formed texts", "statement": "For a text of 7-bit characters Decode returns normally if and only if the text has no '=' and (unless invalid characters are ignored) only alphabet and white space characters, and the number of alphabet characters is a multiple of 4; it then yields three bytes per four characters, those whose standard encoding is the text. All other 7-bit texts make it throw. Also when it throws, what has been written is determined: the bits of the whole groups of four characters before the end or the refused character; at a padding character the bits of all the characters before it, filled with zeros to whole bytes (a single character left over is dropped); nothing that follows the padding.", "quantifier": "every 7-bit text and both settings of IgnoreInvalids", "why_tests_cant": "the set of malformed texts is infinite", "anchors": ["TestingFramework/tfBase64.cpp:Base64::Decode", "TestingFramework/tfBase64.cpp:Base64::base64bits"]}
{"id": "C06", "title": "IsBase64 decides base64 well-formedness", "statement": "For a 7-bit text IsBase64 returns the number of alphabet characters before the end or the closing padding when the text is groups of four characters, the last possibly closed by '=' padding, and 0 when it is not (or carries no data). (Documentation says it returns the number of bytes Decode will produce: false for every accepted text.)", "quantifier": "every 7-bit text and both settings of IgnoreInvalids", "why_tests_cant": "infinite input space", "anchors": ["TestingFramework/tfBase64.cpp:Base64::IsBase64"]}
{"id": "C07", "title": "A buffer of IsBase64 bytes is large enough for Decode", "statement": "If IsBase64(text) = n > 0 then Decode(text, buffer) writes, whether it ends normally or by exception, only at offsets below n of the buffer.", "quantifier": "every text and both settings of IgnoreInvalids", "why_tests_cant": "memory safety over all inputs; an overrun in a sampled run is invisible", "anchors": ["TestingFramework/tfBase64.cpp:Base64::IsBase64", "TestingFramework/tfBase64.cpp:Base64::Decode", "TestingFramework/tfMeasurement.cpp:DataMeasurement::UpdateContentAsData"]}
{"id": "C08", "title": "White space never changes what a base64 text means", "statement": "Inserting or removing white space characters (codes 8-13) anywhere in a text changes neither the value returned by IsBase64 nor the outcome of Decode (bytes, count or exception).", "quantifier": "every text, every position and amount of white space, both settings of IgnoreInvalids", "why_tests_cant": "positions and texts are unbounded", "anchors": ["TestingFramework/tfBase64.cpp:Base64::IsBase64", "TestingFramework/tfBase64.cpp:Base64::Decode"]}
{"id": "C09", "title": "IgnoreInvalids behaves as if the invalid characters were not there", "statement": "With IgnoreInvalids on, IsBase64 and Decode give the outcome they would give on the text with all non-alphabet, non-padding, non-white-space 7-bit characters removed; with it off, one such character before the closing padding makes IsBase64 return 0 and Decode throw.", "quantifier": "every 7-bit text", "why_tests_cant": "infinite input space", "anchors": ["TestingFramework/tfBase64.cpp:Base64::IsBase64", "TestingFramework/tfBase64.cpp:Base64::Decode"]}
{"id": "C10", "title": "Distinct data have distinct base64 encodings", "statement": "Encode is injective for each setting of AddNewLines: two different byte sequences never produce the same text.", "quantifier": "every pair of byte sequences", "why_tests_cant": "quantifies over all pairs", "anchors": ["TestingFramework/tfBase64.cpp:Base64::Encode"]}
{"id": "C11", "title": "Text with bytes above 127 indexes the decode table out of range exactly when such a byte is reached", "statement": "On platforms with signed char, IsBase64 and Decode have defined behaviour on every text of 7-bit characters; if a byte >= 128 is reached before the text is rejected or closed by padding the table is read at a negative index (undefined behaviour).", "quantifier": "every text", "why_tests_cant": "undefined behaviour shows as arbitrary results, so sampled runs prove nothing", "anchors": ["TestingFramework/tfBase64.cpp:Base64::IsBase64", "TestingFramework/tfBase64.cpp:Base64::Decode"]}
{"id": "C12", "title": "Diff edit scripts are correct", "statement": "Applying the edit list computed by Diff to the lines of the first text (deleting the listed ranges, inserting the listed ranges of the second text) yields exactly the lines of the second text.", "quantifier": "every pair of texts", "why_tests_cant": "all pairs of texts of any number of lines", "anchors": ["TestingFramework/tfDiff.cpp:Diff::GenerateEditList", "TestingFramework/tfDiff.cpp:Diff::FindEditMidPoint", "TestingFramework/tfDiff.cpp:Diff::Diff"]}
{"id": "C13", "title": "Diff reports nothing exactly for equal texts", "statement": "The edit list is empty, and Diff prints nothing, if and only if the two texts are equal.", "quantifier": "every pair of texts", "why_tests_cant": "all pairs of texts", "anchors": ["TestingFramework/tfDiff.cpp:Diff::Diff", "TestingFramework/tfDiff.cpp:Diff::GenerateEditList"]}
{"id": "C14", "title": "Diff edit scripts are ordered and disjoint", "statement": "The edit list is in increasing order, its deleted ranges are disjoint non-empty ranges of lines of the first text, its inserted ranges disjoint non-empty ranges of lines of the second, and the lines left over on both sides are pairwise equal in order.", "quantifier": "every pair of texts", "why_tests_cant": "all pairs of texts", "anchors": ["TestingFramework/tfDiff.cpp:Diff::GenerateEditList"]}
{"id": "C15", "title": "Diff terminates without a failed assertion or out of range diagonal access", "statement": "For every pair of texts the divide and conquer recursion and the diagonal search both terminate, every diagonal cell read was written before and lies inside the buffer that was allocated, and no assertion about the found midpoint fails.", "quantifier": "every pair of texts", "why_tests_cant": "termination and memory safety over all inputs", "anchors": ["TestingFramework/tfDiff.cpp:Diff::FindEditMidPoint", "TestingFramework/tfDiff.cpp:Diff::GenerateEditList", "TestingFramework/tfDiff.cpp:Diff::Diff"]}
{"id": "C16", "title": "Diff's edit script is minimal", "statement": "The number of deleted plus inserted lines is the least possible (as the documentation of a shortest edit script promises). This is false in the code: the search range sticks at the box edge, and there is a concrete counterexample. What holds: no edit is reported for common leading or trailing lines; the number is at most that of replacing one block of lines by another, however the texts are written as common beginning, block and common end; and it is the least possible if the two blocks share no line, in particular if lines were only inserted at one place or only deleted at one place, which one edit reports.", "quantifier": "every pair of texts", "why_tests_cant": "minimality compares against every possible script", "anchors": ["TestingFramework/tfDiff.cpp:Diff::FindEditMidPoint"]}
{"id": "C17", "title": "Lines get equal ids exactly when their texts are equal", "statement": "Diff classifies the lines of the two texts so that two lines (in either text) get the same number if and only if their texts are equal, or it reads past the end of a hash table. The latter happens exactly if, in one of the two texts, some line with the greatest hash in that text differs from the first line with that hash in both texts; other collisions of the line hash are harmless. Lines of at most nine ASCII characters never collide.", "quantifier": "every pair of texts", "why_tests_cant": "depends on hash collisions, which sampling does not hit", "anchors": ["TestingFramework/tfDiff.cpp:hashString", "TestingFramework/tfDiff.cpp:hash_table"]}
{"id": "C18", "title": "Splitting a text in lines loses nothing", "statement": "The lines Diff cuts a text into, joined with new line characters, are the text again, and no line contains a new line.", "quantifier": "every text", "why_tests_cant": "all texts", "anchors": ["TestingFramework/tfDiff.cpp:Diff::BuildLines"]}
{"id": "C19", "title": "Appending path names", "statement": "PathName::Append(f): an absolute f replaces the path, an empty path becomes f, otherwise the result is the path without its trailing slashes (one is kept if it is all slashes), a slash, and f. Appending a relative name to an absolute path stays absolute.", "quantifier": "every pair of path strings", "why_tests_cant": "all strings", "anchors": ["FileUtilities/PathName.cpp:PathName::Append", "FileUtilities/PathName.cpp:PathName::GetPathType"]}
{"id": "C20", "title": "Directory and tail decompose a path", "statement": "If the last slash of a path is not its first character then DirectoryName() + '/' + Tail() is the path; the tail never contains a slash; a path without slash (or with its only slash in front) has directory name '.'.", "quantifier": "every path string", "why_tests_cant": "all strings", "anchors": ["FileUtilities/PathName.cpp:PathName::DirectoryName", "FileUtilities/PathName.cpp:PathName::Tail"]}
{"id": "C21", "title": "Extension is the text after the last period of the last component", "statement": "Extension() contains neither '.' nor '/', is empty when the last component has no period, and otherwise the last component is some prefix, a period and the extension.", "quantifier": "every path string", "why_tests_cant": "all strings", "anchors": ["FileUtilities/PathName.cpp:PathName::Extension"]}
{"id": "C22", "title": "Path search returns the first existing candidate", "statement": "SearchPathList returns the first path in list order that, with the name appended, is a regular file.", "quantifier": "every path list, name and file system", "why_tests_cant": "all lists and file system states", "anchors": ["FileUtilities/PathName.cpp:PathName::SearchPathList"]}
{"id": "C23", "title": "Path search that finds nothing", "statement": "When no candidate is a regular file SearchPathList returns the empty path. False in this code: it returns the last candidate tried; it is empty only for an empty list (or an empty last candidate).", "quantifier": "every path list, name and file system", "why_tests_cant": "all lists and file system states", "anchors": ["FileUtilities/PathName.cpp:PathName::SearchPathList"]}
{"id": "C24", "title": "Colon separated path lists", "statement": "GetPathListFromColonSeparatedList splits at every colon: joining the result with colons gives the value back, no element contains a colon, and the empty value gives the empty list.", "quantifier": "every string", "why_tests_cant": "all strings", "anchors": ["FileUtilities/FileUtilities.cpp:GetPathListFromColonSeparatedList"]}
{"id": "C25", "title": "XML escaping is invertible and produces no markup", "statement": "Printed content contains no '<' or '>' and every '&' in it starts one of the three entities; replacing the entities back gives the original content, so different contents print differently.", "quantifier": "every content string", "why_tests_cant": "all strings", "anchors": ["TestingFramework/tfMeasurement.cpp:Measurement::ApplyEscapeSequences"]}
{"id": "C26", "title": "Printed measurement is one well-formed element that reads back", "statement": "The text a named measurement prints of itself, read by the XML reader of RegressionTest, creates exactly one measurement with the same name, type and content, provided name and type have no quote, '<', ampersand or control character. The name is printed unescaped: if it has a quote, a '<' or an ampersand, then, whatever the rest of it and the content are, no measurement read from the document has that name. A name made of characters and entities is read as what the entities stand for; of a name that ends its own quotes and goes on with another attribute only the beginning is left. Line ends \\r\\n in the content are read as \\n.", "quantifier": "every name, type and content", "why_tests_cant": "all strings", "anchors": ["TestingFramework/tfMeasurement.cpp:Measurement::Print", "TestingFramework/tfRegressionTest.cpp:start"]}
{"id": "C27", "title": "Integer and boolean measurements survive their text form", "statement": "For integer and boolean measurements GetValue after SetValue(v) returns v for every representable v, and the content is the shortest decimal form.", "quantifier": "every representable value", "why_tests_cant": "2^32 and more values", "anchors": ["TestingFramework/tfMeasurement.cpp:IntegerNumeric::SetValue", "TestingFramework/tfMeasurement.cpp:IntegerNumeric::GetValue", "TestingFramework/tfMeasurement.cpp:BooleanNumeric::SetValue", "TestingFramework/tfMeasurement.cpp:BooleanNumeric::GetValue"]}
{"id": "C28", "title": "Integer measurement of a long keeps its value", "statement": "MeasurementNumericInteger called with a long records that value. False in this code: the value is converted to int first, so values that differ by a multiple of 2^32 are recorded alike.", "quantifier": "every long value", "why_tests_cant": "2^64 values", "anchors": ["TestingFramework/tfRegressionTest.cpp:RegressionTest::MeasurementNumericInteger", "TestingFramework/tfMeasurement.cpp:IntegerNumeric::SetValue"]}
{"id": "C29", "title": "Tolerant numeric comparison is a symmetric, reflexive, tolerance-monotone relation", "statement": "With relative tolerance t two numeric values u, v compare equal exactly when |u-v| <= |t|*|u| or |u-v| <= |t|*|v| or both are below the type's epsilon; the relation is reflexive and symmetric, ignores the sign of t, and a larger |t| accepts everything a smaller one accepts.", "quantifier": "every pair of values and every tolerance", "why_tests_cant": "all pairs of values", "anchors": ["TestingFramework/tfMeasurement.h:NumericData::_IsEqualTolerant"]}
{"id": "C30", "title": "Zero tolerance means exact text comparison", "statement": "With tolerance off or 0 numeric measurements of the same name and type pass the comparison exactly when their recorded texts are byte-wise equal.", "quantifier": "every pair of measurements", "why_tests_cant": "all pairs", "anchors": ["TestingFramework/tfMeasurementVisitor.cpp:CompareVisitor::SetTolerance", "TestingFramework/tfMeasurementVisitor.cpp:CompareVisitor::Visit"]}
{"id": "C31", "title": "Raw data set is raw data read", "statement": "After SetContentAsData(p,n) on a data measurement without encoding, GetContentAsData and GetContentAsDataSize return the same n bytes, for every history of earlier operations; the stored copy is independent of the caller's buffer.", "quantifier": "every byte sequence and every earlier history of operations", "why_tests_cant": "histories are unbounded", "anchors": ["TestingFramework/tfMeasurement.cpp:DataMeasurement::SetContentAsData", "TestingFramework/tfMeasurement.cpp:DataMeasurement::GetContentAsData"]}
{"id": "C32", "title": "Base64 encoded data set is data read", "statement": "After SetContentAsData(p,n) with encoding base64, reading the data back gives the same bytes. False in this code for every non-empty data: the size read back is the number of base64 characters, or the decoder throws.", "quantifier": "every non-empty byte sequence", "why_tests_cant": "all byte sequences", "anchors": ["TestingFramework/tfMeasurement.cpp:DataMeasurement::SetContentAsData", "TestingFramework/tfMeasurement.cpp:DataMeasurement::UpdateContentAsData", "TestingFramework/tfBase64.cpp:Base64::IsBase64"]}
{"id": "C33", "title": "Measurements equal to themselves and equality is symmetric", "statement": "Text measurements compare equal exactly when their contents are equal; a text and file measurement comparison gives the same answer in both directions.", "quantifier": "every pair of measurements", "why_tests_cant": "all pairs", "anchors": ["TestingFramework/tfMeasurement.cpp:DataMeasurement::IsEqual", "TestingFramework/tfMeasurement.cpp:MeasurementFile::IsEqual"]}
{"id": "C34", "title": "Every measurement kind is visited exactly once and by the most specific handler", "statement": "Accepting a visitor calls exactly one handler chain: the overridden handler nearest to the measurement's kind in the class hierarchy.", "quantifier": "every measurement kind and every set of overridden handlers", "why_tests_cant": "the combinations of kinds and overridden handlers", "anchors": ["TestingFramework/tfMeasurementVisitor.cpp:MeasurementVisitor::Visit", "TestingFramework/tfMeasurement.cpp:AcceptVisitor"]}
{"id": "C35", "title": "Argument parsing hands the remaining arguments through in order", "statement": "After ParseAndRemoveArguments the program name is unchanged and the remaining arguments are exactly the suffix of the original argument list that follows the leading recognised option pairs, in the original order.", "quantifier": "every argument list", "why_tests_cant": "argument lists are unbounded", "anchors": ["TestingFramework/tfRegressionTest.cpp:RegressionTest::ParseAndRemoveArguments"]}
{"id": "C36", "title": "The last of repeated options wins and search paths are prepended", "statement": "The effective output file, input file and expected return value are those of the last corresponding option, and each -P puts its directory in front of the search path.", "quantifier": "every list of option pairs", "why_tests_cant": "unbounded lists", "anchors": ["TestingFramework/tfRegressionTest.cpp:RegressionTest::ParseAndRemoveArguments"]}
{"id": "C37", "title": "Argument parsing terminates", "statement": "ParseAndRemoveArguments terminates on every argument list. False in this code: it loops for ever exactly when the argument list is some recognised option pairs followed by one recognised option without value.", "quantifier": "every argument list", "why_tests_cant": "non-termination cannot be observed by a test, and lists are unbounded", "anchors": ["TestingFramework/tfRegressionTest.cpp:RegressionTest::ParseAndRemoveArguments"]}
{"id": "C38", "title": "Return value of a regression test", "statement": "Main returns the test's own return value when that differs from the expected one, otherwise the number of unmatched measurements in comparison mode and 0 in record mode; in particular it returns 0 although the expectation failed when the test returned 0 and a non-zero value was expected. On an object without a baseline, an option that is refused (for example -I with a file that is not there) ends the run before the test: Main returns -1, unless -1 was expected so far (for example by a -R -1 before it), then it returns 0, so such a test passes without having run; apart from the message on standard error nothing is written or printed.", "quantifier": "every test behaviour, argument list and baseline", "why_tests_cant": "all executions", "anchors": ["TestingFramework/tfRegressionTest.cpp:RegressionTest::Main"]}
{"id": "C39", "title": "The number of failures is the number of positional mismatches", "statement": "In comparison mode the k-th recorded measurement is compared with the k-th baseline measurement; the unmatched count is the number of positions at which name, kind or value differ or the baseline is exhausted.", "quantifier": "every baseline list and every sequence of recorded measurements", "why_tests_cant": "unbounded sequences", "anchors": ["TestingFramework/tfRegressionTest.cpp:RegressionTest::CompareMeasurement"]}
{"id": "C40", "title": "Leftover baseline measurements are noticed", "statement": "A baseline with more measurements than the test produced makes the test fail. False in this code: leftover baseline measurements are never counted.", "quantifier": "every baseline with extra entries", "why_tests_cant": "unbounded sequences", "anchors": ["TestingFramework/tfRegressionTest.cpp:RegressionTest::Main", "TestingFramework/tfRegressionTest.cpp:RegressionTest::CompareMeasurement"]}
{"id": "C41", "title": "Record mode writes one well-formed document with the measurements in order", "statement": "In record mode the output is the header, then each recorded measurement printed once in order, then the footer.", "quantifier": "every sequence of measurements", "why_tests_cant": "unbounded sequences", "anchors": ["TestingFramework/tfRegressionTest.cpp:RegressionTest::BeginMeasurement", "TestingFramework/tfRegressionTest.cpp:RegressionTest::EndMeasurement"]}
{"id": "C42", "title": "Reading the baseline file in chunks delivers the file exactly", "statement": "The XML reader is fed exactly the bytes of the file, in order, the last chunk flagged final, whatever the file size relative to the 1024-byte chunk.", "quantifier": "every file size and content", "why_tests_cant": "boundary sizes are infinitely many", "anchors": ["TestingFramework/tfRegressionTest.cpp:RegressionTest::ReadXMLInput"]}
{"id": "C43", "title": "Baseline parsing does not depend on how character data is split", "statement": "The measurements obtained from the parser callbacks are the same however the parser cuts character data in several calls.", "quantifier": "every document and every split", "why_tests_cant": "all splits", "anchors": ["TestingFramework/tfRegressionTest.cpp:data", "TestingFramework/tfRegressionTest.cpp:end"]}
{"id": "C44", "title": "Recorded baseline compared against an identical run passes", "statement": "Running a test in record mode and running it again with the recorded file as baseline reports no unmatched measurement, prints nothing, and returns 0, when names have no XML special characters.", "quantifier": "every sequence of text measurements", "why_tests_cant": "all test programs", "anchors": ["TestingFramework/tfRegressionTest.cpp:RegressionTest::Main", "TestingFramework/tfRegressionTest.cpp:RegressionTest::CompareMeasurement", "TestingFramework/tfRegressionTest.cpp:RegressionTest::ReadXMLInput"]}
{"id": "C45", "title": "Any change of a measurement is detected on comparison", "statement": "If one recorded measurement's name, type or content differs from the baseline's at its position then the unmatched count is positive.", "quantifier": "every pair of sequences", "why_tests_cant": "all pairs of runs", "anchors": ["TestingFramework/tfRegressionTest.cpp:RegressionTest::CompareMeasurement"]}
{"id": "C46", "title": "Repeated runs on one test object are independent", "statement": "The result of Main depends only on that call. False in this code: what the options of an earlier call set (expected value, search path, file names) stays in force for later calls, however the earlier run ended; the count of failures carries over, is never reduced by any history of calls, and an exception leaves one more failure behind; so once a measurement has failed no later comparison that ends as expected returns 0.", "quantifier": "every history of calls", "why_tests_cant": "histories are unbounded", "anchors": ["TestingFramework/tfRegressionTest.cpp:RegressionTest::Main"]}
{"id": "C47", "title": "The image difference count is the number of pixels with no close neighbour", "statement": "DifferenceImageFilter counts a pixel exactly when every test pixel within the tolerance radius differs from the valid pixel by more than the threshold. If boundary pixels are ignored, a pixel is counted only if all places within the radius lie in the test image.", "quantifier": "every pair of images, radius and threshold", "why_tests_cant": "all images", "anchors": ["itktf/itktfDifferenceImageFilter.txx:ThreadedGenerateData"]}
{"id": "C48", "title": "The image difference count does not depend on the thread decomposition", "statement": "Total difference and number of pixels with differences are the same for every partition of the region in thread regions and every completion order.", "quantifier": "every partition", "why_tests_cant": "schedules and partitions are unbounded", "anchors": ["itktf/itktfDifferenceImageFilter.txx:ThreadedGenerateData", "itktf/itktfDifferenceImageFilter.txx:AfterThreadedGenerateData"]}
{"id": "C49", "title": "Looser image tolerances accept more", "statement": "The number of differing pixels is 0 for identical images, and does not increase with the radius or the threshold.", "quantifier": "every pair of images and tolerances", "why_tests_cant": "all images", "anchors": ["itktf/itktfDifferenceImageFilter.txx:ThreadedGenerateData"]}
{"id": "C50", "title": "Image comparison passes up to the pixel tolerance", "statement": "An image measurement passes when at most the tolerated number of pixels differ. In this code the tolerance is subtracted twice, so it passes when at most twice the tolerated number differ.", "quantifier": "every image pair and tolerance", "why_tests_cant": "all images", "anchors": ["itktf/itktfCompareVisitor.cxx:RegressionTestImage", "itktf/itktfRegression.h:CompareImage"]}
{"id": "C51", "title": "Images of different size never compare equal", "statement": "A size mismatch gives a failure status for every tolerance a user can set.", "quantifier": "every pair of image sizes and tolerance", "why_tests_cant": "all sizes", "anchors": ["itktf/itktfCompareVisitor.cxx:CompareImage"]}
{"id": "C52", "title": "Generated image file names are distinct within a run", "statement": "Successive names generated in one test run are different. A name consists of the first argument, the 16-bit hash of all arguments and the number of names so far (both in hexadecimal, separated by underscores) and the extension, under the root path.", "quantifier": "every number of generated names", "why_tests_cant": "unbounded counts", "anchors": ["itktf/itktfRegression.cxx:GenerateFileName"]}
{"id": "C53", "title": "Piping captures all output of the command in order", "statement": "PipeToXML records the concatenation of all chunks read from the command's pipes, in order of arrival, and returns the exit value when the command exited normally, -1 otherwise.", "quantifier": "every sequence of chunks and every end state", "why_tests_cant": "arbitrary interleavings of reads", "anchors": ["TestingFramework/tfPipeToXML.cxx:main"]}
{"id": "C54", "title": "Appending path names is associative", "statement": "a.Append(b).Append(c) and a.Append(b.Append(c)) are the same path string.", "quantifier": "every three path strings", "why_tests_cant": "all strings, including empty, absolute and slash-only ones", "anchors": ["FileUtilities/PathName.cpp:PathName::Append"]}
{"id": "C55", "title": "Tail and directory of a joined path", "statement": "The tail of p.Append(f) is the tail of f; if f has no slash and p is not empty the directory name of p.Append(f) is p without its trailing slashes.", "quantifier": "every pair of path strings", "why_tests_cant": "all strings", "anchors": ["FileUtilities/PathName.cpp:PathName::Append", "FileUtilities/PathName.cpp:PathName::Tail", "FileUtilities/PathName.cpp:PathName::DirectoryName"]}
{"id": "C56", "title": "Raw data that was set is not printed and not copied", "statement": "A user who sets raw data on a measurement expects its printed form and its copies to carry the data. False in this code: without encoding the printed content is the old text, and copies and assignments drop the data.", "quantifier": "every byte sequence and every measurement", "why_tests_cant": "the lost data is only visible for contents a test did not choose", "anchors": ["TestingFramework/tfMeasurement.cpp:DataMeasurement::SetContentAsData", "TestingFramework/tfMeasurement.cpp:DataMeasurement::DataMeasurement"]}
{"id": "C57", "title": "Comparing base64 measurements is defined", "statement": "Comparing two measurements with the same base64 data gives an answer that depends on the data only. False in this code: for data whose length is a multiple of 3 (below 106) the comparison reads memory that was never written.", "quantifier": "every such data", "why_tests_cant": "undefined behaviour may look correct in every sampled run", "anchors": ["TestingFramework/tfMeasurement.cpp:DataMeasurement::IsEqual", "TestingFramework/tfMeasurement.cpp:DataMeasurement::UpdateContentAsData"]}
{"id": "C58", "title": "The factory knows exactly the six data types", "statement": "CreateDataMeasurement(t) returns an empty measurement whose type is t for the six known types and null for every other string.", "quantifier": "every string", "why_tests_cant": "all strings", "anchors": ["TestingFramework/tfMeasurement.cpp:CreateDataMeasurement"]}
{"id": "C59", "title": "A tolerance affects numbers only and then compares values only", "statement": "With a non-zero tolerance text and file measurements compare exactly as without; numbers are compared by value alone, whatever their names, encodings and written forms; a number never equals a measurement that is no number.", "quantifier": "every pair of measurements and every tolerance", "why_tests_cant": "all pairs of measurements", "anchors": ["TestingFramework/tfMeasurementVisitor.cpp:CompareVisitor::Visit", "TestingFramework/tfMeasurement.h:NumericData::_IsEqualTolerant"]}
{"id": "C60", "title": "What a comparison writes", "statement": "In comparison mode a measurement that agrees with the baseline writes nothing; one without counterpart is written under its name prefixed 'Unmatched '; differing plain text writes the difference of the texts under the name prefixed 'Difference '; any other difference writes the measurement prefixed 'Test ' and the baseline prefixed 'Baseline '.", "quantifier": "every baseline, every measurement and every state of the test object", "why_tests_cant": "all measurements and states", "anchors": ["TestingFramework/tfRegressionTest.cpp:RegressionTest::CompareMeasurement", "TestingFramework/tfRegressionTest.cpp:RegressionTest::UnmatchedMeasurement", "TestingFramework/tfRegressionTest.cpp:RegressionTest::DifferenceMeasurement", "TestingFramework/tfMeasurementVisitor.cpp:DifferenceVisitor::Visit"]}
{"id": "C61", "title": "Return value of a measurement call", "statement": "In comparison mode a measurement call returns 0 if the measurement has a counterpart of the same name and type whose value differs and 1 otherwise (the documentation says 0 when the same).", "quantifier": "every baseline, every measurement and every state", "why_tests_cant": "all measurements and states", "anchors": ["TestingFramework/tfRegressionTest.cpp:RegressionTest::CompareMeasurement"]}
{"id": "C62", "title": "The exit status reports failure", "statement": "A test program whose Main returns a non-zero value has a non-zero exit status. False for multiples of 256: 256 failing measurements look like success.", "quantifier": "every returned value and every number of failing measurements", "why_tests_cant": "no one writes a test with 256 failing measurements", "anchors": ["TestingFramework/tfRegressionTest.cpp:RegressionTest::Main"]}
{"id": "C63", "title": "A readable baseline file is found", "statement": "The baseline named with -I is opened if that file exists. False: with a search path that does not hold the file the named file is not tried.", "quantifier": "every file system, search path and file name", "why_tests_cant": "all file systems and paths", "anchors": ["TestingFramework/tfRegressionTest.cpp:RegressionTest::BeginMeasurement", "FileUtilities/PathName.cpp:PathName::SearchPathList"]}
{"id": "C64", "title": "Comparing does not modify the baseline", "statement": "A run changes no file but its output: a file that no -O names, and that the test itself leaves alone, is after the run as it was before, with its permissions, whatever the command line is, whether the run compares or records, and however it ends. So comparing leaves the baseline, the recorded images and the measured files as they are. The exception: if the output file is the very file that is found as baseline (also by -P), it is emptied before it is read; the baseline is lost, the test is not run and the run does not return 0.", "quantifier": "every command line, every test, every file and every content; every XML parser that rejects truncated documents", "why_tests_cant": "a test shows that one run with one set of names left its baseline alone; the statement is about all combinations of options, search paths, tests and ways a run can end.", "anchors": ["TestingFramework/tfRegressionTest.cpp:RegressionTest::BeginMeasurement"]}
{"id": "C65", "title": "Unchanged image files compare equal", "statement": "An image file measurement agrees with a baseline naming the very same file. False: PNG and JPEG files never agree, and without the subclass itk::Regression no image file at all; whatever the baseline and the files are, every such measurement of a comparing run counts as a failure.", "quantifier": "every image file, baseline and tolerance", "why_tests_cant": "all files", "anchors": ["TestingFramework/tfRegressionTest.cpp:RegressionTest::MeasurementFileImagePNG", "TestingFramework/tfRegressionTest.cpp:RegressionTest::MeasurementFileImageJPEG", "TestingFramework/tfMeasurement.cpp:MeasurementFile::IsEqual"]}
{"id": "C66", "title": "The standard output measurement", "statement": "The measurement called stdout holds the standard output of the command. False: it holds standard output and standard error together, interleaved in a way that depends on the schedule; it equals standard output exactly for commands that write nothing to standard error.", "quantifier": "every command output and every arrival order", "why_tests_cant": "the claim ranges over unboundedly many inputs and schedules; a test shows one of them", "anchors": ["TestingFramework/tfPipeToXML.cxx:Test"]}
{"id": "C67", "title": "An image with undefined pixel values fails", "statement": "An image comparison fails when a pixel is not comparable. False: a NaN difference is never above the threshold. With a radius of 0 an image passes exactly if at most twice the tolerated number of pixels are numbers in both images and farther apart than the tolerance, so undefined pixels count as equal, and an image all of whose pixels are NaN passes against every baseline of the same size.", "quantifier": "every baseline image and tolerance", "why_tests_cant": "the claim ranges over unboundedly many inputs and schedules; a test shows one of them", "anchors": ["itktf/itktfDifferenceImageFilter.txx:ThreadedGenerateData", "itktf/itktfCompareVisitor.cxx:CompareImage"]}
{"id": "C68", "title": "Image comparison looks at the geometry", "statement": "Images with different origin or different spacing compare as different. True for the spacing, whatever the tolerances and pixels; false for the origin: the origin of the test image has no influence on the result, because the baseline's origin is compared with itself.", "quantifier": "every pair of images, every origin and spacing, all tolerances", "why_tests_cant": "the claim ranges over unboundedly many inputs and schedules; a test shows one of them", "anchors": ["itktf/itktfCompareVisitor.cxx:RegressionTestImage"]}
{"id": "C69", "title": "The region of an image comparison", "statement": "The region argument restricts the image comparison. False: it has no effect.", "quantifier": "every region and image pair", "why_tests_cant": "the claim ranges over unboundedly many inputs and schedules; a test shows one of them", "anchors": ["itktf/itktfCompareVisitor.cxx:CompareImage"]}
{"id": "C70", "title": "The total difference does not depend on the thread decomposition", "statement": "The total difference reported by the image difference filter is the same for every split of the region into thread regions. True with exact sums, false with a rounding sum.", "quantifier": "every partition and every rounding function", "why_tests_cant": "the claim ranges over unboundedly many inputs and schedules; a test shows one of them", "anchors": ["itktf/itktfDifferenceImageFilter.txx:AfterThreadedGenerateData"]}
{"id": "C71", "title": "Different arguments give different file names", "statement": "Generated file names differ between tests with different arguments. False: the hash covers only the concatenation of the arguments, and has 16 bits.", "quantifier": "every argument list, extension and root path", "why_tests_cant": "the claim ranges over unboundedly many inputs and schedules; a test shows one of them", "anchors": ["itktf/itktfRegression.cxx:Regression::GenerateFileName"]}
{"id": "C72", "title": "Compound measurements measure every element", "statement": "Measuring a size, index, region, point, vector, array or matrix measures each element once, in order, under a name derived from the name of the whole and the position, and returns the sum of the element results; the entries of a matrix get different names.", "quantifier": "every dimension, value, name, state and mode", "why_tests_cant": "the claim ranges over unboundedly many inputs and schedules; a test shows one of them", "anchors": ["itktf/itktfRegression.h:MeasurementInsightSize", "itktf/itktfRegression.h:MeasurementInsightMatrix"]}
{"id": "C73", "title": "The image comparison program applies the tolerances in order", "statement": "itktfImageCompare measures the images in order under the names ImageFile0, ImageFile1, ..., each with the tolerances that precede it on the command line, and returns 0; any other argument list makes it return 1.", "quantifier": "every argument list and every state", "why_tests_cant": "the claim ranges over unboundedly many inputs and schedules; a test shows one of them", "anchors": ["itktf/itktfImageCompare.cxx:Test"]}
{"id": "C74", "title": "Image differences are recorded in the output file", "statement": "What is found out about differing images is written to the output selected with -O. False: it goes to standard output; the output file of a comparing run whose measurements are all of images with entries in the baseline is empty at the end, however many of them differ.", "quantifier": "every pair of images, baseline and tolerance", "why_tests_cant": "the claim ranges over unboundedly many inputs and schedules; a test shows one of them", "anchors": ["itktf/itktfDifferenceVisitor.cxx:DifferenceTestImage"]}
{"id": "C75", "title": "An unreadable image counts as a failing measurement", "statement": "An image file that cannot be read makes this measurement fail. False: it ends the whole test by an exception; it is the last thing measured, and Main returns -1 (unless -1 is expected), whatever the test would return.", "quantifier": "every test program, baseline and file name", "why_tests_cant": "the claim ranges over unboundedly many inputs and schedules; a test shows one of them", "anchors": ["itktf/itktfDifferenceVisitor.cxx:DifferenceTestImage", "itktf/itktfCompareVisitor.cxx:RegressionTestImage"]}
{"id": "C76", "title": "On which hosts a recorded baseline can be read", "statement": "A baseline recorded on any host reads back and the unchanged test compares clean against it. That is false as it stands, and it holds exactly on the hosts whose name has no two hyphens in a row: the host name is put into an XML comment, where two hyphens make the document not well-formed. On a host with such a name (any internationalized name, `xn--...`) recording succeeds with 0 and every comparison with the baseline, of any test, fails with -1.", "quantifier": "every host name, time, test and conforming XML parser", "why_tests_cant": "the claim ranges over unboundedly many documents and worlds; a test shows one of them", "anchors": ["TestingFramework/tfRegressionTest.cpp:RegressionTest::BeginMeasurement", "TestingFramework/tfRegressionTest.cpp:RegressionTest::ReadXMLInput"]}
{"id": "C77", "title": "A baseline without a type is reported", "statement": "A baseline element without a type attribute is reported as an error. False: a DartMeasurement with a name, encoding or compression but no type makes the reader call a method through a null pointer.", "quantifier": "every baseline document with such an element, whatever precedes and follows", "why_tests_cant": "the claim ranges over unboundedly many documents and worlds; a test shows one of them", "anchors": ["TestingFramework/tfRegressionTest.cpp:start"]}
{"id": "C78", "title": "Every well-formed baseline is read or reported", "statement": "A well-formed document is either read or reported as an error. False: a child element of a measurement, or text before a child of an unknown element, fails an assertion and ends the program.", "quantifier": "every such document", "why_tests_cant": "the claim ranges over unboundedly many documents and worlds; a test shows one of them", "anchors": ["TestingFramework/tfRegressionTest.cpp:start"]}
{"id": "C79", "title": "Unknown elements and the root name are ignored", "statement": "Elements of other kinds, with any attributes and text, and the name of the document element make no difference to the measurements read.", "quantifier": "every document, position and element", "why_tests_cant": "the claim ranges over unboundedly many documents and worlds; a test shows one of them", "anchors": ["TestingFramework/tfRegressionTest.cpp:start", "TestingFramework/tfRegressionTest.cpp:data", "TestingFramework/tfRegressionTest.cpp:end"]}
{"id": "C80", "title": "A Diff report and the first text determine the second text", "statement": "The text Diff writes, read by the rules of its documentation (commands LaR, FcT, RdL with one-based line numbers and the separator the code uses), together with the first text yields the second text, as long as the second text contains no NUL; two different NUL-free texts never give the same report against the same text. With a NUL in a line the rest of that line is not reported, and two different texts can give the same report.", "quantifier": "every pair of texts, every content of memory", "why_tests_cant": "ranges over all pairs of texts; losing information is visible only for particular pairs", "anchors": ["TestingFramework/tfDiff.cpp:PrintEditList", "TestingFramework/tfDiff.cpp:PrintLines", "TestingFramework/tfDiff.h:Diff"]}
{"id": "C81", "title": "Data set with a compression is kept or reported", "statement": "SetContentAsData on a measurement with a compression attribute either keeps the data or reports an error to the caller. False in this code: the call returns normally and drops the data; reading gives the old text (without base64) or nothing (with base64, where the text content is erased too).", "quantifier": "every measurement object in every state, every compression other than none, every data", "why_tests_cant": "holds for every object state, attribute value and data", "anchors": ["TestingFramework/tfMeasurement.cpp:SetContentAsData", "TestingFramework/tfMeasurement.cpp:GetContentAsData"]}
{"id": "C82", "title": "A failed read of data fails again", "statement": "A GetContentAsData call that ends by an exception leaves the object so that the next call ends by an exception too. False in this code: the next call returns a block of as many bytes as there are base64 characters, which starts with what was decoded before the exception and is indeterminate after it. For data set by SetContentAsData, of a size that is no multiple of 3, that block is the data itself, a zero byte, and one indeterminate byte for each three bytes of data.", "quantifier": "every measurement with base64 encoding and every content whose reading throws", "why_tests_cant": "ranges over every content and object state; the memory is indeterminate, so a test can pass by chance", "anchors": ["TestingFramework/tfMeasurement.cpp:UpdateContentAsData", "TestingFramework/tfMeasurement.cpp:GetContentAsData"]}
{"id": "C83", "title": "What a baseline document means", "statement": "The measurements read from a baseline document are exactly the DartMeasurement and DartMeasurementFile elements that are children of the document element, in document order, each with the attributes and the text it has; a type that is not known is read as plain text; every other element, and everything nested in it, is passed over. Exceptions: a DartMeasurement without type but with another attribute is undefined behaviour, and a child of a measurement, or text before a child of another element, fails an assertion.", "quantifier": "every document of the grammar (any nesting, any elements, attributes and text) and every way the parser cuts its text into callbacks", "why_tests_cant": "documents nest without bound and the cutting into callbacks is up to the parser; a test shows one document and one cutting", "anchors": ["TestingFramework/tfRegressionTest.cpp:start", "TestingFramework/tfRegressionTest.cpp:data", "TestingFramework/tfRegressionTest.cpp:end", "TestingFramework/tfRegressionTest.cpp:ReadXMLInput"]}
{"id": "C84", "title": "Text of floating point measurements", "statement": "Setting the value of a float (double) measurement stores the number in decimal notation, correctly rounded (ties to even) to 7 (16) significant digits; the text is fully determined: no superfluous zeros, and an exponent of at least two digits exactly if the rounded number is below 10^-4 or at least 10^7 (10^16). A number that needs no more digits is stored exactly, and an integer of at most 7 (16) digits has the text an integer measurement would have. A double with a short decimal notation need not be written in it: 0.07 is written 0.07000000000000001.", "quantifier": "every finite float and double", "why_tests_cant": "2^64 values; rounding errors show only near ties and powers of ten", "anchors": ["TestingFramework/tfMeasurement.cpp:FloatNumeric::SetValue", "TestingFramework/tfMeasurement.cpp:DoubleNumeric::SetValue"]}
{"id": "C85", "title": "Without tolerance floating point values are compared by their text", "statement": "With tolerance off, two double (float) measurements compare equal exactly when their names and their 16 (7) digit texts are the same: values that differ by more than 10^-15 (10^-6) of the larger one are always told apart, values between two values with the same text have it too; different values can have the same text, and 0 and -0 have different texts.", "quantifier": "every pair of values, every pair of names", "why_tests_cant": "all pairs of floating point values; which neighbours share a text depends on the position in the decade", "anchors": ["TestingFramework/tfMeasurementVisitor.cpp:CompareVisitor", "TestingFramework/tfMeasurement.cpp:FloatNumeric::SetValue", "TestingFramework/tfMeasurement.cpp:DoubleNumeric::SetValue", "TestingFramework/tfMeasurement.cpp:DataMeasurement::IsEqual"]}
{"id": "C86", "title": "Infinities and NaN count as zero when compared with tolerance", "statement": "A measured infinity or NaN is written as inf or nan and differs in text from every finite number; but it is read back as 0, so in a comparison with tolerance it passes against 0 and against every other infinity or NaN, and exchanging it for 0 never changes the result.", "quantifier": "every infinity, NaN and zero, on either side, against every content, for every nonzero tolerance", "why_tests_cant": "ranges over all contents of the other side and all tolerances; a test that measures NaN passes", "anchors": ["TestingFramework/tfMeasurement.cpp:FloatNumeric::GetValue", "TestingFramework/tfMeasurement.cpp:DoubleNumeric::GetValue", "TestingFramework/tfMeasurement.h:NumericData::_IsEqualTolerant"]}
{"id": "C87", "title": "Reading back floating point measurements", "statement": "The value read from the text of a float (double) measurement is a float (double) within 10^-6 (10^-15) of the value set, relatively, and the same value if that has a decimal notation with at most 7 (16) digits. It need not be the same value otherwise: 0.1+0.2 is read back as 0.3.", "quantifier": "every finite float and double", "why_tests_cant": "every floating point value; the error depends on both the binary and the decimal grid", "anchors": ["TestingFramework/tfMeasurement.cpp:FloatNumeric::GetValue", "TestingFramework/tfMeasurement.cpp:DoubleNumeric::GetValue", "TestingFramework/tfMeasurement.cpp:FloatNumeric::SetValue", "TestingFramework/tfMeasurement.cpp:DoubleNumeric::SetValue"]}
{"id": "C88", "title": "Tolerance holds between the measured values", "statement": "If two double (float) values are measured and compared with tolerance e, 0 < e <= 1, the comparison passes when |u - v| <= (e - d) |u| or |u - v| <= (e - d) |v|, and only if one of the two holds with e + d, or both are below 2^-51 (2^-22), where d = 5*10^-15 (5*10^-6): writing with 16 (7) digits, reading and the rounding of the comparison move the boundary by no more than d.", "quantifier": "every pair of finite doubles (floats), every tolerance in (0,1], every pair of names", "why_tests_cant": "all pairs of values and tolerances, including subnormal and overflowing differences", "anchors": ["TestingFramework/tfMeasurement.h:NumericData::_IsEqualTolerant", "TestingFramework/tfMeasurementVisitor.cpp:CompareVisitor", "TestingFramework/tfMeasurement.cpp:DoubleNumeric::SetValue", "TestingFramework/tfMeasurement.cpp:DoubleNumeric::GetValue"]}
{"id": "C89", "title": "Recording and comparing values, end to end", "statement": "Run a test that measures some values with -O file, then run another test (or another version of it) with -I file, with a tolerance e in [0,1]. The first run returns 0. The second returns at most the number of its measurements that need not be accepted against the recorded measurement at the same position, and at least the number of those that must be rejected: strings, plain texts and booleans must be the same; integers with tolerance must satisfy |u-v| <= e|u| or <= e|v| (exactly, up to 2^-52 in e); floats and doubles likewise up to 5*10^-6 and 5*10^-15 in e, tiny values apart; without tolerance floats and doubles that are equal pass and those that differ relatively by more than 10^-6 (10^-15) fail. So no regression beyond the tolerance is ever missed and no value within it ever reported, whatever the values and names.", "quantifier": "every pair of lists of named values (strings, plain texts, integers, floats, doubles, booleans), every tolerance in [0,1], every conforming incremental XML parser, every program and file name, every initial file system in which the file can be written", "why_tests_cant": "all pairs of runs and all values; composes the text of numbers, XML escaping and parsing, the driver's accounting and the comparison", "anchors": ["TestingFramework/tfRegressionTest.cpp:RegressionTest::Main", "TestingFramework/tfRegressionTest.cpp:RegressionTest::ReadXMLInput", "TestingFramework/tfRegressionTest.cpp:RegressionTest::CompareMeasurement", "TestingFramework/tfMeasurementVisitor.cpp:CompareVisitor", "TestingFramework/tfMeasurement.cpp:DoubleNumeric::SetValue"]}
{"id": "C90", "title": "A joined path names the file in the directory", "statement": "p.Append(f) with a relative, non-empty f leads to the file f leads to in the directory p leads to, and nowhere if p is no directory: after a successful SetCurrentDirectory(p), IsFile, IsDirectory, Exists, IsReadable and IsWritable of f are what those of p.Append(f) were before. Joining the directory name and the tail of a path leads to the same file as the path, except for a slash followed by one name. SearchPathList returns a name of the file in the first directory of the list in which the name is a regular file.", "quantifier": "every file system (nodes, links, permissions), every current directory, every non-empty path and relative name without NUL, every path list", "why_tests_cant": "all file systems and all path spellings (repeated and trailing slashes, dots, links)", "anchors": ["FileUtilities/PathName.cpp:PathName::Append", "FileUtilities/PathName.cpp:PathName::DirectoryName", "FileUtilities/PathName.cpp:PathName::Tail", "FileUtilities/PathName.cpp:PathName::SearchPathList", "FileUtilities/FileUtilities.cpp:SetCurrentDirectory"]}
{"id": "C91", "title": "The current directory can be asked for and returned to", "statement": "GetCurrentDirectory returns the absolute name of the current directory, and after any SetCurrentDirectory a SetCurrentDirectory with that name returns there. In the code this holds for names of at most 1023 bytes; for longer ones, which are reachable with SetCurrentDirectory, the result is read from memory that was never written.", "quantifier": "every file system, every current directory, every path", "why_tests_cant": "all directory depths and names; the failing case needs a deep directory", "anchors": ["FileUtilities/FileUtilities.cpp:GetCurrentDirectory", "FileUtilities/FileUtilities.cpp:SetCurrentDirectory"]}
{"id": "C92", "title": "SearchDirectory lists the directory", "statement": "SearchDirectory of a readable directory returns relative names which, appended to the path, lead to the entries of the directory, and every single name that leads somewhere from the directory is in the list; of anything else it returns the empty list. The list contains the directory itself (the name '.').", "quantifier": "every file system, current directory and path without NUL", "why_tests_cant": "all directories", "anchors": ["FileUtilities/PathName.cpp:PathName::SearchDirectory", "FileUtilities/PathName.h:PathName::SearchDirectory"]}
{"id": "C93", "title": "The text of a watched filter depends only on its events", "statement": "The text a FilterWatcher writes is determined by the class name of the filter, the comment and the sequence of start, iteration, abort and end events: two runs with the same class and comment give the same text exactly if these sequences are equal, however often progress was reported. So it can be used as a measurement, and no change of the sequence goes unnoticed. The watcher reads a variable that was never set, or overflows it, exactly if an iteration comes before the first start or 2^31 iterations follow each other without a start between them.", "quantifier": "every class name and comment, every history of events (for the text: those in which iterations follow a start, fewer than 2^31 between starts)", "why_tests_cant": "all histories of events, all names and comments (which may look like the watcher's own text)", "anchors": ["itktf/itktfFilterWatcher.h:FilterWatcher"]}
{"id": "C94", "title": "Settings made by a test take effect as documented within the run", "statement": "At the start of the test the Get functions tell what the command line says (last -R, -I, -O, all -P in front of the search path; GetCompareMode exactly if there is an input file), later what was last set with the Set functions, whatever is measured in between. Measurement calls change no setting (expected value, tolerance, file names, search path, image tolerances). In a run compared with a baseline, SetInFileName and SetOutFileName called by the test have no effect on what is measured, counted, written and returned by the test. Not so when recording: a test that names a readable file with SetInFileName switches the rest of the run to comparing with nothing: every measurement is counted and written as unmatched, the recorded document stays without its end and Main returns the number of measurements.", "quantifier": "every test program, state of the object, names and files", "why_tests_cant": "ranges over all tests and all moments at which a setting is changed", "anchors": ["TestingFramework/tfRegressionTest.cpp:RegressionTest::SetInFileName", "TestingFramework/tfRegressionTest.cpp:RegressionTest::SetOutFileName", "TestingFramework/tfRegressionTest.cpp:RegressionTest::GetCompareMode"]}
{"id": "C95", "title": "The report about two images that differ", "statement": "When an image measurement differs from the readable image file of the baseline, the call returns 0, counts one failure and writes to standard output, after a line with both file names: if the sizes differ, the two sizes and nothing else; otherwise a pair of measurements for each of spacing, origin, pixel type, component type and number of components that differs, then the number of differing pixels, then the three pictures (difference, baseline, test), each preceded by the text of the slice shown. The three pictures carry the same measurement name.", "quantifier": "every pair of images, tolerances, schedule of the threads, names and surroundings", "why_tests_cant": "ranges over all images, tolerances and thread schedules", "anchors": ["itktf/itktfDifferenceVisitor.cxx:DifferenceVisitor::DifferenceTestImage", "itktf/itktfDifferenceVisitor.cxx:ImageThing"]}
{"id": "C96", "title": "An interrupted recording is never accepted as a baseline", "statement": "When the process is killed at any moment while a test is being recorded, the output file holds the header and one whole line for each measurement made so far, a beginning of the finished file. A recording cut anywhere before its last byte but one, given as the baseline, is never read: Main does not run the test and does not return 0 (it returns -1, or a positive count if -1 is expected), or, when the cut is within the content of a measurement, a failed assertion ends the program.", "quantifier": "all test programs that leave the output file alone, all crash points, all cuts of the file, all ways in which the parser splits the text", "why_tests_cant": "There is a crash point after every step of every test and a cut at every byte of every recording.", "anchors": ["TestingFramework/tfRegressionTest.cpp: ReadXMLInput", "TestingFramework/tfRegressionTest.cpp: XMLParseData", "TestingFramework/tfRegressionTest.cpp: StartXMLOutput", "TestingFramework/tfRegressionTest.cpp: Main"]}
{"id": "C97", "title": "Numbers in texts and on the command line are read up to the first character that does not belong to them", "statement": "The value of an integer or boolean measurement is that of the integer its content begins with (after white space, with or without a sign), made the nearest int, or 0 (false) if the content begins with none; whatever follows is ignored. The value of a float or double measurement is the number its content begins with, rounded to the format with ties to even, the largest finite number if it is too large, 0 if there is none (also for \"1e\", \"inf\"). The value of -R is read as a long, cut to an int, and 0 if it is no number. The image comparison program accepts an intensity exactly if the argument begins with a number that does not overflow, and a number of pixels or radius exactly if it begins with an integer below 2^32 in absolute value. A negative one is taken modulo 2^32, so with --numberOfPixelTolerance -1 any two readable images of the same size and spacing pass; the sign of an intensity has no effect.", "quantifier": "all texts (any bytes, any length), all images and image readers, all states of the object", "why_tests_cant": "Reading must be right for every text, including garbage after numbers, overflow and rounding ties; tests try a handful of well-formed numbers. That a mistyped tolerance silently accepts every image is a statement about all images.", "anchors": ["TestingFramework/tfMeasurement.cpp: IntegerNumeric::GetValue, BooleanNumeric::GetValue, FloatNumeric::GetValue, DoubleNumeric::GetValue", "TestingFramework/tfRegressionTest.cpp: ParseAndRemoveArguments", "itktf/itktfImageCompare.cxx: itktfImageCompareRegressionTest::Test", "itktf/itktfCompareVisitor.cxx: RegressionTestImage"]}
{"id": "C98", "title": "Measurements of the baseline and open files are neither used after they were destroyed nor destroyed twice, and nothing is lost unless an exception is thrown", "statement": "Whatever calls of Main are made on one object, with whatever tests, arguments, files and changes of settings between them, and however they end, no measurement made from a baseline and no file stream is used before it exists or after it was destroyed, and none is destroyed twice (the destructor of the object included). If no exception is thrown and no attribute occurs twice in an element, everything that was made has been destroyed when the object is destroyed. After exceptions it has not: a comparison that ends by an exception loses the measurement of the baseline for good; a baseline the parser rejects loses every measurement read before the error (an interrupted recording loses all it contains); a file still open after an exception is not closed by the destructor, and is lost when the next call of Main opens another; so is the rest of the baseline when the next call reads one. The destructor destroys exactly the measurements that are left of the baseline.", "quantifier": "all sequences of calls of Main on one object, all tests, arguments, files, settings changed in between, parsers and libraries; all continuations after a loss", "why_tests_cant": "Use after free and double deletion depend on the whole history of an object, including exceptions at every point of every call; a leak is not visible to a test at all.", "anchors": ["TestingFramework/tfRegressionTest.cpp: RegressionTest::~RegressionTest, BeginMeasurement, EndMeasurement, CompareMeasurement, ReadXMLInput, ReadXMLInputFree, Main, start, end", "TestingFramework/tfRegressionTest.h: RegressionTest::Input, os, is"]}
{"id": "C99", "title": "Memory of measurement data is freed exactly once and never used afterwards, except in SetContentAsData with a measurement's own data; assignment over data and a throwing comparison with a file lose memory", "statement": "Whatever measurements are constructed, copied, assigned, given names, contents, encodings, compressions and data, read, compared with each other and with files and destroyed, in whatever order, and whatever exceptions are thrown: memory holding their data is never used before it was allocated or after it was freed and never freed twice, with exactly one exception: x.SetContentAsData(x.GetContentAsData(), x.GetContentAsDataSize()) while x has data other than its text copies from freed memory. Every measurement has its own memory; a copy shares none with its original. When all measurements are destroyed no memory is left allocated, except, exactly, when a measurement with data of its own was assigned to, or a comparison with a file ended by an exception. A pointer returned by GetContentAsData stays usable, with the same bytes, until SetContent, SetContentAsData, an assignment or the destructor of that measurement; after SetContent, SetContentAsData or the destructor it points to freed memory; reading, comparing or changing name, encoding or compression do not matter. The values and answers do not depend on any of this.", "quantifier": "all finite sequences of calls on any number of measurements, all contents, data and files (which may change between calls)", "why_tests_cant": "Use after free, double free and leaks depend on the order of all calls and exceptions; tests see values, and freed memory usually still holds the old ones.", "anchors": ["TestingFramework/tfMeasurement.cpp: DataMeasurement::~DataMeasurement, DataMeasurement (copy), operator=, UpdateContentAsData, DeleteContentAsData, GetContentAsData, GetContentAsDataSize, SetContentAsData, IsEqual, MeasurementFile::Load, MeasurementFile::IsEqual", "TestingFramework/tfMeasurement.h: TextData::SetContent, NumericData::SetContent"]}
{"id": "C100", "title": "What the error stream says about a baseline: every oddity of the document is reported, in order, and a document read in silence is a regular one, with one exception", "statement": "For every baseline document, however the file is cut into pieces for the parser, the lines written to std::cerr while it is read are exactly: one if the document element is not `output`; then for each child of it, in order, one if its type is unknown, one per unknown attribute, one if it is an element of another kind and one per element inside such an element; if the program is stopped, only what precedes that point. So it is read without a word exactly if the document element is `output` and every child is a measurement of a known type with known attributes and only text inside, or a `<DartMeasurement>` without any attribute, which is dropped in silence. A file the parser rejects is always reported, as the last line; a file that was read never has that line. A recorded baseline is read without a word. Printing does not change what is read.", "quantifier": "all documents of the grammar, all ways to cut them into chunks, all files for the parse error, all conforming XML parsers", "why_tests_cant": "There are unboundedly many documents, with any number of odd elements in any order and nesting; a test sees that one message appears, not that nothing is passed over in silence.", "anchors": ["TestingFramework/tfRegressionTest.cpp: ReadXMLInput, start, end, data"]}
{"id": "C101", "title": "What the error stream says about the command line: one line for every -O whose file cannot be written and nothing else; such an option also cancels an earlier good one", "statement": "For every command line, the lines written to std::cerr while it is parsed are exactly one for each `-O` among the options processed whose value is an existing file that cannot be written, in order. The run is not stopped by it; and if it is the last `-O`, the name of the output file stays what it was before the call, even if an earlier `-O` on the same command line named a good file. Printing does not change what is parsed.", "quantifier": "all command lines, all file systems, all earlier settings", "why_tests_cant": "Any number of options in any order, with any file system.", "anchors": ["TestingFramework/tfRegressionTest.cpp: ParseArguments"]}
{"id": "C102", "title": "What the error stream says about the data of measurements: silence means the data is right", "statement": "When data of a measurement is read, nothing is written to std::cerr if the data is kept already; otherwise exactly one line for a compression other than \"none\" and one for an encoding that is not known or for non-empty text that is not base64. Whoever reads data and hears nothing has the data that was set, the text itself (no encoding), or what the base64 text decodes to. A compression is reported and then ignored. Setting data says one line for a compression and one for an unknown encoding, nothing otherwise. A comparison of data measurements with different names or types is silent; with the same ones, if it ends normally, it is silent exactly if the data of both can be read in silence. Comparing files of the same name and type reports a first file that cannot be opened and a type without a data class (every image), and in the latter case answers \"different\" whatever the files contain. Printing does not change any answer.", "quantifier": "all measurements (kinds, names, contents, encodings, compressions, kept data), all bytes, all files", "why_tests_cant": "All contents, encodings and compressions, and the state of the cache; a test checks a single message.", "anchors": ["TestingFramework/tfMeasurement.cpp: DataMeasurement::UpdateContentAsData, GetContentAsData, GetContentAsDataSize, SetContentAsData, IsEqual, MeasurementFile::Load, MeasurementFile::IsEqual"]}
{"id": "C103", "title": "Images measured by a test are kept in files of their own and compared with the images recorded, unless both runs have the same arguments", "statement": "Each image given to MeasurementInsightImage is in the file with the name generated for it when the test ends, whatever was measured later, and no other file but the output is changed. Two runs whose argument lists differ in one character, anywhere, use different files; in particular a run recorded with `-O` and one compared with `-I`. So a test recorded with `-O f` and run again with `-I f` and the same other arguments returns the number of images that are not like the image recorded at their position under the same name (size, spacing and pixels within the tolerances), and the recording run returns 0. If the program itself sets output and baseline, so that both runs have the same arguments, the comparing run writes its images over the recorded ones before it compares: the recorded images have no influence, and the run passes whatever the images are.", "quantifier": "all lists of named images (up to 2^32), all arguments, all tolerances, all search paths under which the recorded names lead to the recorded files, all file systems in which the files can be created", "why_tests_cant": "The names come from a 16-bit hash of the arguments, so collisions depend on every argument list; the number of images is unbounded, and a test that passes does not show which files were compared.", "anchors": ["itktf/itktfRegression.h: MeasurementInsightImage", "itktf/itktfRegression.cxx: GenerateFileName, MeasurementInsightFileImage, Main"]}
{"id": "C104", "title": "The image comparison works the same for every type of pixels", "statement": "For every type of pixels with a difference and a squared norm (scalars, vectors, complex numbers): the number of pixels with differences is the number of pixels whose distance to the value at the same place is above the tolerance and for which no value of the test image within the radius is within it; the output image contains there the difference to a closest value, and zero elsewhere; neither depends on threads or memory. Vectors are compared by the Euclidean distance, so a tolerance for vectors is at least as strict as for each component, and a vector with one component that is not a number is never counted; complex numbers are compared as vectors of two components.", "quantifier": "all pixel types, images, dimensions, regions, radii, tolerances, roundings, numbers of threads, schedules and initial memory contents", "why_tests_cant": "the filter is a template instantiated for unboundedly many types, run by the scheduler in any order; the test of the repository only instantiates it", "anchors": ["itktf/itktfDifferenceImageFilter.h: SquaredTwoNorm, ZeroValue", "itktf/itktfDifferenceImageFilter.txx: ThreadedGenerateData", "itktf/itktfRegression.h: CompareImage"]}
{"id": "C105", "title": "CompareImage can be used with images of unsigned char", "statement": "CompareImage of two unsigned char images returns the number of pixels that differ by more than the tolerance. False: where the test image is brighter than the baseline by more than the tolerance, the negative difference is converted to unsigned char, which is undefined. With zero radius the behaviour is defined exactly if no pixel is brighter by more than the tolerance, and then the result is right.", "quantifier": "all pairs of unsigned char images of the same region, tolerances, numbers of threads and schedules", "why_tests_cant": "undefined behaviour does not show in a run on common machines, and depends on the pixels", "anchors": ["itktf/itktfRegression.h: CompareImage", "itktf/itktfDifferenceImageFilter.txx: ThreadedGenerateData"]}
{"id": "C106", "title": "The intensity tolerance is a bound on the difference of doubles", "statement": "With IEEE doubles and a tolerance from 2^-511 to below 2^512 exactly the pixels are counted whose difference from every value within the radius, rounded to double, exceeds the tolerance; so a pixel is not counted if some value within the radius differs by at most the tolerance, it is counted if all differ by at least (1 + 2^-52) times the tolerance, and images of whole numbers below 2^52 are compared exactly. For smaller tolerances differences above 2^-511 are found. With zero tolerance images of whole numbers, floats or other multiples of 2^-149 are compared exactly; for arbitrary doubles that is false: differences up to 2^-538 are not seen, from 2^-537 on they are. A tolerance of 2^512 or more accepts everything. Infinite values are counted against finite ones; values that are not numbers, and equal infinities, are not counted.", "quantifier": "all images of doubles, radii, tolerances and schedules", "why_tests_cant": "the claim is about all pairs of doubles; squares underflow and overflow only at extreme values", "anchors": ["itktf/itktfDifferenceImageFilter.txx: ThreadedGenerateData", "itktf/itktfDifferenceImageFilter.h: SquaredTwoNorm"]}
{"id": "C107", "title": "Where a run finds its baseline and the recorded images; an ITK regression test looks in its data directory only", "statement": "For every command line of accepted options with -I and without -O, the baseline is the first regular file of that name in the -P directories, the last given first, and then in the search path of the object; if none has it the attempt is made in the last directory, and without directories the name is used as it is. If that file cannot be read the test is not run, nothing is written and Main returns -1 (unless -1 is expected); otherwise the test runs with the measurements of that file. An itk::Regression object as constructed has the data directory as search path: a relative -I name must exist in the current directory but is read from the data directory. A test recorded anywhere, its document put to an absolute name and its images into the data directory, returns, compared from anywhere, the number of images not like the recorded ones. Images left beside the test are not found: the test ends with -1 at the first of them.", "quantifier": "all command lines of accepted options, all file systems, all search paths, all tests, all images and names, all conforming XML parsers", "why_tests_cant": "It ranges over all file systems, option lists and tests; the tests of the repository use one absolute name and one data directory.", "anchors": ["itktf/itktfRegression.cxx: Regression::Regression", "TestingFramework/tfRegressionTest.cpp: BeginMeasurement, ParseAndRemoveArguments, CompareMeasurement", "FileUtilities/PathName.cpp: SearchPathList, Append"]}
{"id": "C108", "title": "CompareImage of two image files", "statement": "The static CompareImage of two file names throws exactly if one of the files cannot be read; otherwise it returns the largest unsigned long if the sizes differ, and else the number of pixels with differences beyond the tolerated number; it returns 0 exactly if both can be read, have the same size and at most the tolerated number of pixels differ. Unlike the comparison in a run it does not look at the spacing and applies the tolerated number of pixels once, so a run accepts what it accepts for twice the number (and equal spacings). The form with a region compares the whole test image, without tolerances.", "quantifier": "every type of pixels whose differences can be converted, all files, images, tolerances, regions, threads and schedules", "why_tests_cant": "all images, tolerances and schedules", "anchors": ["itktf/itktfRegression.h:Regression::CompareImage", "itktf/itktfCompareVisitor.cxx:RegressionTestImage"]}
{"id": "C109", "title": "Statistics of the difference filter", "statement": "After a run of the image difference filter on images of doubles: the number of pixels with differences is their exact number; the total magnitude has, for every division into threads, a relative error of at most one part in 2^53 for each of these pixels and each thread compared with the exact sum of the distances (each a correctly rounded square root) and is zero exactly if no pixel differs; for images of whole numbers (or multiples of a power of two) it is the exact sum, hence independent of the threads, while in general it depends on them; it is never NaN, and infinite if a pixel is infinitely far from all values within the radius. The mean magnitude is the total divided by the number of all pixels (not of those that differ), correctly rounded. The statistics of a run do not depend on those of earlier runs, and a run that fails leaves the statistics of the run before.", "quantifier": "all images of doubles, tolerances, radii, numbers of threads and schedules, all earlier states of the filter object", "why_tests_cant": "rounding errors and their dependence on the division into threads range over all images and schedules; a test shows single sums", "anchors": ["itktf/itktfDifferenceImageFilter.txx:AfterThreadedGenerateData", "itktf/itktfDifferenceImageFilter.txx:ThreadedGenerateData", "itktf/itktfDifferenceImageFilter.txx:BeforeThreadedGenerateData", "itktf/itktfDifferenceImageFilter.h:GetTotalMagnitude", "itktf/itktfDifferenceImageFilter.h:GetMeanMagnitude", "itktf/itktfDifferenceImageFilter.h:GetNumberOfPixelsWithDifferences"]}
{"id": "C110", "title": "The image comparison program, from its files to its exit status", "statement": "itktfImageCompare with -I, whatever other options are accepted (no -O, no -R), looks up the baseline and the recorded images in the directories of -P and the data directory, compares the i-th image with the i-th entry of the baseline, with the tolerances that precede it, and returns the number of images that have no entry of their name at their position or are not like the recorded image; it returns -1 if an image to be compared or the one recorded for it cannot be read. It returns 0 exactly if every image has its entry and is like the recorded one; entries left over do not count. With -O it returns 0 and writes one entry per image, with the last component of its name, whether or not the images exist, and changes no other file; comparing with such a recording compares with the files of those names found at that time. Arguments that are no images and tolerances give 1 or -1, never 0, unless -R is given: with -R 1, and without -I and -O, they give 0. But 256 failing images give the exit status of success. And with -R and a value other than 0 it returns 0 whenever the images can be read, however many of them differ. Without -I and -O it returns 0 for all images, also those that do not exist, and whatever -R says.", "quantifier": "every command line of accepted options, every list of images and tolerances, every baseline, every content of the files, every toolkit that reads images from files", "why_tests_cant": "the result is a function of arbitrarily long argument lists, baselines and image contents; a test fixes all of them", "anchors": ["itktf/itktfImageCompare.cxx:main", "itktf/itktfImageCompare.cxx:Test", "itktf/itktfRegression.cxx:Regression", "itktf/itktfCompareVisitor.cxx:Visit", "TestingFramework/tfRegressionTest.cpp:Main"]}
{"id": "C111", "title": "Rounding does not matter when images of whole numbers are compared in a run", "statement": "When a run or itktfImageCompare compares images whose pixels are whole numbers (below 2^52, as in images of every integer type up to 32 bits), the arithmetic of doubles makes no difference: with a tolerance of 0 or from 2^-511 to below 2^512 exactly the pixels count whose true difference from every value within the radius is larger than the tolerance, itktfImageCompare returns 0 exactly if every image is the one recorded up to the tolerances given, and two runs report exactly the number of images that differ. For images of other doubles it is the difference rounded to double that decides. The arithmetic used for runs (rounding, no upper limit) gives the same results as IEEE doubles with overflow and underflow, for every region and every schedule of threads, as long as no pixel is infinite.", "quantifier": "all images (regions, pixels including NaN), tolerances, regions, numbers of threads and schedules; all command lines, baselines and states of the file system for the program", "why_tests_cant": "needs all pixel values and tolerances: the squares of nearby doubles are compared, and rounding could make different values compare equal or equal ones different", "anchors": ["itktf/itktfRegression.h:CompareImage", "itktf/itktfDifferenceImageFilter.txx:ThreadedGenerateData", "itktf/itktfCompareVisitor.cxx:RegressionTestImage", "itktf/itktfImageCompare.cxx:main"]}
{"id": "C112", "title": "What the error stream says about exceptions: every exception that ends a run is reported by exactly one line with its most specific standard class and its text, after the lines about the command line and the baseline", "statement": "For every exception, whatever class it has, Main writes exactly one line: the name of its most specific standard class and its what() text, or \"unknow exception\" if it is not derived from std::exception; no handler is hidden by an earlier one. For every command line and world, what Main writes to std::cerr is: the lines about -O (C101); if an -I or -P is refused, one line that names its value; if the output or the input file cannot be opened, one line that names that file as it was given (also if a different file was looked up for it, even when the named one is readable); otherwise the lines of the reader of the baseline (C100), then one line if the baseline cannot be parsed or if the test ends by an exception, and none otherwise. Printing does not change the run.", "quantifier": "all exception objects with possible class hierarchies, all command lines that are accepted or end in a refused pair, all worlds, objects, baselines, XML parsers and tests", "why_tests_cant": "tests see one exception and one command line; the claim is about every class, every combination of options and every point where a run can end", "anchors": ["TestingFramework/tfRegressionTest.cpp:RegressionTest::Main", "TestingFramework/tfRegressionTest.cpp:RegressionTest::ParseAndRemoveArguments", "TestingFramework/tfRegressionTest.cpp:RegressionTest::BeginMeasurement", "TestingFramework/tfRegressionTest.cpp:CATCH_MACRO"]}
{"id": "C113", "title": "The project's own tests of image measurements, for all contents of the image files and every noise: the first passes whatever the images are, the second exactly if both pairs differ, the third exactly if the copied image is the recorded one, the fourth for every noise", "statement": "A test that measures a row of image files against a baseline returns the number of measured images that are not like the image recorded for them. With the baselines of the repository: itktfMeasurementFileImageInsightTest1 returns 0 for any two readable images whose spacing and origin are numbers, because each is compared with itself; the exit status of itktfMeasurementFileImageInsightTest2 is success exactly if the PNG image differs from the changed PNG image and the JPEG image from the PNG image; itktfMeasurementFileImageInsightTest3 returns 0 exactly if the image that is copied is like the image in the data directory under the name of the copy; itktfMeasurementFileImageInsightTest4 returns 0 for every image of whole numbers below 2^23 and whatever random numbers within one half are added to it in the arithmetic of floats, the comparison being made in the arithmetic of doubles with tolerance 1; it returns 1 without its two arguments. A test that cannot read its input or write its output makes Main return -1.", "quantifier": "all image contents and sizes, all noise within one half, all file systems in which the named files are (or are not) readable and creatable, all names of directories and of the baseline, all thread schedules of the comparison", "why_tests_cant": "these are the tests: running them shows the result for the images in the repository and one sequence of random numbers, not what they establish", "anchors": ["itktf/Testing/itktfMeasurementFileImageInsightTest1.cxx:Test", "itktf/Testing/itktfMeasurementFileImageInsightTest2.cxx:Test", "itktf/Testing/itktfMeasurementFileImageInsightTest3.cxx:Test", "itktf/Testing/itktfMeasurementFileImageInsightTest4.cxx:Test", "itktf/Testing/CMakeLists.txt", "itktf/Testing/XML/itktfMeasurementFileImageInsightTest1.xml", "itktf/itktfRegression.cxx:Regression::MeasurementInsightFileImage"]}
{"id": "C114", "title": "Compound ITK values recorded and compared component by component", "statement": "A test derived from itk::Regression that measures sizes, indices, regions, points, vectors, arrays and matrices is recorded with -O and later run again with -I on that document (kept anywhere with an absolute name), with other values of the same names and dimensions. With a relative tolerance between 0 and 1, Main then returns at least the number of components that must be rejected and at most the number that need not be accepted, where each component counts as a single measurement of its own. Sizes, indices and regions are by default compared exactly whatever the tolerance: Main returns the number of components that differ and 0 exactly if none does. Integers are cut to 32 bits, so values that differ by multiples of 2^32 give identical runs. The project's own region test with its own baseline passes exactly for a region with origin 0 and size 100 x 77 x 1, returns 1 without an argument and -1 if the image cannot be read.", "quantifier": "every list of compound values of any dimensions, names, tolerances, file names, data directories, remaining arguments, worlds and conforming XML parsers; every region of three components below 2^30 for the project's test", "why_tests_cant": "A test measures a few values of a few dimensions; the result has to count exactly for all dimensions, positions of the differing components, values and tolerances.", "anchors": ["itktf/itktfRegression.h: MeasurementInsightSize, MeasurementInsightIndex, MeasurementInsightRegion, MeasurementInsightPoint, MeasurementInsightVector, MeasurementInsightFixedArray, MeasurementInsightMatrix", "itktf/Testing/itktfMeasurementInsightRegionTest.cxx: Test", "itktf/Testing/XML/itktfMeasurementInsightRegionTest.xml", "TestingFramework/tfRegressionTest.cpp: RegressionTest::Main, CompareMeasurement"]}
{"id": "C115", "title": "tfPipeToXML recorded and compared end to end", "statement": "tfPipeToXML runs a command and records what it writes; run later with that document as baseline it compares what a command writes then. For every command, every option list and every set of search paths: the recording run exits with 0 if the result of the command (its exit value, or -1 if it did not exit by itself) is the one expected by -R (default 0), with that result otherwise. The comparing run exits with the result of the command if it is not the expected one; otherwise with 0 if everything the command wrote, on both pipes in order of arrival, is byte for byte what was recorded, and with 1 if not. Hence it passes exactly in that case, or when the command succeeds although another result was expected (then its output is not looked at). Without -O the document goes to standard output with the line announcing the command line inside it: it is still a good baseline if the arguments contain none of & < >; an argument that is the XML text of a measurement becomes the first measurement of the baseline, and an identical run then fails.", "quantifier": "all commands and their outputs of printable text, however they arrive in pieces; all exit states; all option lists; all worlds; all conforming XML parsers", "why_tests_cant": "a test runs a few commands once; the claim ranges over all outputs, all ways in which they arrive, all options and all arguments (which end up inside the document)", "anchors": ["TestingFramework/tfPipeToXML.cxx: Test, main", "TestingFramework/tfRegressionTest.cpp: Main, BeginMeasurement, EndMeasurement, CompareMeasurement"]}
{"id": "C116", "title": "Runs at the same time do not disturb each other", "statement": "Several regression test programs run at the same time on one file system, as with ctest -j. For every number of processes, every test, every command line and every interleaving of their steps (parsing the command line, opening the output, opening and reading the baseline, writing the header, each measurement call, each action of the test, the end): if a run keeps to a set of files (its option values, the search path, the files its baseline and its calls name, what its test does) and no other run writes to these files (their -O and what their tests do are elsewhere; reading is allowed, so many runs may share a baseline), then that run is at every moment where it would be alone after as many turns; given enough turns it ends, and exit value, object, standard output and the contents of its files are those of a run alone. Runs that are apart from each other all end as they would alone. The image comparison of itk::Regression looks at nothing but the two files. If the condition fails it goes wrong: a comparison with a document that another run has just begun to record reads an empty document and returns -1.", "quantifier": "all numbers of processes, all tests (programs of calls, actions and settings), command lines, objects, file systems, and all interleavings of steps of any length", "why_tests_cant": "The number of schedules grows exponentially and a disturbance may need one particular interleaving; a test runs one schedule, and does not choose it.", "anchors": ["TestingFramework/tfRegressionTest.cpp:292-345 (Main)", "TestingFramework/tfRegressionTest.cpp:139-196 (BeginMeasurement, EndMeasurement)", "TestingFramework/tfRegressionTest.cpp:372-434 (CompareMeasurement)", "itktf/itktfCompareVisitor.cxx:34-140", "itktf/Testing/CMakeLists.txt (ADD_TEST)"]}
{"id": "C117", "title": "A recording that does not fit on the disk goes unnoticed, but never becomes a baseline that passes", "statement": "If only the first n bytes of the output file can be written, a recording run whose test has nothing to do with that file returns the same value and leaves the same standard output and the same other files as with an unlimited disk (0 for a test that returns 0: the loss is not reported), and the output file holds the first n bytes of the full document. A comparing run whose output does not fit returns the same value, too. If at least two bytes of a recording are missing, a run that compares with this file does not return 0, whatever its test measures or returns.", "quantifier": "every n, every test that ignores the output file, every sequence of recorded measurements, every later test", "why_tests_cant": "the loss can happen at every byte of every document; tests run on disks that have room", "anchors": ["TestingFramework/tfRegressionTest.cpp:BeginMeasurement", "TestingFramework/tfRegressionTest.cpp:EndMeasurement", "TestingFramework/tfRegressionTest.cpp:Main", "TestingFramework/tfRegressionTest.cpp:WriteXMLOutputStart"]}
{"id": "C118", "title": "The verdict depends on the files that are read and on nothing else around the run", "statement": "The value Main returns, the state of the test object afterwards and the files that are read do not depend on the name of the host, the time, what has been written to standard output before, or the contents of the output file, not even if other programs change the contents of the output file (or of files the run does not read) while the run is going on; for every test that itself does not look at these.", "quantifier": "every class, test, command line, object and file system; every pair of surroundings that agree on the files that are read; every interference with the output after every step", "why_tests_cant": "all hosts, times, old contents and interferences cannot be tried", "anchors": ["TestingFramework/tfRegressionTest.cpp:Main", "TestingFramework/tfRegressionTest.cpp:BeginMeasurement", "TestingFramework/tfRegressionTest.cpp:WriteXMLOutputStart", "TestingFramework/tfRegressionTest.cpp:CompareMeasurement"]}
{"id": "C119", "title": "The error stream of a run is what the test writes and what cannot be read, in order; differences are never reported there", "statement": "Everything written to the error stream in one run of Main is, in this order: one line for each -O value that cannot be written, the lines about the baseline document, then what the test writes itself and what its measurements write, interleaved as they happen, and one line about an exception if it ends the test. A measurement that is recorded writes nothing there. One that is compared writes nothing if there is no entry of its name and type, or if it is a number with a tolerance; otherwise what is written depends only on how the data of entry and measurement can be read: one line for a file that cannot be opened, one for file types that cannot be compared, the lines about encoding and compression of an entry (three times if the lengths agree, once otherwise). So with a baseline as it is recorded, texts and numbers that differ, or that have no entry, leave no trace on the error stream. If the test is not called, the stream is the one of C112.", "quantifier": "every test (any sequence of measurements, settings, actions and writes to the error stream), baseline, search path, tolerance and files; every command line with acceptable options", "why_tests_cant": "The claim that nothing else is written is about all interleavings of test output, entries and files; a test shows some lines that are written in some runs.", "anchors": ["TestingFramework/tfRegressionTest.cpp: Main, CompareMeasurement", "TestingFramework/tfMeasurement.cpp: IsEqual, Load", "TestingFramework/tfMeasurementVisitor.cpp: CompareVisitor"]}
{"id": "C120", "title": "What is said about images", "statement": "While an itk::Regression compares an image: a baseline image that cannot be read is reported by \"Exception detected while reading NAME : DESCRIPTION\" without an end of line, so that the line about the exception that then ends the test is appended to it; a test image that cannot be read by the same text with an end of line; in both cases nothing of the rest of the test is run and nothing else is said but the line about the exception. If both can be read, nothing is said if they are the same, if their sizes differ or if the difference cannot be computed; otherwise at most what goes wrong with rescaling and writing the three images for the dashboard, in the order difference, baseline, test. Keeping what is said does not change what is reported on the standard output.", "quantifier": "every pair of image files, tolerance, search path, state of the run and outcome of rescaling and writing", "why_tests_cant": "Needs every combination of unreadable files and failing filters; the missing end of line shows only together with the exception that follows.", "anchors": ["itktf/itktfCompareVisitor.cxx: Visit, RegressionTestImage", "itktf/itktfDifferenceVisitor.cxx: DifferenceTestImage, ImageThing", "TestingFramework/tfRegressionTest.cpp: Main"]}
{"id": "C121", "title": "What the programs say", "statement": "tfPipeToXML returns -1 exactly with one line that says why there is no exit value of the command (one text for each end state of the process library), and says nothing itself if the command exited, whatever its value and its output. itktfImageCompare measures the images in front of the first argument that is wrong, says in exactly one line what is wrong with it (a missing value, a value that cannot be read, an unknown option) and returns 1; if no argument is wrong it says nothing itself and returns 0. Without any argument it prints its usage and returns 0 as well. Both are the programs of the other claims with what they say added.", "quantifier": "every command and behaviour of it; every list of arguments and every way to read numbers; every recording run", "why_tests_cant": "Argument lists and end states of processes are unbounded; that there is exactly one line, and none otherwise, is a claim about all of them.", "anchors": ["TestingFramework/tfPipeToXML.cxx: Test", "itktf/itktfImageCompare.cxx: Test"]}
{"id": "C122", "title": "What the predicates of path names say", "statement": "Exists, IsFile, IsDirectory, IsReadable, IsWritable and IsExecutable tell about the file the name leads to from the current directory, through links, too: whether there is one, whether it is a regular file, a directory, may be read, written, executed; to be readable or writable a directory has to be searchable as well. Nothing is a file and a directory, a name of which one of them is true exists, the empty name does not exist, the name of a file with a slash behind it does not exist, that of a directory remains one, and what follows a NUL is not looked at. SetCurrentDirectory throws exactly for names that are not IsDirectory, and then does not move; otherwise it returns whether the directory may be entered and moves exactly then.", "quantifier": "every file system (any nodes, links, permissions), current directory and name", "why_tests_cant": "File systems, permissions and names are unbounded; a test tries a few files.", "anchors": ["FileUtilities/PathName.cpp: IsWritable, IsReadable, IsExecutable, IsFile, IsDirectory, Exists", "FileUtilities/FileUtilities.cpp: SetCurrentDirectory"]}
{"id": "C123", "title": "The project's own test of arguments fails once for every argument that differs", "statement": "The test tfRegressionTestArgumentsTest measures the expected return value and every argument that the library leaves to it. It is recorded with any options and arguments (text without control characters), and run again, with any options and arguments, against the document it left, wherever that is found by -I and -P. The recording run returns 0. The comparing run returns 0 if -R tells it to expect anything but 0 (so the fourth to sixth of the project's runs of this test cannot fail); otherwise it returns the number of its arguments, the name of the program included, that are not the recorded ones at their positions, plus one if the recording run expected anything but 0. Options never count among the arguments, and recorded arguments beyond the last one given are not counted.", "quantifier": "all options in any order and number, all further arguments of the two runs, all file systems, all XML parsers that conform to what C83 asks of expat, all tolerances of the comparing object", "why_tests_cant": "The project runs the test with eight command lines against eight hand-made documents; that no option leaks into the measurements and that every difference is counted once is a statement about all pairs of command lines.", "anchors": ["TestingFramework/tests/tfRegressionTestArgumentsTest.cxx:7-34", "TestingFramework/tests/CMakeLists.txt:60-75", "TestingFramework/tfRegressionTest.cpp: Main, ParseArguments, CompareMeasurement"]}
{"id": "C124", "title": "Runs that record to the same file at the same time", "statement": "Any number of runs, whose tests make measurements and do nothing else with files, are told by -O to record to the same file, at the same time. Every run returns exactly what it returns alone: it is not noticed. When all have ended and all they wrote has reached the file: up to the length of the document of the run that opened the file last, every byte of the file is the byte one of the runs' documents has at that place; bytes beyond are such bytes too, or NUL; the file is not longer than the longest document; no other file has changed. If the documents have the same length this holds for the whole file; if all are equal that document is left; and if the same measurements were recorded on one host, only at different times, the file reads as these measurements, whatever bytes of the times are mixed. Otherwise what is left can be neither document: there always is an order (both runs open the file before either writes) after which the file is one document followed by what the other has beyond its length; it may be unreadable, so that every later run with it as baseline returns -1.", "quantifier": "all numbers of runs, all tests that only measure, all command lines that are accepted and name the file by -O and no baseline, all schedules of the steps of the runs, all ways the buffers of the output streams reach the file in pieces, all file systems on which the file is (or can become) a writable regular file", "why_tests_cant": "ctest -j runs tests in any order and the C++ library writes its buffers when it likes; a test sees one interleaving, usually the one in which one run ends before the other starts.", "anchors": ["TestingFramework/tfRegressionTest.cpp:139-175 (BeginMeasurement)", "TestingFramework/tfRegressionTest.cpp:292-345 (Main)", "TestingFramework/tfRegressionTest.cpp:177-199 (EndMeasurement)"]}
{"id": "C125", "title": "What Main does to the caller's array of arguments, and a second run with it", "statement": "Main rearranges the array argv of its caller: after it the array holds the same arguments, first the program name and those the test gets, then the removed options, the last one first, each with its value in front of it if the test gets an odd number of arguments (also when a refused option ends Main). So two objects run with the same argc and argv one after the other do not see the same command line. If the test gets no arguments, the second one sees the options in the opposite order. If it gets some, the second one sees no options at all, its test gets them as arguments, and it compares and records nothing: it returns what its test returns, whatever -I, -R and -O were given and whatever is measured.", "quantifier": "every command line, file system, object and test", "why_tests_cant": "the order after the swaps depends on the number of options and on the parity of the number of arguments, for every length", "anchors": ["TestingFramework/tfRegressionTest.cpp:RegressionTest::ParseAndRemoveArguments", "TestingFramework/tfRegressionTest.cpp:RegressionTest::Main"]}
{"id": "C126", "title": "Visitors and the parser of a run are destroyed exactly once and never used afterwards, unless an exception is thrown: then a call of Main loses none, one or two, depending on where it is thrown", "statement": "Whatever calls of Main are made on one object, and however they end, no compare visitor, difference visitor or XML parser is used before it is made or after it was destroyed, and none is destroyed twice. If no exception is thrown all of them have been destroyed in the end. Otherwise every call of Main that an exception ends loses at most two, for good: none if the arguments are refused, a file cannot be opened or the test itself throws; exactly the parser (with its buffer) if the baseline is rejected; exactly the compare visitor if comparing the values throws; the compare visitor and the difference visitor if reporting a difference throws, as it does for image files that cannot be read.", "quantifier": "all sequences of calls of Main on one object, all tests, arguments, files, settings changed in between, parsers and libraries, all points at which an exception can end a call", "why_tests_cant": "A leaked visitor or parser changes no output; use after free depends on the whole history, including exceptions at every point of every call.", "anchors": ["TestingFramework/tfRegressionTest.cpp: CompareMeasurement, DifferenceMeasurement, CreateCompareVisitor, CreateDifferenceVisitor, ReadXMLInput, Main", "itktf/itktfRegression.cxx: CreateCompareVisitor, CreateDifferenceVisitor"]}
{"id": "C127", "title": "Different options can be given in any order, and overruled ones left out", "statement": "If two command lines of accepted options give each of -I, -O, -R and -P the same values in the same order, everything Main does is the same, whatever the test: the value returned, the object, the files, standard output and what is written to the error stream, in order. Apart from the error stream, earlier values of -I, -O and -R make no difference at all. The order of the values of -P does, and so does the order of the options if one of them is refused (C38).", "quantifier": "every two command lines of accepted options with the same values of each option, every rest of the command line, every test, parser, object and state of the files", "why_tests_cant": "the claim ranges over all mixtures of unboundedly many options, all tests and all states of the files", "anchors": ["TestingFramework/tfRegressionTest.cpp:RegressionTest::ParseArguments", "TestingFramework/tfRegressionTest.cpp:RegressionTest::Main"]}
{"id": "C128", "title": "A test that measures one thing when it records and another when it compares is held to what it measures then; the project's own test of differences finds six", "statement": "Record a test whose measurements depend on its arguments and on GetCompareMode(), and compare it later with the recording, each time with any accepted options and any further arguments: the recording run returns 0, and the comparing run returns (if 0 is expected) at most the number of the values measured when comparing that need not be accepted against the value recorded at their position, and at least the number of those that must not be; 0 if anything but 0 is expected. For the project's own test tfRegressionTestTest3 this is always 6, what the test requires, for every tolerance up to 0.24; with a tolerance from 0.51 to 1 it is 4, and the test fails.", "quantifier": "all tests of this kind, all valid values, all command lines of the two runs, all tolerances in the given ranges, all conforming XML parsers, all states of the files", "why_tests_cant": "the project runs the test once, with one document and the default tolerance; nothing says the count does not depend on options, arguments, the place of the document or the tolerance", "anchors": ["TestingFramework/tests/tfRegressionTestTest3.cxx", "TestingFramework/tfRegressionTest.cpp: GetCompareMode, Main", "TestingFramework/tfMeasurementVisitor.cpp"]}
{"id": "C129", "title": "A tolerance set during a test holds for the measurements after it and for no others; the project's own test with a tolerance passes against any recording of itself", "statement": "Record a test that calls SetRelativeTolerance (values from 0 to 1) between its measurements and compare it later with the recording, each time with any accepted options and further arguments: the recording run returns 0 and what it records does not depend on the tolerances; the comparing run returns (if 0 is expected) at most the number of the values measured when comparing that need not be accepted, with the tolerance set last before they are measured (the one of the object before the first call), against the value recorded at their position, and at least the number of those that must not be. The project's own test tfRegressionTestTest2 therefore returns 0 when compared with any recording of itself, whatever the options, arguments and the tolerance of the comparing object (0, or at least 5 in a million).", "quantifier": "all sequences of measurements and tolerances (which may depend on the arguments and on whether the run records or compares), all valid values, all command lines of the two runs, all conforming XML parsers, all states of the files", "why_tests_cant": "the project has one such test, with one tolerance at one place, run against one document with the default tolerance", "anchors": ["TestingFramework/tests/tfRegressionTestTest2.cxx", "TestingFramework/tfRegressionTest.h: SetRelativeTolerance", "TestingFramework/tfRegressionTest.cpp: CompareMeasurement", "TestingFramework/tfMeasurementVisitor.cpp"]}
{"id": "C130", "title": "A test of files is held to the files found by their last name; the project's own tests of files", "statement": "Record a test that measures files (text, PNG or JPEG) and compare it later with the recording, each time with any accepted options and further arguments: the recording run returns 0, whatever the files are; the comparing run returns 0 if -R tells it to expect anything but 0, otherwise the number of its measurements that are not, under the same name, those of a text file with exactly the bytes of the file that is found by the last component of the recorded name, the first file of that name in the directories given by -P and those the object was given counting (an unreadable file agrees with nothing). Images never agree. So the project's own test tfRegressionTestTest4 passes exactly if the plain.txt found is the same as that of its data, and tfRegressionTestOutputTest2 never passes against its own recording: it returns 2, or 3 if the text is not found or is another.", "quantifier": "all sequences of file measurements (which may depend on the arguments and on whether the run records or compares), all contents and states of all files, all search paths, all command lines of the two runs, all conforming XML parsers", "why_tests_cant": "the project's tests measure one text file against itself and count three failures against an empty baseline; they never record files, nor do they have another file of the same name on the path", "anchors": ["TestingFramework/tfRegressionTest.cpp: MeasurementFileTextPlain, MeasurementFileImagePNG, MeasurementFileImageJPEG, CompareMeasurement", "TestingFramework/tfMeasurement.cpp: MeasurementFile", "TestingFramework/tests/tfRegressionTestTest4.cxx", "TestingFramework/tests/tfRegressionTestOutputTest2.cxx"]}
{"id": "C131", "title": "A document without measurements makes every measurement fail; the project's own tests of the output", "statement": "Record a test that measures nothing (the project's tfRegressionTestTest1) and compare any other test that makes measurements, of any kind and number, with the document it leaves, each time with any accepted options and further arguments: the recording run returns 0; the comparing run returns 0 if -R tells it to expect anything but 0, otherwise exactly the number of its measurements - no file that it measures is looked at. So the project's tests of the output find six and three measurements without a partner, as it expects, whatever the options, the arguments and the files. Compared with a recording of itself the first of them returns 0, for every tolerance of the comparing object that is 0 or at least 5 in a million.", "quantifier": "all sequences of measurements (which may depend on the arguments), all command lines of the two runs, all states of the files, all tolerances and search paths of the objects, all conforming XML parsers", "why_tests_cant": "the project runs each of the two tests once, against one document without measurements, without further options", "anchors": ["TestingFramework/tests/tfRegressionTestOutputTest1.cxx", "TestingFramework/tests/tfRegressionTestOutputTest2.cxx", "TestingFramework/tests/tfRegressionTestTest1.cxx", "TestingFramework/tfRegressionTest.cpp: CompareMeasurement, UnmatchedMeasurement, Main"]}
{"id": "C132", "title": "Texts may be recorded as values and measured as files, but not the other way round; tests of values and files with tolerances", "statement": "Record a test that measures values and files (text, PNG, JPEG) and calls SetRelativeTolerance (values from 0 to 1) between, and compare it later with the recording, each time with any accepted options and further arguments: the recording run returns 0; the comparing run returns (if 0 is expected) at most the number of its measurements that need not be accepted, with the tolerance set last before them, for what was recorded at their position, and at least the number of those that must not be. Values are held to values as in C89, files to files as in C130. A text recorded as a value is accepted for a measured text file of that name with exactly those bytes. A text recorded as a file is accepted for a measured text of that name only if a file with the last component of the recorded name is in the current directory and has those bytes: -P and the directories of the object do not count. So a test that always does the same, with tolerances 0 or from 5 in a million to 1, passes against a recording of itself if and only if each file it measures is a text file that can be read and has the bytes of the file of that name found first in the directories given by -P and those of the object.", "quantifier": "all sequences of measurements and tolerances (which may depend on the arguments and on whether the run records or compares), all valid values, all contents and states of all files, all search paths, all command lines of the two runs, all conforming XML parsers", "why_tests_cant": "no test of the project measures both values and files, and none compares a file with a text", "anchors": ["TestingFramework/tfRegressionTest.cpp: CompareMeasurement, SetRelativeTolerance", "TestingFramework/tfMeasurement.cpp: MeasurementFile::IsEqual", "TestingFramework/tfMeasurementVisitor.cpp"]}
{"id": "C133", "title": "What a test has set at its end decides what its run returns", "statement": "A test may call SetExpectedReturn, SetInFileName and SetInFileSearchPath after its measurements. If it does so in a run that compares with a recording, the measurements are compared with the recording all the same, but what Main returns is decided by what was set last: if the test returns another value than the one it set as expected (without a call, the -R one), that value; otherwise, if the baseline name it set (without a call, the -I one) is not empty and the file looked up for that name in the directories it set (without a call, those of -P and of the object) can be read, the number of measurements that were not accepted; otherwise 0, however many were not accepted. So a test that sets an empty baseline name, one that is not there, or directories in which the baseline is not found, passes silently.", "quantifier": "all sequences of measurements of values and files and of tolerances, all values set and returned at the end (each setter called or not), all search paths, contents and states of files, all command lines of the two runs, all conforming XML parsers", "why_tests_cant": "no test of the project calls these setters from inside a test; a silent pass is not seen by running tests that pass", "anchors": ["TestingFramework/tfRegressionTest.cpp: RegressionTest::Main, GetCompareMode, SetInFileName, SetExpectedReturn, SetInFileSearchPath"]}
{"id": "C134", "title": "A baseline that is named inside the test is never read: the later measurements fail and the document is cut", "statement": "Run a test with -O f and without -I, that makes measurements, then calls SetInFileName(b), makes further measurements and returns a value. If the file looked up for b (in the directories of -P and of the object, once f has been opened) can be read, then, whatever it contains and even if it is no document at all, f holds at the end the header, one element for each of the first measurements as recorded, and one element for each of the further ones under its name preceded by \"Unmatched \", and no end; and Main returns the value of the test if that is not the expected one, and otherwise the number of the further measurements. If it cannot be read (or b is empty), the call has no effect: all measurements are recorded, the document has its end, and Main returns 0 if the test returned what is expected and the value of the test otherwise.", "quantifier": "all sequences of measurements of all types before and after the call, all names, all contents and states of files, all search paths, all values returned, all accepted command lines without -I", "why_tests_cant": "no test of the project calls SetInFileName inside a test", "anchors": ["TestingFramework/tfRegressionTest.cpp: RegressionTest::SetInFileName, GetCompareMode, BeginMeasurement, EndMeasurement, CompareMeasurement, UnmatchedMeasurement, Main"]}
{"id": "C135", "title": "Options and setters called before Main are the same", "statement": "Let a command line begin with options (-R, -P, -I, -O with values, in any order and number) of which no -I or -P value is refused and the last -O value is not an existing file that cannot be written. Calling Main with it has the same result, writes the same to standard output and to every file, and leaves the same object, as calling Main with the command line without these options after the setters that stand for them have been called in the same order: SetExpectedReturn with the number read from the -R value, PrependInFileSearchPath, SetInFileName and SetOutFileName.", "quantifier": "all tests, all objects and states of files before the call, all sequences of accepted options, all further arguments", "why_tests_cant": "no test of the project sets up an object before Main; sequences of options are unbounded", "anchors": ["TestingFramework/tfRegressionTest.cpp: RegressionTest::ParseAndRemoveArguments, SetExpectedReturn, PrependInFileSearchPath, SetInFileName, SetOutFileName, Main"]}
