import Verif.Whole.OwnTests
import Verif.Xml.Reference

/-!
# The project's own tests, run in the model

`TestingFramework/tests` holds tests of the framework with their baselines; `CMakeLists.txt:34-75` runs them.  Here the same programs run in the model, with
the baselines as they are in the repository (the texts below are generated from them) and the reference parser in the place of expat.  Each gives what
the project expects.  These are checks of the model against the code, no theorems.
-/

namespace Verif.Whole.RepoTests
open Verif.Measurement Verif.Regression Verif.Decimal Verif.Xml

/-- The baselines, TestingFramework/tests/xml, and the data, TestingFramework/tests/data (the images are not looked at). -/
def files : List (Str × Str) := [
  (b!"/t/xml/tfRegressionTestTest1.xml", b!"<?xml version=\"1.0\" encoding=\"US-ASCII\"?>\n<!-- created on victoria.nlm.nih.gov at Thu Apr  9 13:50:33 2009\n -->\n<output>\n</output>\n"),
  (b!"/t/xml/tfRegressionTestTest2.xml", b!"<?xml version=\"1.0\" encoding=\"US-ASCII\"?>\n<!-- created on victoria.nlm.nih.gov at Thu Apr 30 14:35:53 2009\n -->\n<output>\n<DartMeasurement name=\"TextString\" type=\"text/string\">string text value</DartMeasurement>\n<DartMeasurement name=\"TextPlain\" type=\"text/plain\">this is\n some plain text\n</DartMeasurement>\n<DartMeasurement name=\"NumericInteger\" type=\"numeric/integer\">0</DartMeasurement>\n<DartMeasurement name=\"NumericFloat\" type=\"numeric/float\">1.1</DartMeasurement>\n<DartMeasurement name=\"NumericDouble\" type=\"numeric/double\">2.222222222222222</DartMeasurement>\n<DartMeasurement name=\"NumericBoolean\" type=\"numeric/boolean\">1</DartMeasurement>\n</output>\n"),
  (b!"/t/xml/tfRegressionTestTest3.xml", b!"<?xml version=\"1.0\" encoding=\"US-ASCII\"?>\n<!-- created on victoria.nlm.nih.gov at Wed Apr 22 15:49:06 2009\n -->\n<output>\n<DartMeasurement name=\"TextString\" type=\"text/string\">difference string text value</DartMeasurement>\n<DartMeasurement name=\"TextPlain\" type=\"text/plain\">this is different\n some plain text\n</DartMeasurement>\n<DartMeasurement name=\"NumericInteger\" type=\"numeric/integer\">1</DartMeasurement>\n<DartMeasurement name=\"NumericFloat\" type=\"numeric/float\">2.2</DartMeasurement>\n<DartMeasurement name=\"NumericDouble\" type=\"numeric/double\">4.44444</DartMeasurement>\n<DartMeasurement name=\"NumericBoolean\" type=\"numeric/boolean\">0</DartMeasurement>\n</output>\n"),
  (b!"/t/xml/tfRegressionTestTest4.xml", b!"<?xml version=\"1.0\" encoding=\"US-ASCII\"?>\n<!-- created on victoria.nlm.nih.gov at Thu Apr 23 16:01:12 2009\n -->\n<output>\n<DartMeasurementFile name=\"FileTextPlain\" type=\"text/plain\">plain.txt</DartMeasurementFile>\n<DartMeasurementFile name=\"FileImagePNG\" type=\"image/png\">vm_head_coronal.png</DartMeasurementFile>\n<DartMeasurementFile name=\"FileImageJPEG\" type=\"image/jpeg\">vm_head_coronal.jpg</DartMeasurementFile>\n</output>\n"),
  (b!"/t/xml/tfRegressionTestOutputTest1.xml", b!"<?xml version=\"1.0\" encoding=\"US-ASCII\"?>\n<!-- created on victoria.nlm.nih.gov at Thu Apr  9 13:50:33 2009\n -->\n<output>\n</output>\n"),
  (b!"/t/xml/tfRegressionTestOutputTest2.xml", b!"<?xml version=\"1.0\" encoding=\"US-ASCII\"?>\n<!-- created on victoria.nlm.nih.gov at Thu Apr  9 13:50:33 2009\n -->\n<output>\n</output>\n"),
  (b!"/t/xml/tfRegressionTestArgumentsTest1.xml", b!"<?xml version=\"1.0\" encoding=\"US-ASCII\"?>\n<!-- created on victoria.nlm.nih.gov at Wed Sep 16 09:54:28 2009\n -->\n<output>\n<DartMeasurement name=\"ExpectedReturn\" type=\"numeric/integer\">0</DartMeasurement>\n<DartMeasurement name=\"Argument 0\" type=\"text/string\">tfRegressionTestArgumentsTest</DartMeasurement>\n</output>\n"),
  (b!"/t/xml/tfRegressionTestArgumentsTest2.xml", b!"<?xml version=\"1.0\" encoding=\"US-ASCII\"?>\n<!-- created on victoria.nlm.nih.gov at Wed Sep 16 09:54:28 2009\n -->\n<output>\n<DartMeasurement name=\"ExpectedReturn\" type=\"numeric/integer\">0</DartMeasurement>\n<DartMeasurement name=\"Argument 0\" type=\"text/string\">tfRegressionTestArgumentsTest</DartMeasurement>\n<DartMeasurement name=\"Argument 1\" type=\"text/string\">one</DartMeasurement>\n</output>\n"),
  (b!"/t/xml/tfRegressionTestArgumentsTest3.xml", b!"<?xml version=\"1.0\" encoding=\"US-ASCII\"?>\n<!-- created on victoria.nlm.nih.gov at Wed Sep 16 09:54:28 2009\n -->\n<output>\n<DartMeasurement name=\"ExpectedReturn\" type=\"numeric/integer\">0</DartMeasurement>\n<DartMeasurement name=\"Argument 0\" type=\"text/string\">tfRegressionTestArgumentsTest</DartMeasurement>\n<DartMeasurement name=\"Argument 1\" type=\"text/string\">one</DartMeasurement>\n<DartMeasurement name=\"Argument 2\" type=\"text/string\">two</DartMeasurement>\n</output>\n"),
  (b!"/t/xml/tfRegressionTestArgumentsTest4.xml", b!"<?xml version=\"1.0\" encoding=\"US-ASCII\"?>\n<!-- created on victoria.nlm.nih.gov at Wed Sep 16 09:54:28 2009\n -->\n<output>\n<DartMeasurement name=\"ExpectedReturn\" type=\"numeric/integer\">1</DartMeasurement>\n<DartMeasurement name=\"Argument 0\" type=\"text/string\">tfRegressionTestArgumentsTest</DartMeasurement>\n</output>\n"),
  (b!"/t/xml/tfRegressionTestArgumentsTest5.xml", b!"<?xml version=\"1.0\" encoding=\"US-ASCII\"?>\n<!-- created on victoria.nlm.nih.gov at Wed Sep 16 09:54:28 2009\n -->\n<output>\n<DartMeasurement name=\"ExpectedReturn\" type=\"numeric/integer\">1</DartMeasurement>\n<DartMeasurement name=\"Argument 0\" type=\"text/string\">tfRegressionTestArgumentsTest</DartMeasurement>\n<DartMeasurement name=\"Argument 1\" type=\"text/string\">one</DartMeasurement>\n</output>\n"),
  (b!"/t/xml/tfRegressionTestArgumentsTest6.xml", b!"<?xml version=\"1.0\" encoding=\"US-ASCII\"?>\n<!-- created on victoria.nlm.nih.gov at Wed Sep 16 09:54:28 2009\n -->\n<output>\n<DartMeasurement name=\"ExpectedReturn\" type=\"numeric/integer\">1</DartMeasurement>\n<DartMeasurement name=\"Argument 0\" type=\"text/string\">tfRegressionTestArgumentsTest</DartMeasurement>\n<DartMeasurement name=\"Argument 1\" type=\"text/string\">one</DartMeasurement>\n<DartMeasurement name=\"Argument 2\" type=\"text/string\">two</DartMeasurement>\n</output>\n"),
  (b!"/t/xml/tfRegressionTestArgumentsTest7.xml", b!"<?xml version=\"1.0\" encoding=\"US-ASCII\"?>\n<!-- created on victoria.nlm.nih.gov at Wed Sep 16 09:54:28 2009\n -->\n<output>\n<DartMeasurement name=\"ExpectedReturn\" type=\"numeric/integer\">0</DartMeasurement>\n<DartMeasurement name=\"Argument 0\" type=\"text/string\">tfRegressionTestArgumentsTest</DartMeasurement>\n<DartMeasurement name=\"Argument 1\" type=\"text/string\">one</DartMeasurement>\n<DartMeasurement name=\"Argument 2\" type=\"text/string\">-R</DartMeasurement>\n<DartMeasurement name=\"Argument 3\" type=\"text/string\">1</DartMeasurement>\n<DartMeasurement name=\"Argument 4\" type=\"text/string\">three</DartMeasurement>\n</output>\n"),
  (b!"/t/xml/tfRegressionTestArgumentsTest8.xml", b!"<?xml version=\"1.0\" encoding=\"US-ASCII\"?>\n<!-- created on victoria.nlm.nih.gov at Mon Jun  7 17:20:38 2010\n -->\n<output>\n<DartMeasurement name=\"ExpectedReturn\" type=\"numeric/integer\">0</DartMeasurement>\n<DartMeasurement name=\"Argument 0\" type=\"text/string\">tfRegressionTestArgumentsTest</DartMeasurement>\n<DartMeasurement name=\"Argument 1\" type=\"text/string\">one</DartMeasurement>\n<DartMeasurement name=\"Argument 2\" type=\"text/string\">two</DartMeasurement>\n</output>\n"),
  (b!"/t/data/plain.txt", b!"this is just \na simple file \nwith a few lines of plain test\n"),
  (b!"/t/data/vm_head_coronal.png", []),
  (b!"/t/data/vm_head_coronal.jpg", [])]

/-- The files of the tests. -/
def tests : World where
  fs := ⟨fun n => if n = b!"/t/data" then some .directory else if (files.lookup n).isSome then some .regular else none, fun _ => true, fun _ => true, fun _ => true⟩
  bytes := fun n => (files.lookup n).getD []
  creatable := fun _ => true
  cout := []
  host := b!"host"
  time := b!"now\n"

/-- The library; nothing is known of the memory around the arrays of `Diff`. -/
def env : Env := whole reference (fun _ => 0, fun _ => 0) 40

/-- `Main` of a new object with these arguments. -/
def run (test : List Str → Prog) (argv : List Str) (o : Obj := {}) : Option Int :=
  match (main env test 10 argv ⟨o, tests⟩).2 with
  | .ok v => some v
  | .error _ => none

example : run test1 [b!"tfRegressionTestTest1", b!"-I", b!"/t/xml/tfRegressionTestTest1.xml"] = some 0 := by decide +kernel
example : run test2 [b!"tfRegressionTestTest2", b!"-I", b!"/t/xml/tfRegressionTestTest2.xml"] = some 0 := by decide +kernel
example : run test3 [b!"tfRegressionTestTest3", b!"-I", b!"/t/xml/tfRegressionTestTest3.xml"] = some 6 := by decide +kernel
example : run test4 [b!"tfRegressionTestTest4", b!"-I", b!"/t/xml/tfRegressionTestTest4.xml"] { searchPath := [b!"/t/data"] } = some 0 := by decide +kernel
example : run outputTest1 [b!"tfRegressionTestOutputTest1", b!"-I", b!"/t/xml/tfRegressionTestOutputTest1.xml"] = some 6 := by decide +kernel
example : run outputTest2 [b!"tfRegressionTestOutputTest2", b!"-I", b!"/t/xml/tfRegressionTestOutputTest2.xml"] = some 3 := by decide +kernel

/-! CMakeLists.txt:67-74. -/

example : run argumentsTest [b!"tfRegressionTestArgumentsTest", b!"-I", b!"/t/xml/tfRegressionTestArgumentsTest1.xml"] = some 0 := by decide +kernel
example : run argumentsTest [b!"tfRegressionTestArgumentsTest", b!"-I", b!"/t/xml/tfRegressionTestArgumentsTest2.xml", b!"one"] = some 0 := by decide +kernel
example : run argumentsTest [b!"tfRegressionTestArgumentsTest", b!"-I", b!"/t/xml/tfRegressionTestArgumentsTest3.xml", b!"one", b!"two"] = some 0 := by decide +kernel
example : run argumentsTest [b!"tfRegressionTestArgumentsTest", b!"-I", b!"/t/xml/tfRegressionTestArgumentsTest4.xml", b!"-R", b!"1"] = some 0 := by decide +kernel
example : run argumentsTest [b!"tfRegressionTestArgumentsTest", b!"-I", b!"/t/xml/tfRegressionTestArgumentsTest5.xml", b!"-R", b!"1", b!"one"] = some 0 := by decide +kernel
example : run argumentsTest [b!"tfRegressionTestArgumentsTest", b!"-I", b!"/t/xml/tfRegressionTestArgumentsTest6.xml", b!"-R", b!"1", b!"one", b!"two"] = some 0 := by decide +kernel
example : run argumentsTest [b!"tfRegressionTestArgumentsTest", b!"-I", b!"/t/xml/tfRegressionTestArgumentsTest7.xml", b!"one", b!"-R", b!"1", b!"three"] = some 0 := by decide +kernel
example : run argumentsTest [b!"tfRegressionTestArgumentsTest", b!"-P", b!"/t/data", b!"-I", b!"/t/xml/tfRegressionTestArgumentsTest8.xml", b!"one", b!"two"] = some 0 := by decide +kernel

/-- The fourth to sixth arguments test pass whatever is measured: they return 0 where 1 is expected, and then `Main` returns what the test returned. -/
example : run (fun _ => outputTest1 []) [b!"tfRegressionTestArgumentsTest", b!"-I", b!"/t/xml/tfRegressionTestArgumentsTest4.xml", b!"-R", b!"1"] = some 0 := by decide +kernel

end Verif.Whole.RepoTests
