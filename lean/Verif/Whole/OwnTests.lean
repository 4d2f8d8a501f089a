import Verif.Whole.Model

/-!
# The project's own tests of the framework, TestingFramework/tests

`tfHeaderTest.cxx` (which includes the headers and returns 0) is not among them.
-/

namespace Verif.Whole.RepoTests
open Verif.Measurement Verif.Regression Verif.Decimal

/-- A test that makes these calls and returns 0. -/
def calls (l : List Call) : Prog := l.foldr (fun c p => .call c fun _ => p) (.ret 0)

/-- TestingFramework/tests/tfRegressionTestTest1.cxx:6-15 -/
def test1 (_ : List Str) : Prog := .ret 0

/-- TestingFramework/tests/tfRegressionTestTest2.cxx:6-28 -/
def test2 (_ : List Str) : Prog :=
  .call (.textString b!"string text value" b!"TextString") fun _ =>
  .call (.textPlain b!"this is\n some plain text\n" b!"TextPlain") fun _ =>
  .call (.integer 0 b!"NumericInteger" false) fun _ =>
  .call (.float (floatText (.ofRat (single.nearest (11 / 10)))) b!"NumericFloat" true) fun _ =>
  .setTolerance (64 / 2 ^ 52) <|
  .call (.double (doubleText (.ofRat (double.nearest (20 / 9)))) b!"NumericDouble" true) fun _ =>
  .call (.boolean true b!"NumericBoolean" false) fun _ => .ret 0

/-- The values of tfRegressionTestOutputTest1.cxx and of the first branch of tfRegressionTestTest3.cxx. -/
def values1 : List Call := [.textString b!"string text value" b!"TextString", .textPlain b!"this is\n some plain text\n" b!"TextPlain",
  .integer 0 b!"NumericInteger" false, .float (floatText (.ofRat (single.nearest (11 / 10)))) b!"NumericFloat" true,
  .double (doubleText (.ofRat (double.nearest (30 / 9)))) b!"NumericDouble" true, .boolean true b!"NumericBoolean" false]

/-- The values of the second branch of tfRegressionTestTest3.cxx. -/
def values2 : List Call := [.textString b!"difference string text value" b!"TextString", .textPlain b!"this is different\n some plain text\n" b!"TextPlain",
  .integer 1 b!"NumericInteger" false, .float (floatText (.ofRat (single.nearest (22 / 10)))) b!"NumericFloat" true,
  .double (doubleText (.ofRat (double.nearest (40 / 9)))) b!"NumericDouble" true, .boolean false b!"NumericBoolean" false]

/-- TestingFramework/tests/tfRegressionTestTest3.cxx:5-38 -/
def test3 (_ : List Str) : Prog := .ask fun s => if s.compareMode then calls values1 else calls values2

/-- TestingFramework/tests/tfRegressionTestTest4.cxx:6-28 -/
def test4 (_ : List Str) : Prog := calls [.fileTextPlain (Path.append b!"/t/data" b!"plain.txt") b!"FileTextPlain"]

/-- TestingFramework/tests/tfRegressionTestOutputTest1.cxx:5-24 -/
def outputTest1 (_ : List Str) : Prog := calls values1

/-- TestingFramework/tests/tfRegressionTestOutputTest2.cxx:9-25 -/
def outputTest2 (_ : List Str) : Prog := calls [.fileTextPlain (Path.append b!"/t/data" b!"plain.txt") b!"FileTextPlain",
  .filePNG (Path.append b!"/t/data" b!"vm_head_coronal.png") b!"FileImagePNG", .fileJPEG (Path.append b!"/t/data" b!"vm_head_coronal.jpg") b!"FileImageJPEG"]

/-- The measurements of arguments from number `i` on. -/
def arguments (i : Nat) : List Str → List Call
  | [] => []
  | a :: r => .textString a (b!"Argument " ++ intText i) :: arguments (i + 1) r

/-- TestingFramework/tests/tfRegressionTestArgumentsTest.cxx:7-34 -/
def argumentsTest (argv : List Str) : Prog := .ask fun s => calls (.integer s.expected b!"ExpectedReturn" false :: arguments 0 argv)

end Verif.Whole.RepoTests
